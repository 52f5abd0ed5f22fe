import Verif.Model.Numbers
import Verif.Lemmas.Digits

/-!
# Parsing and printing numbers
-/

namespace Docx

theorem digit?_digitChar : ∀ d, d < 10 → digit? (Nat.digitChar d) = some d := by decide

theorem digits?_append (a b : Str) (acc : Nat) :
    digits? (a ++ b) acc = (digits? a acc).bind (digits? b) := by
  induction a generalizing acc with
  | nil => rfl
  | cons c a ih =>
    simp only [List.cons_append, digits?]
    cases digit? c <;> simp [ih]

/-- Parsing what `digitsAux` prints. -/
theorem digits?_digitsAux : ∀ (fuel n : Nat) (acc : Str) (m : Nat), n < fuel →
    digits? (digitsAux 10 fuel n acc) m = digits? acc (m * 10 ^ (digitsAux 10 fuel n []).length + n) := by
  intro fuel
  induction fuel with
  | zero => intro n acc m h; omega
  | succ fuel ih =>
    intro n acc m h
    unfold digitsAux
    dsimp only
    have hd := digit?_digitChar (n % 10) (Nat.mod_lt _ (by decide))
    by_cases h0 : n / 10 = 0
    · rw [if_pos h0, if_pos h0]
      simp only [digits?, hd, List.length_singleton, Nat.pow_one]
      congr 1
      omega
    · rw [if_neg h0, if_neg h0]
      have hlt : n / 10 < fuel := by omega
      rw [ih (n / 10) _ m hlt]
      simp only [digits?, hd]
      congr 1
      have hlen : (digitsAux 10 fuel (n / 10) [Nat.digitChar (n % 10)]).length =
          (digitsAux 10 fuel (n / 10) []).length + 1 := by
        have key : ∀ (fuel n : Nat) (acc : Str),
            (digitsAux 10 fuel n acc).length = (digitsAux 10 fuel n []).length + acc.length := by
          intro fuel
          induction fuel with
          | zero => intro n acc; simp [digitsAux]
          | succ fuel ih =>
            intro n acc
            unfold digitsAux
            dsimp only
            split
            · simp; omega
            · rw [ih (n / 10) (_ :: acc), ih (n / 10) [_]]
              simp; omega
        simpa using key fuel (n / 10) [Nat.digitChar (n % 10)]
      rw [hlen, Nat.pow_succ, Nat.add_mul, ← Nat.mul_assoc]
      have := Nat.div_add_mod n 10
      omega

theorem digits?_dec (n : Nat) : digits? (dec n) 0 = some n := by
  unfold dec
  rw [digits?_digitsAux _ _ _ _ (by omega)]
  simp [digits?]

/-- Printing and parsing a number. -/
theorem parseUnsigned_dec (bound n : Nat) (h : n < bound) : parseUnsigned bound (dec n) = some n := by
  unfold parseUnsigned
  have h1 := dec_digits n
  cases e : dec n with
  | nil => exact absurd e (dec_ne_nil n)
  | cons c s =>
    have hc : c ≠ '+' := by
      rintro rfl
      have := h1 '+' (by simp [e])
      revert this
      decide
    have hb : stripPlus (dec n) = dec n := by rw [e]; simp only [stripPlus, if_neg hc]
    rw [← e, hb, digits?_dec, if_neg (dec_ne_nil n)]
    exact if_pos h

theorem parseUsize_dec (n : Nat) (h : n < 2 ^ 64) : parseUsize (dec n) = some n := parseUnsigned_dec _ n h

/-- The value of the digits of a string of digits. -/
theorem digits?_value : ∀ (s : Str) (acc n : Nat), digits? s acc = some n →
    (∀ c ∈ s, c.isDigit) ∧ n = s.foldl (fun a c => a * 10 + (c.toNat - 48)) acc
  | [], acc, n, h => by simp [digits?] at h; simp [h]
  | c :: s, acc, n, h => by
    simp only [digits?] at h
    cases e : digit? c with
    | none => simp [e] at h
    | some d =>
      simp only [e] at h
      obtain ⟨h1, h2⟩ := digits?_value s _ n h
      unfold digit? at e
      split at e
      · rename_i hc
        simp only [Option.some.injEq] at e
        subst e
        refine ⟨?_, by simpa using h2⟩
        intro x hx
        rcases List.mem_cons.1 hx with rfl | hx
        · simp only [Char.isDigit, Bool.and_eq_true, decide_eq_true_eq]
          exact ⟨by simpa [Char.le_def] using hc.1, by simpa [Char.le_def] using hc.2⟩
        · exact h1 x hx
      · simp at e

end Docx
