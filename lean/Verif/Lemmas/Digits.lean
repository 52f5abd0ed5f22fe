import Verif.Model.Base

/-! Number formatting is injective: a value function reads the digits back. -/

namespace Docx

/-- The value of a digit character (`0` for other characters). -/
def digitVal (c : Char) : Nat :=
  if '0' ≤ c ∧ c ≤ '9' then c.toNat - 48
  else if 'a' ≤ c ∧ c ≤ 'f' then c.toNat - 87 else 0

/-- The value of a digit string in base `b`. -/
def valOf (b : Nat) (s : Str) : Nat := s.foldl (fun a c => a * b + digitVal c) 0

theorem digitVal_digitChar : ∀ d, d < 16 → digitVal (Nat.digitChar d) = d := by decide

theorem foldl_digitsAux (b : Nat) (hb : 2 ≤ b) (hb' : b ≤ 16) :
    ∀ (fuel n : Nat) (acc : Str), n < fuel →
      (digitsAux b fuel n acc).foldl (fun a c => a * b + digitVal c) 0 =
        acc.foldl (fun a c => a * b + digitVal c) n := by
  intro fuel
  induction fuel with
  | zero => intro n acc h; omega
  | succ fuel ih =>
    intro n acc h
    have hlt : n % b < b := Nat.mod_lt _ (by omega)
    have hd : digitVal (Nat.digitChar (n % b)) = n % b := digitVal_digitChar _ (by omega)
    unfold digitsAux
    by_cases h0 : n / b = 0
    · simp only [h0, if_true, List.foldl_cons, hd]
      have : n % b = n := by
        have := Nat.div_add_mod n b
        rw [h0] at this; omega
      simp [this]
    · simp only [h0, if_false]
      have hlt' : n / b < n := Nat.div_lt_self (by
        rcases Nat.eq_zero_or_pos n with h | h
        · subst h; simp at h0
        · exact h) (by omega)
      rw [ih _ _ (by omega), List.foldl_cons, hd]
      have := Nat.div_add_mod n b
      rw [Nat.mul_comm] at this
      rw [this]

theorem valOf_dec (n : Nat) : valOf 10 (dec n) = n := by
  unfold valOf dec; rw [foldl_digitsAux 10 (by omega) (by omega) _ _ _ (by omega)]; rfl

theorem valOf_hex (n : Nat) : valOf 16 (hex n) = n := by
  unfold valOf hex; rw [foldl_digitsAux 16 (by omega) (by omega) _ _ _ (by omega)]; rfl

theorem foldl_zeros (b : Nat) : ∀ k, (List.replicate k '0').foldl (fun a c => a * b + digitVal c) 0 = 0
  | 0 => rfl
  | k + 1 => by
    rw [List.replicate_succ, List.foldl_cons]
    have : digitVal '0' = 0 := by decide
    rw [this]; simpa using foldl_zeros b k

theorem valOf_pad0 (b w : Nat) (s : Str) : valOf b (pad0 w s) = valOf b s := by
  unfold valOf pad0; rw [List.foldl_append, foldl_zeros]

theorem dec_inj {m n : Nat} (h : dec m = dec n) : m = n := by
  have := congrArg (valOf 10) h; rwa [valOf_dec, valOf_dec] at this

theorem hex_inj {m n : Nat} (h : hex m = hex n) : m = n := by
  have := congrArg (valOf 16) h; rwa [valOf_hex, valOf_hex] at this

theorem pad0_dec_inj (w : Nat) {m n : Nat} (h : pad0 w (dec m) = pad0 w (dec n)) : m = n := by
  have := congrArg (valOf 10) h
  rwa [valOf_pad0, valOf_pad0, valOf_dec, valOf_dec] at this

theorem pad0_hex_inj (w : Nat) {m n : Nat} (h : pad0 w (hex m) = pad0 w (hex n)) : m = n := by
  have := congrArg (valOf 16) h
  rwa [valOf_pad0, valOf_pad0, valOf_hex, valOf_hex] at this

theorem digitsAux_ne_nil (b : Nat) : ∀ (fuel n : Nat) (acc : Str), acc ≠ [] → digitsAux b fuel n acc ≠ []
  | 0, _, _, h => h
  | fuel + 1, n, acc, _ => by
    unfold digitsAux
    by_cases h0 : n / b = 0
    · simp [h0]
    · simp only [h0, if_false]; exact digitsAux_ne_nil b fuel _ _ (by simp)

theorem dec_ne_nil (n : Nat) : dec n ≠ [] := by
  unfold dec digitsAux
  by_cases h0 : n / 10 = 0
  · simp [h0]
  · simp only [h0, if_false]; exact digitsAux_ne_nil _ _ _ _ (by simp)

theorem hex_ne_nil (n : Nat) : hex n ≠ [] := by
  unfold hex digitsAux
  by_cases h0 : n / 16 = 0
  · simp [h0]
  · simp only [h0, if_false]; exact digitsAux_ne_nil _ _ _ _ (by simp)

theorem pad0_ne_nil (w : Nat) {s : Str} (h : s ≠ []) : pad0 w s ≠ [] := by
  unfold pad0; simp [h]

/-- Every character of a decimal number is a digit. -/
theorem digitsAux_digits (b : Nat) (hb : 0 < b) (hb' : b ≤ 10) :
    ∀ (fuel n : Nat) (acc : Str), (∀ c ∈ acc, c ∈ c!"0123456789") →
      ∀ c ∈ digitsAux b fuel n acc, c ∈ c!"0123456789" := by
  intro fuel
  induction fuel with
  | zero => intro n acc h; exact h
  | succ fuel ih =>
    intro n acc h
    have hd : Nat.digitChar (n % b) ∈ c!"0123456789" := by
      have : n % b < 10 := Nat.lt_of_lt_of_le (Nat.mod_lt _ hb) hb'
      have aux : ∀ d, d < 10 → Nat.digitChar d ∈ c!"0123456789" := by decide
      exact aux _ this
    have h' : ∀ c ∈ Nat.digitChar (n % b) :: acc, c ∈ c!"0123456789" := by
      intro c hc
      rcases List.mem_cons.1 hc with rfl | hc
      · exact hd
      · exact h c hc
    unfold digitsAux
    by_cases h0 : n / b = 0
    · simp only [h0, if_true]; exact h'
    · simp only [h0, if_false]; exact ih _ _ h'

theorem dec_digits (n : Nat) : ∀ c ∈ dec n, c ∈ c!"0123456789" :=
  digitsAux_digits 10 (by omega) (by omega) _ _ _ (by simp)

/-- A list without repetition that is contained in another is not longer. -/
theorem length_le_of_nodup_subset {α : Type} [DecidableEq α] :
    ∀ {a b : List α}, a.Nodup → (∀ x ∈ a, x ∈ b) → a.length ≤ b.length
  | [], _, _, _ => by simp
  | x :: a, b, hn, hs => by
    rw [List.nodup_cons] at hn
    have h1 : ∀ y ∈ a, y ∈ b.erase x := fun y hy =>
      (List.mem_erase_of_ne (fun e => hn.1 (by rw [← e]; exact hy))).2 (hs y (by simp [hy]))
    have h2 := length_le_of_nodup_subset hn.2 h1
    have h3 := List.length_erase_of_mem (hs x (by simp))
    have h4 : 0 < b.length := List.length_pos_of_mem (hs x (by simp))
    simp; omega

/-- Pigeonhole: an injective sequence leaves any finite list within `length + 1` steps. -/
theorem exists_not_mem_of_injective {α : Type} [DecidableEq α] (f : Nat → α)
    (hf : ∀ {m n}, f m = f n → m = n) (l : List α) (start : Nat) :
    ∃ k, k ≤ l.length ∧ f (start + k) ∉ l := by
  refine Classical.byContradiction fun h => ?_
  have hall : ∀ k, k ≤ l.length → f (start + k) ∈ l := fun k hk =>
    Classical.byContradiction fun h' => h ⟨k, hk, h'⟩
  have hn : ((List.range (l.length + 1)).map (fun k => f (start + k))).Nodup := by
    rw [List.nodup_iff_pairwise_ne, List.pairwise_map]
    refine List.Pairwise.imp ?_ List.nodup_range
    intro a b hab e
    have := hf e
    omega
  have := length_le_of_nodup_subset (b := l) hn (by
    intro x hx
    obtain ⟨k, hk, rfl⟩ := List.mem_map.1 hx
    exact hall k (by have := List.mem_range.1 hk; omega))
  simp at this
  omega

end Docx
