import Verif.Model.ReadBase
import Verif.Lemmas.Digits
import Verif.Lemmas.Collectors

/-!
# Numbers written and read
-/

namespace Docx

open Docx.Xml Docx.Spec

theorem isDigit_dec {n : Nat} : (dec n).all isDigit = true := by
  rw [List.all_eq_true]
  intro c hc
  have h : ∀ c ∈ c!"0123456789", isDigit c = true := by decide
  exact h c (dec_digits n c hc)

theorem natOf_dec (n : Nat) : natOf (dec n) = some n := by
  rw [natOf, if_pos ⟨dec_ne_nil n, isDigit_dec⟩]
  have hv := valOf_dec n
  have key : ∀ (s : Str) (a : Nat), (∀ c ∈ s, c ∈ c!"0123456789") →
      s.foldl (fun a c => a * 10 + (c.toNat - 48)) a = s.foldl (fun a c => a * 10 + digitVal c) a := by
    intro s
    induction s with
    | nil => intros; rfl
    | cons c s ih =>
      intro a h
      have hc : ∀ c ∈ c!"0123456789", c.toNat - 48 = digitVal c := by decide
      simp only [List.foldl_cons]
      rw [hc c (h c (by simp)), ih _ fun d hd => h d (by simp [hd])]
  rw [key _ _ (dec_digits n)]
  exact congrArg some hv

theorem dec_head (n : Nat) : ∃ c s, dec n = c :: s ∧ c ≠ '-' ∧ c ≠ '+' := by
  cases h : dec n with
  | nil => exact absurd h (dec_ne_nil n)
  | cons c s =>
    have hc : ∀ c ∈ c!"0123456789", c ≠ '-' ∧ c ≠ '+' := by decide
    exact ⟨c, s, rfl, hc c (dec_digits n c (by simp [h]))⟩

theorem intOf_dec (n : Nat) : intOf (dec n) = some (n : Int) := by
  obtain ⟨c, s, h, h1, h2⟩ := dec_head n
  have : intOf (c :: s) = (natOf (c :: s)).map Int.ofNat := by
    unfold intOf
    split
    · rename_i h'; simp_all
    · rename_i h'; simp_all
    · rfl
  rw [h, this, ← h, natOf_dec]; rfl

theorem intOf_decInt (i : Int) : intOf (decInt i) = some i := by
  cases i with
  | ofNat n => exact intOf_dec n
  | negSucc n => simp only [decInt, intOf, natOf_dec]; rfl

theorem unsignedFromStr_dec (b n : Nat) (h : n < 2 ^ b) : unsignedFromStr b (dec n) = some n := by
  obtain ⟨c, s, e, h1, h2⟩ := dec_head n
  have : unsignedFromStr b (c :: s) = (natOf (c :: s)).filter (· < 2 ^ b) := by
    unfold unsignedFromStr
    split
    · rename_i h'; simp_all
    · rfl
  rw [e, this, ← e, natOf_dec]; simp [Option.filter, h]

theorem usizeFromStr_dec {n : Nat} (h : n < 2 ^ 64) : usizeFromStr (dec n) = some n := unsignedFromStr_dec 64 n h

theorem u32FromStr_dec {n : Nat} (h : n < 2 ^ 32) : u32FromStr (dec n) = some n := unsignedFromStr_dec 32 n h

theorem parseSigned_decInt (b : Nat) (i : Int) (h : -(2 ^ (b - 1)) ≤ i ∧ i < 2 ^ (b - 1)) :
    parseSigned b (decInt i) = some i := by
  rw [parseSigned, intOf_decInt]; simp [Option.filter, h]

theorem parseFloat_dec (x : ReadEnv) (n : Nat) : parseFloat x (dec n) = some (roundInt 53 n) := by
  rw [parseFloat, intOf_dec]

theorem parseFloat_decInt (x : ReadEnv) (i : Int) : parseFloat x (decInt i) = some (roundInt 53 i) := by
  rw [parseFloat, intOf_decInt]

theorem parseFloat32_dec (x : ReadEnv) (n : Nat) : parseFloat32 x (dec n) = some (roundInt 24 n) := by
  rw [parseFloat32, intOf_dec]

theorem roundBits_small {p n : Nat} (hp : 0 < p) (h : n ≤ 2 ^ p) : roundBits p n = n := by
  unfold roundBits
  split
  · rfl
  · have e : n = 2 ^ p := by omega
    subst e
    have h1 : (2 ^ p).log2 = p := Nat.log2_two_pow
    rw [h1]
    have h2 : p + 1 - p = 1 := by omega
    rw [h2]
    cases p with
    | zero => omega
    | succ p =>
      have h3 : 2 ^ (p + 1) % 2 ^ 1 = 0 := by rw [Nat.pow_succ]; omega
      have h4 : 2 ^ (p + 1) / 2 ^ 1 = 2 ^ p := by rw [Nat.pow_succ]; omega
      simp only [h3, h4]
      simp [Nat.pow_succ]

theorem roundInt_small {p : Nat} {i : Int} (hp : 0 < p) (h : i.natAbs ≤ 2 ^ p) : roundInt p i = i := by
  cases i with
  | ofNat n =>
    rw [roundInt, roundBits_small hp (by simpa using h)]; rfl
  | negSucc n =>
    rw [roundInt, roundBits_small hp (by simpa using h)]; rfl

/-- The number a `usize` becomes on its way through a float. -/
theorem toUsize_small {n : Nat} (h : n ≤ 2 ^ 53) : toUsize (roundInt 53 (n : Int)) = n := by
  rw [roundInt_small (by decide) (by simpa using h)]
  simp only [toUsize, saturate]; omega

theorem toU32_small {n : Nat} (h : n < 2 ^ 32) : toU32 (roundInt 53 (n : Int)) = n := by
  rw [roundInt_small (by decide) (by simp; omega)]
  simp only [toU32, saturate]; omega

theorem toI32_small {i : Int} (h : -(2 ^ 31) ≤ i ∧ i < 2 ^ 31) : toI32 (roundInt 53 i) = i := by
  rw [roundInt_small (by decide) (by omega)]
  simp only [toI32, saturate]; omega

theorem decodeAttr_decInt (i : Int) : decodeAttr (decInt i) = some (decInt i) :=
  decodeAttr_plain fun c hc => by
    have h' : ∀ c ∈ c!"-0123456789", c ≠ '&' ∧ c ≠ '<' ∧ c ≠ '"' ∧ c ≠ '\r' ∧ c ≠ '\t' ∧ c ≠ '\n' := by decide
    refine h' c ?_
    have hs : ∀ c ∈ c!"0123456789", c ∈ c!"-0123456789" := by decide
    cases i with
    | ofNat n => exact hs c (dec_digits n c hc)
    | negSucc n =>
      simp only [decInt, List.mem_cons] at hc
      rcases hc with rfl | hc
      · decide
      · exact hs c (dec_digits _ c hc)

end Docx
