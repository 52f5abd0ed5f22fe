import Verif.Spec.Json
import Verif.Lemmas.Digits

/-!
# What the printer of JSON writes is read back
-/

namespace Docx

open Spec

private theorem hex_pairs : ∀ n < 32, hexValue (Nat.digitChar (n / 16)) = some (n / 16) ∧ hexValue (Nat.digitChar (n % 16)) = some (n % 16) := by decide

private theorem hex_zero : hexValue '0' = some 0 := by decide

private theorem char_of (c : Char) (n : Nat) (h : c.toNat = n) : Char.ofNat n = c := by rw [← h, Char.ofNat_toNat]

/-- One character is read back. -/
theorem readChars_one (c : Char) (r : Str) : readChars .plain (jsonChar c ++ r) = (readChars .plain r).map fun x => (c :: x.1, x.2) := by
  unfold jsonChar
  split
  · next h => subst h; simp [readChars, unescaped]
  split
  · next h => subst h; simp [readChars, unescaped]
  split
  · next h => have := char_of c 8 h; subst this; simp [readChars, unescaped]
  split
  · next h => have : '\t' = c := char_of c 9 h; subst this; simp [readChars, unescaped]
  split
  · next h => have : '\n' = c := char_of c 10 h; subst this; simp [readChars, unescaped]
  split
  · next h => have := char_of c 12 h; subst this; simp [readChars, unescaped]
  split
  · next h => have : '\r' = c := char_of c 13 h; subst this; simp [readChars, unescaped]
  split
  · next h =>
    obtain ⟨h1, h2⟩ := hex_pairs c.toNat h
    have e : 16 * (c.toNat / 16) + c.toNat % 16 = c.toNat := by omega
    have hs : ¬ (0xD800 ≤ c.toNat ∧ c.toNat ≤ 0xDFFF) := by omega
    simp only [hexPair, List.cons_append, List.nil_append]
    simp only [readChars, hex_zero, h1, h2]
    simp [e, hs]
  · next h1 h2 _ _ _ _ _ h3 => simp [readChars, h1, h2, h3]

/-- A string is read back. -/
theorem readChars_str (s r : Str) : readChars .plain (s.flatMap jsonChar ++ '"' :: r) = some (s, r) := by
  induction s with
  | nil => simp [readChars]
  | cons c s ih => rw [List.flatMap_cons, List.append_assoc, readChars_one, ih]; rfl

/-- Only blanks. -/
def OnlyBlank (w : Str) : Prop := ∀ c ∈ w, jsonBlank c = true

theorem blank_nil : OnlyBlank [] := fun _ h => (by cases h)

theorem blank_line (n : Nat) : OnlyBlank (jsonLine n) := by
  intro c h
  simp only [jsonLine, List.mem_cons, List.mem_replicate] at h
  rcases h with rfl | ⟨_, rfl⟩ <;> decide

theorem dropBlank {w : Str} (h : OnlyBlank w) (r : Str) : (w ++ r).dropWhile jsonBlank = r.dropWhile jsonBlank := by
  induction w with
  | nil => rfl
  | cons c w ih => rw [List.cons_append, List.dropWhile_cons_of_pos (h c (by simp)), ih fun x hx => h x (by simp [hx])]

/-- Not in the middle of a number. -/
def Ends (r : Str) : Prop := ∀ c s, r = c :: s → numberChar c = false

private theorem number_facts : ∀ c, numberChar c = true → jsonBlank c = false ∧ c ≠ ']' ∧ c ≠ '}' ∧ c ≠ '"' ∧ c ≠ '[' ∧ c ≠ '{' ∧ c ≠ 'n' ∧ c ≠ 't' ∧ c ≠ 'f' := by
  intro c h
  refine ⟨?_, ?_, ?_, ?_, ?_, ?_, ?_, ?_, ?_⟩
  · cases hb : jsonBlank c with
    | false => rfl
    | true =>
      simp only [jsonBlank, Bool.or_eq_true, decide_eq_true_eq] at hb
      rcases hb with ((rfl | rfl) | rfl) | rfl <;> exact absurd h (by decide)
  all_goals rintro rfl; exact absurd h (by decide)

/-- How a value begins. -/
theorem pretty_head (v : Json) (hv : Json.Ok v) (l : Nat) : ∃ c s, v.pretty l = c :: s ∧ jsonBlank c = false ∧ c ≠ ']' ∧ c ≠ '}' := by
  cases v with
  | null => exact ⟨'n', c!"ull", by simp [Json.pretty], by decide, by decide, by decide⟩
  | bool b => cases b
              · exact ⟨'f', c!"alse", by simp [Json.pretty], by decide, by decide, by decide⟩
              · exact ⟨'t', c!"rue", by simp [Json.pretty], by decide, by decide, by decide⟩
  | num n =>
    cases n with
    | nil => simp [Json.Ok] at hv
    | cons c n =>
      simp only [Json.Ok] at hv
      obtain ⟨h1, h2, h3, _⟩ := number_facts c (hv.2 c (by simp))
      exact ⟨c, n, by simp [Json.pretty], h1, h2, h3⟩
  | str s => exact ⟨'"', s.flatMap jsonChar ++ ['"'], by simp [Json.pretty, jsonStr], by decide, by decide, by decide⟩
  | arr vs => cases vs with
    | nil => exact ⟨'[', c!"]", by simp [Json.pretty], by decide, by decide, by decide⟩
    | cons v vs => exact ⟨'[', _, by rw [Json.pretty]; simp only [List.cons_append]; rfl, by decide, by decide, by decide⟩
  | obj fs => cases fs with
    | nil => exact ⟨'{', c!"}", by simp [Json.pretty], by decide, by decide, by decide⟩
    | cons f fs => obtain ⟨k, v⟩ := f; exact ⟨'{', _, by rw [Json.pretty]; simp only [List.cons_append]; rfl, by decide, by decide, by decide⟩

theorem ends_line (n : Nat) (r : Str) : Ends (jsonLine n ++ r) := by
  intro c s h
  simp only [jsonLine, List.cons_append, List.cons.injEq] at h
  obtain ⟨rfl, _⟩ := h
  decide

theorem ends_cons {c : Char} (h : numberChar c = false) (r : Str) : Ends (c :: r) := by
  intro d s hd
  simp only [List.cons.injEq] at hd
  rw [← hd.1]; exact h

theorem ends_items (l l' : Nat) (vs : List Json) (r : Str) : Ends (prettyItems l vs ++ (jsonLine l' ++ r)) := by
  cases vs with
  | nil => exact ends_line _ _
  | cons v vs => rw [prettyItems]; exact ends_cons (by decide) _

theorem ends_fields (l l' : Nat) (fs : List (Str × Json)) (r : Str) : Ends (prettyFields l fs ++ (jsonLine l' ++ r)) := by
  cases fs with
  | nil => exact ends_line _ _
  | cons f fs => obtain ⟨k, v⟩ := f; rw [prettyFields]; exact ends_cons (by decide) _

theorem number_span (n r : Str) (h : ∀ c ∈ n, numberChar c = true) (hr : Ends r) :
    (n ++ r).takeWhile numberChar = n ∧ (n ++ r).dropWhile numberChar = r := by
  induction n with
  | nil =>
    cases r with
    | nil => exact ⟨rfl, rfl⟩
    | cons c r => have := hr c r rfl; simp [this]
  | cons c n ih =>
    have h1 := h c (by simp)
    have h2 := ih fun x hx => h x (by simp [hx])
    simp [h1, h2.1, h2.2]

mutual

/-- What is printed is read back, whatever follows. -/
theorem readJson_pretty : ∀ (v : Json), Json.Ok v →
    ∃ k, ∀ n ≥ k, ∀ (l : Nat) (w r : Str), OnlyBlank w → Ends r → readJson n (w ++ (v.pretty l ++ r)) = some (v, r)
  | .null, _ => ⟨1, by
      intro n hn l w r hw hr
      obtain ⟨m, rfl⟩ : ∃ m, n = m + 1 := ⟨n - 1, by omega⟩
      rw [readJson, dropBlank hw]
      simp [Json.pretty, jsonBlank]⟩
  | .bool b, _ => ⟨1, by
      intro n hn l w r hw hr
      obtain ⟨m, rfl⟩ : ∃ m, n = m + 1 := ⟨n - 1, by omega⟩
      rw [readJson, dropBlank hw]
      cases b <;> simp [Json.pretty, jsonBlank]⟩
  | .num x, hv => ⟨1, by
      intro n hn l w r hw hr
      obtain ⟨m, rfl⟩ : ∃ m, n = m + 1 := ⟨n - 1, by omega⟩
      rw [readJson, dropBlank hw]
      rw [Json.Ok] at hv
      obtain ⟨h1, h2⟩ := number_span x r hv.2 hr
      cases x with
      | nil => exact absurd rfl hv.1
      | cons c x =>
        have hc := hv.2 c (by simp)
        obtain ⟨e1, e2, e3, e4, e5, e6, e7, e8, e9⟩ := number_facts c hc
        rw [Json.pretty]
        rw [List.cons_append] at h1 h2 ⊢
        rw [List.dropWhile_cons_of_neg (by simp [e1])]
        simp only [e4, e5, e6, if_false, h1, h2, hc, if_true]
        simp [Ne.symm e7, Ne.symm e8, Ne.symm e9, e7, e8, e9]⟩
  | .str s, _ => ⟨1, by
      intro n hn l w r hw hr
      obtain ⟨m, rfl⟩ : ∃ m, n = m + 1 := ⟨n - 1, by omega⟩
      rw [readJson, dropBlank hw]
      simp [Json.pretty, jsonBlank, jsonStr, readChars_str]⟩
  | .arr [], _ => ⟨1, by
      intro n hn l w r hw hr
      obtain ⟨m, rfl⟩ : ∃ m, n = m + 1 := ⟨n - 1, by omega⟩
      rw [readJson, dropBlank hw]
      simp [Json.pretty, jsonBlank]⟩
  | .arr (v :: vs), hv => by
      rw [Json.Ok] at hv
      obtain ⟨k, hk⟩ := readElements_pretty (v :: vs) hv
      refine ⟨k + 1, ?_⟩
      intro n hn l w r hw hr
      obtain ⟨m, rfl⟩ : ∃ m, n = m + 1 := ⟨n - 1, by omega⟩
      have e := hk m (by omega) v vs rfl (l + 1) l r _ (blank_line (l + 1))
      rw [allOk] at hv
      obtain ⟨c, s, hc, hb, h1, h2⟩ := pretty_head v hv.1 (l + 1)
      rw [readJson, dropBlank hw, Json.pretty]
      have hd : (jsonLine (l + 1) ++ (v.pretty (l + 1) ++ (prettyItems (l + 1) vs ++ (jsonLine l ++ ']' :: r)))).dropWhile jsonBlank =
          c :: (s ++ (prettyItems (l + 1) vs ++ (jsonLine l ++ ']' :: r))) := by
        rw [dropBlank (blank_line _), hc, List.cons_append, List.dropWhile_cons_of_neg (by simp [hb])]
      simp only [List.cons_append, List.append_assoc, List.nil_append]
      rw [List.dropWhile_cons_of_neg (by decide)]
      simp only [hd, e]
      simp [h1]
  | .obj [], _ => ⟨1, by
      intro n hn l w r hw hr
      obtain ⟨m, rfl⟩ : ∃ m, n = m + 1 := ⟨n - 1, by omega⟩
      rw [readJson, dropBlank hw]
      simp [Json.pretty, jsonBlank]⟩
  | .obj ((key, v) :: fs), hv => by
      rw [Json.Ok] at hv
      obtain ⟨k, hk⟩ := readMembers_pretty ((key, v) :: fs) hv
      refine ⟨k + 1, ?_⟩
      intro n hn l w r hw hr
      obtain ⟨m, rfl⟩ : ∃ m, n = m + 1 := ⟨n - 1, by omega⟩
      have e := hk m (by omega) key v fs rfl (l + 1) l r _ (blank_line (l + 1))
      rw [readJson, dropBlank hw, Json.pretty]
      have hd : ∀ x : Str, (jsonLine (l + 1) ++ (jsonStr key ++ x)).dropWhile jsonBlank = '"' :: (key.flatMap jsonChar ++ '"' :: x) := by
        intro x
        rw [dropBlank (blank_line _), jsonStr]
        simp only [List.cons_append, List.append_assoc, List.nil_append]
        rw [List.dropWhile_cons_of_neg (by decide)]
      simp only [List.cons_append, List.append_assoc, List.nil_append]
      rw [List.dropWhile_cons_of_neg (by decide)]
      simp only [hd, e]
      simp

theorem readElements_pretty : ∀ (vs : List Json), allOk vs →
    ∃ k, ∀ n ≥ k, ∀ (v : Json) (vs' : List Json), vs = v :: vs' → ∀ (l l' : Nat) (r w : Str), OnlyBlank w →
      readElements n (w ++ (v.pretty l ++ (prettyItems l vs' ++ (jsonLine l' ++ ']' :: r)))) = some (vs, r)
  | [], _ => ⟨0, by intro n _ v vs' h; cases h⟩
  | v :: vs, hv => by
      rw [allOk] at hv
      obtain ⟨k1, h1⟩ := readJson_pretty v hv.1
      obtain ⟨k2, h2⟩ := readElements_pretty vs hv.2
      refine ⟨k1 + k2 + 1, ?_⟩
      rintro n hn v' vs' h l l' r w hw
      simp only [List.cons.injEq] at h
      obtain ⟨rfl, rfl⟩ := h
      obtain ⟨m, rfl⟩ : ∃ m, n = m + 1 := ⟨n - 1, by omega⟩
      rw [readElements, h1 m (by omega) l w _ hw (ends_items _ _ _ _)]
      cases vs with
      | nil =>
        simp only [prettyItems, List.nil_append]
        rw [dropBlank (blank_line _), List.dropWhile_cons_of_neg (by decide)]
        rfl
      | cons v2 vs2 =>
        have e := h2 m (by omega) v2 vs2 rfl l l' r _ (blank_line l)
        rw [prettyItems]
        simp only [List.cons_append, List.append_assoc]
        rw [List.dropWhile_cons_of_neg (by decide)]
        simp only [e, Option.map_some]

theorem readMembers_pretty : ∀ (fs : List (Str × Json)), fieldsOk fs →
    ∃ k, ∀ n ≥ k, ∀ (key : Str) (v : Json) (fs' : List (Str × Json)), fs = (key, v) :: fs' → ∀ (l l' : Nat) (r w : Str), OnlyBlank w →
      readMembers n (w ++ (jsonStr key ++ (c!": " ++ (v.pretty l ++ (prettyFields l fs' ++ (jsonLine l' ++ '}' :: r)))))) = some (fs, r)
  | [], _ => ⟨0, by intro n _ key v vs' h; cases h⟩
  | (key, v) :: fs, hv => by
      rw [fieldsOk] at hv
      obtain ⟨k1, h1⟩ := readJson_pretty v hv.1
      obtain ⟨k2, h2⟩ := readMembers_pretty fs hv.2
      refine ⟨k1 + k2 + 1, ?_⟩
      rintro n hn key' v' fs' h l l' r w hw
      simp only [List.cons.injEq, Prod.mk.injEq] at h
      obtain ⟨⟨rfl, rfl⟩, rfl⟩ := h
      obtain ⟨m, rfl⟩ : ∃ m, n = m + 1 := ⟨n - 1, by omega⟩
      have hb : OnlyBlank [' '] := by intro c hc; simp only [List.mem_singleton] at hc; subst hc; decide
      have e1 := h1 m (by omega) l [' '] _ hb (ends_fields l l' fs ('}' :: r))
      have hd : ∀ x : Str, (jsonStr key ++ x).dropWhile jsonBlank = '"' :: (key.flatMap jsonChar ++ '"' :: x) := by
        intro x
        rw [jsonStr]
        simp only [List.cons_append, List.append_assoc, List.nil_append]
        rw [List.dropWhile_cons_of_neg (by decide)]
      have hc : ∀ x : Str, c!": " ++ x = ':' :: ([' '] ++ x) := fun x => rfl
      rw [readMembers, dropBlank hw, hd]
      simp only [readChars_str, hc]
      rw [List.dropWhile_cons_of_neg (by decide)]
      simp only [e1]
      cases fs with
      | nil =>
        simp only [prettyFields, List.nil_append]
        rw [dropBlank (blank_line _), List.dropWhile_cons_of_neg (by decide)]
        rfl
      | cons f2 fs2 =>
        obtain ⟨key2, v2⟩ := f2
        have e := h2 m (by omega) key2 v2 fs2 rfl l l' r _ (blank_line l)
        rw [prettyFields]
        simp only [List.cons_append, List.append_assoc]
        rw [List.dropWhile_cons_of_neg (by decide)]
        simp only [hc, List.cons_append, List.nil_append] at e ⊢
        simp only [e, Option.map_some]

end

end Docx
