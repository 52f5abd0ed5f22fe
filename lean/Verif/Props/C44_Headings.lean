import Verif.Lemmas.Numbers
import Verif.Model.Styles
import Verif.Props.C01_C04_Escape

/-!
# C44: heading levels
-/

namespace Docx.Props

open Docx Docx.Spec

/-- The number the digits of a string spell. -/
def digitsNumber (s : Str) : Nat := (s.filter Char.isDigit).foldl (fun a c => a * 10 + (c.toNat - 48)) 0

/-- The text begins with `heading`, in any mix of capital and small letters. -/
def BeginsWithHeading (s : Str) : Prop := (s.take 7).map Char.toLower = c!"heading"

theorem isPrefixOf_append (p s : Str) : p.isPrefixOf (p ++ s) = true := by
  induction p with
  | nil => rfl
  | cons c p ih => simp [ih]

theorem removeAllAux_skip (pat : Str) : ∀ (k : Nat) (a s : Str), a.length = k →
    removeAllAux pat k (a ++ s) = removeAllAux pat 0 s
  | 0, a, s, h => by rw [List.length_eq_zero_iff.1 h]; rfl
  | k + 1, [], s, h => by simp at h
  | k + 1, _ :: a, s, h => by
    simp only [List.cons_append, removeAllAux]
    exact removeAllAux_skip pat k a s (by simpa using h)

theorem removeAll_noMatch (c : Char) (pat : Str) : ∀ s : Str, c ∉ s → removeAllAux (c :: pat) 0 s = s
  | [], _ => rfl
  | x :: s, h => by
    simp only [List.mem_cons, not_or] at h
    have : (c :: pat).isPrefixOf (x :: s) = false := by
      simp only [List.isPrefixOf, Bool.and_eq_false_iff, beq_eq_false_iff_ne]
      exact .inl h.1
    simp only [removeAllAux, this, Bool.false_eq_true, if_false, removeAll_noMatch c pat s h.2]

theorem removeAll_heading (n : Nat) : removeAll c!"heading " (c!"heading " ++ dec n) = dec n := by
  have h1 : removeAll c!"heading " (c!"heading " ++ dec n) = removeAllAux c!"heading " 7 (c!"eading " ++ dec n) := by
    rfl
  rw [h1, removeAllAux_skip _ 7 c!"eading " (dec n) (by decide)]
  exact removeAll_noMatch 'h' c!"eading " (dec n) fun h => by
    have := dec_digits n 'h' h
    revert this
    decide

/-- **C44.** A style called `heading <n>`, with any capitalisation, has level `n`, for every number that fits
in 64 bits. -/
theorem C44_heading_level (s : Style) (n : Nat) (hn : n < 2 ^ 64)
    (h : s.name.map Char.toLower = c!"heading " ++ dec n) : s.headingLevel = some n := by
  have h1 : isHeading s.name = true := by
    unfold isHeading asciiLower
    rw [h]
    have : c!"heading " ++ dec n = c!"heading" ++ (' ' :: dec n) := rfl
    rw [this]
    exact isPrefixOf_append _ _
  unfold Style.headingLevel headingNumber asciiLower
  rw [h1, if_pos rfl, h, removeAll_heading, parseUsize_dec n hn]

/-- **C44.** The same through the builder: the name is stored escaped, which does not change it. -/
theorem C44_named_heading (id : Str) (n : Nat) (hn : n < 2 ^ 64) :
    ((Style.new id .paragraph).setName (c!"Heading " ++ dec n)).headingLevel = some n := by
  refine C44_heading_level _ n hn ?_
  have h1 : escapeOwned (c!"Heading " ++ dec n) = c!"Heading " ++ dec n := by
    rw [C03_escape_owned]
    apply escape_id_of_plain
    rw [List.any_append, Bool.or_eq_false_iff]
    refine ⟨by decide, ?_⟩
    rw [List.any_eq_false]
    intro c hc
    have h2 : ∀ c ∈ c!"0123456789", ¬ needsEscape c = true := by decide
    exact h2 c (dec_digits n c hc)
  simp only [Style.setName, h1, List.map_append]
  congr 1
  have : ∀ s : Str, (∀ c ∈ s, c ∈ c!"0123456789") → s.map Char.toLower = s := by
    intro s hs
    induction s with
    | nil => rfl
    | cons c s ih =>
      rw [List.map_cons, ih fun c hc => hs c (by simp [hc])]
      congr 1
      have h2 : ∀ c ∈ c!"0123456789", c.toLower = c := by decide
      exact h2 c (hs c (by simp))
  exact this _ (dec_digits n)

theorem isPrefixOf_take : ∀ p s : Str, p.isPrefixOf s = true ↔ s.take p.length = p
  | [], s => by simp [List.isPrefixOf]
  | c :: p, [] => by simp [List.isPrefixOf]
  | c :: p, x :: s => by
    simp only [List.isPrefixOf, Bool.and_eq_true, beq_iff_eq, List.length_cons, List.take_succ_cons, List.cons.injEq,
      isPrefixOf_take p s]
    constructor <;> rintro ⟨h1, h2⟩ <;> exact ⟨h1.symm, h2⟩

/-- **C44.** Only styles whose name begins with `heading` have a level. -/
theorem C44_only_headings (s : Style) (h : ¬ BeginsWithHeading s.name) : s.headingLevel = none := by
  unfold Style.headingLevel
  rw [if_neg]
  intro h1
  apply h
  unfold isHeading at h1
  have := (isPrefixOf_take _ _).1 h1
  unfold BeginsWithHeading
  rw [List.map_take]
  exact this

theorem filter_removeAllAux (pat : Str) (hne : pat ≠ []) (hp : ∀ c ∈ pat, c.isDigit = false) : ∀ (s : Str) (k : Nat),
    (∀ c ∈ s.take k, c.isDigit = false) →
    (removeAllAux pat k s).filter Char.isDigit = s.filter Char.isDigit
  | [], k, _ => by cases k <;> rfl
  | c :: s, k + 1, h => by
    have h1 : c.isDigit = false := h c (by simp)
    simp only [removeAllAux, List.filter_cons, h1, Bool.false_eq_true, if_false]
    exact filter_removeAllAux pat hne hp s k fun x hx => h x (by simp [hx])
  | c :: s, 0, h => by
    simp only [removeAllAux]
    split
    · rename_i hm
      have h1 := (isPrefixOf_take _ _).1 hm
      cases pat with
      | nil => exact absurd rfl hne
      | cons d pat =>
        simp only [List.length_cons, List.take_succ_cons, List.cons.injEq] at h1
        have h2 : c.isDigit = false := hp c (by simp [h1.1])
        rw [List.filter_cons, h2]
        simp only [Bool.false_eq_true, if_false, List.length_cons, Nat.add_sub_cancel]
        refine filter_removeAllAux _ hne hp s _ fun x hx => hp x ?_
        rw [h1.2] at hx
        simp [hx]
    · simp only [List.filter_cons, filter_removeAllAux pat hne hp s 0 (by simp)]

theorem toLower_digit (c : Char) : c.toLower.isDigit = c.isDigit ∧ (c.isDigit → c.toLower = c) := by
  unfold Char.toLower Char.isDigit
  split
  · rename_i h
    have h1 := UInt32.le_iff_toNat_le.1 h.1
    have h2 := UInt32.le_iff_toNat_le.1 h.2
    have e1 : ('A'.val).toNat = 65 := rfl
    have e2 : ('Z'.val).toNat = 90 := rfl
    rw [e1] at h1
    rw [e2] at h2
    have key : ∀ v : UInt32, 57 < v.toNat → (decide (v ≥ '0'.val) && decide (v ≤ '9'.val)) = false := by
      intro v hv
      rw [Bool.and_eq_false_iff, decide_eq_false_iff_not, decide_eq_false_iff_not]
      right
      intro hle
      have := UInt32.le_iff_toNat_le.1 hle
      have e3 : ('9'.val).toNat = 57 := rfl
      omega
    have h3 : (c.val + ('a'.val - 'A'.val)).toNat = c.val.toNat + 32 := by
      rw [UInt32.toNat_add]
      have e4 : ('a'.val - 'A'.val).toNat = 32 := rfl
      rw [e4]
      omega
    have h4 := key c.val (by omega)
    have h5 := key (c.val + ('a'.val - 'A'.val)) (by rw [h3]; omega)
    exact ⟨h5.trans h4.symm, fun h => absurd (h4.symm.trans h) (by simp)⟩
  · simp

theorem filter_lower (s : Str) : (asciiLower s).filter Char.isDigit = s.filter Char.isDigit := by
  induction s with
  | nil => rfl
  | cons c s ih =>
    simp only [asciiLower, List.map_cons, List.filter_cons, (toLower_digit c).1] at ih ⊢
    rw [ih]
    split
    · rename_i h
      rw [(toLower_digit c).2 h]
    · rfl

/-- **C44.** The level of a style is the number its digits spell. -/
theorem C44_level_is_number (s : Style) (n : Nat) (h : s.headingLevel = some n) : n = digitsNumber s.name := by
  unfold Style.headingLevel at h
  split at h
  · unfold headingNumber parseUsize parseUnsigned at h
    split at h
    · simp at h
    · split at h
      · simp at h
      · rename_i m hm
        split at h
        · simp only [Option.some.injEq] at h
          subst h
          obtain ⟨h1, h2⟩ := digits?_value _ _ _ hm
          have h3 : (stripPlus (removeAll c!"heading " (asciiLower s.name))).filter Char.isDigit =
              s.name.filter Char.isDigit := by
            rw [← filter_lower s.name, ← filter_removeAllAux c!"heading " (by decide) (by decide) (asciiLower s.name) 0 (by simp)]
            unfold removeAll
            generalize removeAllAux c!"heading " 0 (asciiLower s.name) = t
            cases t with
            | nil => rfl
            | cons c t =>
              simp only [stripPlus]
              split
              · rename_i e
                subst e
                rfl
              · rfl
          unfold digitsNumber
          rw [← h3, List.filter_eq_self.2 h1]
          exact h2
        · simp at h
  · simp at h

/-- **C44.** Every style with a level is a `heading`, and the map from style ids to levels gives, for each id,
the level of the last style that has that id and a level. -/
theorem C44_style_map (styles : List Style) (id : Str) (n : Nat) :
    hashGet (headingStyleMap styles) id = some n ↔
    ∃ before s after, styles = before ++ s :: after ∧ s.styleId = id ∧ s.headingLevel = some n ∧
      ∀ t ∈ after, t.styleId = id → t.headingLevel = none := by
  unfold hashGet headingStyleMap
  induction styles with
  | nil => simp
  | cons x styles ih =>
    rw [List.filterMap_cons]
    have happ : ∀ (l : List (Str × Nat)) (a : Str × Nat), (l ++ [a]).lookup id =
        (l.lookup id).or (if id == a.1 then some a.2 else none) := by
      intro l a
      induction l with
      | nil => obtain ⟨k, v⟩ := a; simp only [List.nil_append, List.lookup, Option.none_or]; split <;> simp_all
      | cons b l ih => obtain ⟨k, v⟩ := b; simp only [List.cons_append, List.lookup]; split <;> simp_all
    have hrest : (∃ before s after, x :: styles = before ++ s :: after ∧ s.styleId = id ∧ s.headingLevel = some n ∧
        ∀ t ∈ after, t.styleId = id → t.headingLevel = none) ↔
        (∃ before s after, styles = before ++ s :: after ∧ s.styleId = id ∧ s.headingLevel = some n ∧
        ∀ t ∈ after, t.styleId = id → t.headingLevel = none) ∨
        (x.styleId = id ∧ x.headingLevel = some n ∧ ∀ t ∈ styles, t.styleId = id → t.headingLevel = none) := by
      constructor
      · rintro ⟨before, s, after, e, h1, h2, h3⟩
        cases before with
        | nil =>
          simp only [List.nil_append, List.cons.injEq] at e
          obtain ⟨rfl, rfl⟩ := e
          exact .inr ⟨h1, h2, h3⟩
        | cons b before =>
          simp only [List.cons_append, List.cons.injEq] at e
          exact .inl ⟨before, s, after, e.2, h1, h2, h3⟩
      · rintro (⟨before, s, after, rfl, h1, h2, h3⟩ | ⟨h1, h2, h3⟩)
        · exact ⟨x :: before, s, after, rfl, h1, h2, h3⟩
        · exact ⟨[], x, styles, rfl, h1, h2, h3⟩
    have hnone : (List.filterMap (fun s => Option.map (fun n => (s.styleId, n)) s.headingLevel) styles).reverse.lookup id
        = none ↔ ∀ t ∈ styles, t.styleId = id → t.headingLevel = none := by
      rw [List.lookup_eq_none_iff]
      constructor
      · intro h t ht e
        cases hl : t.headingLevel with
        | none => rfl
        | some k =>
          have := h (t.styleId, k) (by
            rw [List.mem_reverse, List.mem_filterMap]
            exact ⟨t, ht, by simp [hl]⟩)
          simp [e] at this
      · rintro h ⟨k, v⟩ hp
        rw [List.mem_reverse, List.mem_filterMap] at hp
        obtain ⟨t, ht, he⟩ := hp
        cases hl : t.headingLevel with
        | none => simp [hl] at he
        | some j =>
          simp only [hl, Option.map_some, Option.some.injEq, Prod.mk.injEq] at he
          have : t.styleId ≠ id := fun e => by simp [h t ht e] at hl
          rw [he.1] at this
          simpa using fun e => this e.symm
    rw [hrest]
    cases hl : x.headingLevel with
    | none =>
      simp only [Option.map_none, reduceCtorEq, false_and, and_false, or_false]
      exact ih
    | some k =>
      simp only [Option.map_some, List.reverse_cons, happ, Option.some.injEq]
      rw [← ih]
      cases hq : (List.filterMap (fun s => Option.map (fun n => (s.styleId, n)) s.headingLevel) styles).reverse.lookup id with
      | none =>
        rw [hq] at hnone
        have := hnone.1 rfl
        simp only [Option.none_or, reduceCtorEq, false_or]
        constructor
        · intro h
          split at h
          · rename_i e
            simp only [Option.some.injEq] at h
            exact ⟨(by simpa using e : id = x.styleId).symm, h, this⟩
          · simp at h
        · rintro ⟨e, h, _⟩
          rw [if_pos (by simp [e]), h]
      | some j =>
        rw [hq] at hnone
        simp only [Option.some_or, Option.some.injEq]
        constructor
        · exact .inl
        · rintro (h | ⟨_, _, h⟩)
          · exact h
          · exact absurd (hnone.2 h) (by simp)

/-! A non-trivial case, and what the digits rule means for odd names. -/

example : headingStyleMap [(Style.new c!"H1" .paragraph).setName c!"Heading 1",
    (Style.new c!"T" .paragraph).setName c!"Title", (Style.new c!"H2" .paragraph).setName c!"HEADING 2"] =
    [(c!"H1", 1), (c!"H2", 2)] := by decide

/-- Names the map treats as headings although no word processor does, and one it does not. -/
example : ({ name := c!"heading 1heading 2" } : Style).headingLevel = some 12 ∧
    ({ name := c!"heading +3" } : Style).headingLevel = some 3 ∧
    ({ name := c!"Heading1" } : Style).headingLevel = none := by decide

end Docx.Props
