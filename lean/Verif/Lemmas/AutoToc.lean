import Verif.Spec.AutoToc
import Verif.Props.C11_Ids

/-!
# Expansion of automatic tables of contents in closed form
-/

namespace Docx

set_option linter.unusedSimpArgs false

open Docx.Spec

/-- A mark list for each piece of content. -/
abbrev Marks := Nat → List (Nat × Str)

/-- The first marks, then the others. -/
def consMarks (m : List (Nat × Str)) (ms : Marks) : Marks
  | 0 => m
  | i + 1 => ms i

/-- Bookmarks around a paragraph. -/
def wrapChild (m : List (Nat × Str)) : DocumentChild → DocumentChild
  | .paragraph p => .paragraph (wrapAll p m)
  | c => c

theorem wrapAll_nil (p : Paragraph) : wrapAll p [] = p := by cases p; rfl

theorem wrapAll_append (p : Paragraph) (a b : List (Nat × Str)) : wrapAll p (a ++ b) = wrapAll (wrapAll p a) b := by
  simp [wrapAll, List.foldl_append]

theorem wrapAll_rawText (p : Paragraph) (m : List (Nat × Str)) : (wrapAll p m).rawText = p.rawText := by
  unfold wrapAll Paragraph.rawText
  dsimp only
  generalize p.children = cs
  induction m generalizing cs with
  | nil => rfl
  | cons a m ih =>
    rw [List.foldl_cons, ih]
    simp [ParagraphChild.rawText]

theorem wrapAll_property (p : Paragraph) (m : List (Nat × Str)) : (wrapAll p m).property = p.property := rfl

/-- The levels for given lookups and range. -/
def levels (hd st : Str → Option Nat) (min max : Nat) (p : Paragraph) : List Nat :=
  match p.property.base.style with
  | none => []
  | some s => ((hd s).toList ++ (st s).toList).filter fun l => decide (min ≤ l ∧ l ≤ max)

/-- The entries for a piece of content with given marks. -/
def itemsOf (lv : Paragraph → List Nat) (m : List (Nat × Str)) : DocumentChild → List TocItem
  | .paragraph p => List.zipWith (fun l k => { text := p.rawText, tocKey := k.2, level := l }) (lv p) m
  | _ => []

/-- The number of marks of a piece of content. -/
def markCount (lv : Paragraph → List Nat) : DocumentChild → Nat
  | .paragraph p => (lv p).length
  | _ => 0

/-- `k` new marks. -/
def newMarks (k : Nat) (g : TocGen) : List (Nat × Str) :=
  List.zip (generateIds k g.bookmark).1 ((generateIds k g.key).1.map tocKeyText)

/-- The generators after `k` marks. -/
def TocGen.after (g : TocGen) (k : Nat) : TocGen :=
  { key := (generateIds k g.key).2, bookmark := (generateIds k g.bookmark).2 }

theorem generateIds_add' : ∀ (k j c : Nat), generateIds (k + j) c =
    ((generateIds k c).1 ++ (generateIds j (generateIds k c).2).1, (generateIds j (generateIds k c).2).2)
  | 0, j, c => by simp [generateIds]
  | k + 1, j, c => by
    rw [Nat.add_right_comm]
    simp only [generateIds, generateIds_add' k j, List.cons_append]

theorem generateIds_len : ∀ k c, (generateIds k c).1.length = k
  | 0, _ => rfl
  | k + 1, c => by simp [generateIds, generateIds_len k]

theorem newMarks_length (k : Nat) (g : TocGen) : (newMarks k g).length = k := by
  simp [newMarks, generateIds_len]

theorem newMarks_add (k j : Nat) (g : TocGen) : newMarks (k + j) g = newMarks k g ++ newMarks j (g.after k) := by
  unfold newMarks TocGen.after
  rw [generateIds_add', generateIds_add']
  simp only [List.map_append]
  rw [List.zip_append (by simp [generateIds_len])]

theorem after_add (k j : Nat) (g : TocGen) : g.after (k + j) = (g.after k).after j := by
  unfold TocGen.after
  rw [generateIds_add', generateIds_add']

theorem newMarks_zero (g : TocGen) : newMarks 0 g = [] := rfl
theorem after_zero (g : TocGen) : g.after 0 = g := rfl

theorem tocEntry?_eq (level : Option Nat) (min max : Nat) (p : Paragraph) (g : TocGen) :
    let lv := level.toList.filter fun l => decide (min ≤ l ∧ l ≤ max)
    tocEntry? level min max p g = (wrapAll p (newMarks lv.length g),
      List.zipWith (fun l k => { text := p.rawText, tocKey := k.2, level := l }) lv (newMarks lv.length g),
      g.after lv.length) := by
  cases level with
  | none =>
    simp only [tocEntry?, Option.toList, List.filter_nil, List.length_nil, newMarks_zero, wrapAll_nil, after_zero,
      List.zipWith_nil_left]
  | some l =>
    dsimp only [tocEntry?]
    by_cases h : min ≤ l ∧ l ≤ max
    · have h' : min ≤ l ∧ max ≥ l := h
      simp only [if_pos h', Option.toList, List.filter_cons, h, and_self, decide_true, if_true, List.filter_nil,
        List.length_singleton]
      rfl
    · have h' : ¬ (min ≤ l ∧ max ≥ l) := h
      simp only [if_neg h', Option.toList, List.filter_cons, h, decide_false, Bool.false_eq_true, if_false,
        List.filter_nil, List.length_nil, newMarks_zero, wrapAll_nil, after_zero, List.zipWith_nil_left]

theorem tocParagraph_eq (hd st : Str → Option Nat) (min max : Nat) (p : Paragraph) (g : TocGen) :
    let lv := levels hd st min max p
    tocParagraph hd st min max p g = (wrapAll p (newMarks lv.length g),
      List.zipWith (fun l k => { text := p.rawText, tocKey := k.2, level := l }) lv (newMarks lv.length g),
      g.after lv.length) := by
  dsimp only
  have e : levels hd st min max p =
      ((p.property.base.style.bind hd).toList.filter fun l => decide (min ≤ l ∧ l ≤ max)) ++
      ((p.property.base.style.bind st).toList.filter fun l => decide (min ≤ l ∧ l ≤ max)) := by
    unfold levels
    cases p.property.base.style <;> simp
  rw [e]
  unfold tocParagraph
  simp only [tocEntry?_eq, wrapAll_property, wrapAll_rawText, List.length_append, newMarks_add, wrapAll_append, after_add]
  rw [List.zipWith_append (by simp [newMarks_length])]

/-- The loop. -/
theorem tocChildren_eq (hd st : Str → Option Nat) (min max : Nat) : ∀ (cs : List DocumentChild) (g : TocGen),
    ∃ (ms : Marks) (k : Nat),
      tocChildren hd st min max cs g = (cs.mapIdx fun i c => wrapChild (ms i) c,
        (cs.mapIdx fun i c => itemsOf (levels hd st min max) (ms i) c).flatten, g.after k) ∧
      (cs.mapIdx fun i _ => ms i).flatten = newMarks k g ∧
      ∀ i c, cs[i]? = some c → (ms i).length = markCount (levels hd st min max) c
  | [], g => ⟨fun _ => [], 0, rfl, rfl, by simp⟩
  | .paragraph p :: cs, g => by
    obtain ⟨ms, k, h1, h2, h3⟩ := tocChildren_eq hd st min max cs (g.after (levels hd st min max p).length)
    refine ⟨consMarks (newMarks (levels hd st min max p).length g) ms, (levels hd st min max p).length + k, ?_, ?_, ?_⟩
    · simp only [tocChildren, tocParagraph_eq, h1, List.mapIdx_cons, consMarks, wrapChild, itemsOf,
        List.flatten_cons, after_add]
    · simp only [List.mapIdx_cons, consMarks, List.flatten_cons, h2, newMarks_add]
    · intro i c hc
      cases i with
      | zero =>
        simp only [List.getElem?_cons_zero, Option.some.injEq] at hc
        subst hc
        simp [consMarks, newMarks_length, markCount]
      | succ i => exact h3 i c (by simpa using hc)
  | .table _ :: cs, g => by
    obtain ⟨ms, k, h1, h2, h3⟩ := tocChildren_eq hd st min max cs g
    refine ⟨consMarks [] ms, k, by simp [tocChildren, h1, List.mapIdx_cons, consMarks, wrapChild, itemsOf],
      by simpa [List.mapIdx_cons, consMarks] using h2, ?_⟩
    intro i c hc
    cases i with
    | zero => simp only [List.getElem?_cons_zero, Option.some.injEq] at hc; subst hc; rfl
    | succ i => exact h3 i c (by simpa using hc)
  | .bookmarkStart _ _ :: cs, g => by
    obtain ⟨ms, k, h1, h2, h3⟩ := tocChildren_eq hd st min max cs g
    refine ⟨consMarks [] ms, k, by simp [tocChildren, h1, List.mapIdx_cons, consMarks, wrapChild, itemsOf],
      by simpa [List.mapIdx_cons, consMarks] using h2, ?_⟩
    intro i c hc
    cases i with
    | zero => simp only [List.getElem?_cons_zero, Option.some.injEq] at hc; subst hc; rfl
    | succ i => exact h3 i c (by simpa using hc)
  | .bookmarkEnd _ :: cs, g => by
    obtain ⟨ms, k, h1, h2, h3⟩ := tocChildren_eq hd st min max cs g
    refine ⟨consMarks [] ms, k, by simp [tocChildren, h1, List.mapIdx_cons, consMarks, wrapChild, itemsOf],
      by simpa [List.mapIdx_cons, consMarks] using h2, ?_⟩
    intro i c hc
    cases i with
    | zero => simp only [List.getElem?_cons_zero, Option.some.injEq] at hc; subst hc; rfl
    | succ i => exact h3 i c (by simpa using hc)
  | .commentStart _ _ :: cs, g => by
    obtain ⟨ms, k, h1, h2, h3⟩ := tocChildren_eq hd st min max cs g
    refine ⟨consMarks [] ms, k, by simp [tocChildren, h1, List.mapIdx_cons, consMarks, wrapChild, itemsOf],
      by simpa [List.mapIdx_cons, consMarks] using h2, ?_⟩
    intro i c hc
    cases i with
    | zero => simp only [List.getElem?_cons_zero, Option.some.injEq] at hc; subst hc; rfl
    | succ i => exact h3 i c (by simpa using hc)
  | .commentEnd _ :: cs, g => by
    obtain ⟨ms, k, h1, h2, h3⟩ := tocChildren_eq hd st min max cs g
    refine ⟨consMarks [] ms, k, by simp [tocChildren, h1, List.mapIdx_cons, consMarks, wrapChild, itemsOf],
      by simpa [List.mapIdx_cons, consMarks] using h2, ?_⟩
    intro i c hc
    cases i with
    | zero => simp only [List.getElem?_cons_zero, Option.some.injEq] at hc; subst hc; rfl
    | succ i => exact h3 i c (by simpa using hc)
  | .sdt _ :: cs, g => by
    obtain ⟨ms, k, h1, h2, h3⟩ := tocChildren_eq hd st min max cs g
    refine ⟨consMarks [] ms, k, by simp [tocChildren, h1, List.mapIdx_cons, consMarks, wrapChild, itemsOf],
      by simpa [List.mapIdx_cons, consMarks] using h2, ?_⟩
    intro i c hc
    cases i with
    | zero => simp only [List.getElem?_cons_zero, Option.some.injEq] at hc; subst hc; rfl
    | succ i => exact h3 i c (by simpa using hc)
  | .toc _ :: cs, g => by
    obtain ⟨ms, k, h1, h2, h3⟩ := tocChildren_eq hd st min max cs g
    refine ⟨consMarks [] ms, k, by simp [tocChildren, h1, List.mapIdx_cons, consMarks, wrapChild, itemsOf],
      by simpa [List.mapIdx_cons, consMarks] using h2, ?_⟩
    intro i c hc
    cases i with
    | zero => simp only [List.getElem?_cons_zero, Option.some.injEq] at hc; subst hc; rfl
    | succ i => exact h3 i c (by simpa using hc)
  | .section _ :: cs, g => by
    obtain ⟨ms, k, h1, h2, h3⟩ := tocChildren_eq hd st min max cs g
    refine ⟨consMarks [] ms, k, by simp [tocChildren, h1, List.mapIdx_cons, consMarks, wrapChild, itemsOf],
      by simpa [List.mapIdx_cons, consMarks] using h2, ?_⟩
    intro i c hc
    cases i with
    | zero => simp only [List.getElem?_cons_zero, Option.some.injEq] at hc; subst hc; rfl
    | succ i => exact h3 i c (by simpa using hc)

/-! ### Several tables of contents -/

theorem flatMap_congr' {α β : Type} {l : List α} {f g : α → List β} (h : ∀ x ∈ l, f x = g x) :
    l.flatMap f = l.flatMap g := by
  induction l with
  | nil => rfl
  | cons a l ih =>
    rw [List.flatMap_cons, List.flatMap_cons, h a (.head _), ih fun x hx => h x (.tail _ hx)]

/-- The content after the tables of contents at `done` have been filled in. -/
def overlay (done : List Nat) (marks : Marks) (items : Nat → List TocItem) (i : Nat) : DocumentChild → DocumentChild
  | .paragraph p => .paragraph (wrapAll p (marks i))
  | .toc t => if i ∈ done then .toc { t with items := items i } else .toc t
  | c => c

/-- The entries of the table of contents at `i`. -/
def itemsFor (styles : List Style) (cs : List DocumentChild) (i : Nat) (ms : Marks) : List TocItem :=
  match cs[i]? with
  | some (.toc t) => (cs.mapIdx fun j c => itemsOf (listedLevels styles t.instr) (ms j) c).flatten
  | _ => []

theorem levels_wrapAll (hd st : Str → Option Nat) (a b : Nat) (p : Paragraph) (m) :
    levels hd st a b (wrapAll p m) = levels hd st a b p := rfl

theorem itemsOf_overlay (hd st : Str → Option Nat) (a b : Nat) (done marks items i m) (c : DocumentChild) :
    itemsOf (levels hd st a b) m (overlay done marks items i c) = itemsOf (levels hd st a b) m c := by
  cases c <;> simp only [overlay, itemsOf, levels_wrapAll, wrapAll_rawText]
  by_cases h : i ∈ done
  · rw [if_pos h]
  · rw [if_neg h]

theorem markCount_overlay (hd st : Str → Option Nat) (a b : Nat) (done marks items i) (c : DocumentChild) :
    markCount (levels hd st a b) (overlay done marks items i c) = markCount (levels hd st a b) c := by
  cases c <;> simp only [overlay, markCount, levels_wrapAll]
  by_cases h : i ∈ done
  · rw [if_pos h]
  · rw [if_neg h]

theorem listedLevels_levels (styles : List Style) (i : InstrToC)
    (h : ¬ (i.headingStylesRange = none ∧ i.stylesWithLevels ≠ [])) :
    listedLevels styles i = levels (hashGet (headingStyleMap styles)) (hashGet i.stylesWithLevels)
      (i.headingStylesRange.getD (0, 9)).1 (i.headingStylesRange.getD (0, 9)).2 := by
  funext p
  unfold listedLevels levels
  rw [if_neg h]
  cases p.property.base.style <;> rfl

theorem toc_items (t : Toc) (h : t.items = []) : { t with items := [] } = t := by
  cases t
  simp only at h
  subst h
  rfl

/-- One round. -/
theorem expandAutoToc_eq (styles : List Style) (cs : List DocumentChild) (done : List Nat) (marks : Marks)
    (items : Nat → List TocItem) (g : TocGen) (index : Nat) (t : Toc)
    (ht : cs[index]? = some (.toc t)) (hd : index ∉ done) (hi : t.items = []) :
    ∃ (ms : Marks) (k : Nat),
      expandAutoToc styles (cs.mapIdx (overlay done marks items), g) index =
        (cs.mapIdx (overlay (done ++ [index]) (fun i => marks i ++ ms i)
          (fun i => if i = index then itemsFor styles cs index ms else items i)), g.after k) ∧
      (cs.mapIdx fun i _ => ms i).flatten = newMarks k g ∧
      ∀ i c, cs[i]? = some c → (ms i).length = markCount (listedLevels styles t.instr) c := by
  have e1 : (cs.mapIdx (overlay done marks items))[index]? = some (.toc t) := by
    simp [List.getElem?_mapIdx, ht, overlay, hd]
  unfold expandAutoToc
  simp only [e1]
  unfold updateDocumentByToc
  by_cases h : t.instr.headingStylesRange = none ∧ t.instr.stylesWithLevels ≠ []
  · have h' : t.instr.headingStylesRange.isNone ∧ t.instr.stylesWithLevels ≠ [] := by simpa using h
    have hz : ∀ c, markCount (listedLevels styles t.instr) c = 0 := by
      intro c
      cases c <;> simp [markCount, listedLevels, h]
    have hit : itemsFor styles cs index (fun _ => []) = [] := by
      unfold itemsFor
      simp only [ht]
      rw [List.flatten_eq_nil_iff]
      intro l hl
      simp only [List.mem_mapIdx] at hl
      obtain ⟨i, hi, e⟩ := hl
      rw [← e]
      cases cs[i] <;> simp [itemsOf]
    refine ⟨fun _ => [], 0, ?_, ?_, ?_⟩
    · rw [if_pos h', after_zero]
      congr 1
      rw [hit]
      refine List.ext_getElem? fun i => ?_
      simp only [List.getElem?_set, List.getElem?_mapIdx, List.length_mapIdx, List.length_set]
      by_cases hi' : index = i
      · subst hi'
        have hl : index < cs.length := (List.getElem?_eq_some_iff.1 ht).1
        simp only [ht, if_true, hl, overlay, Option.map_some, List.mem_append, List.mem_singleton, or_true, toc_items t hi]
      · simp only [if_neg hi']
        cases cs[i]? with
        | none => rfl
        | some c =>
          have : ¬ i = index := fun e => hi' e.symm
          cases c <;> simp [overlay, this]
    · rw [newMarks_zero, List.flatten_eq_nil_iff]
      intro l hl
      simp only [List.mem_mapIdx] at hl
      obtain ⟨i, hi, e⟩ := hl
      exact e.symm
    · intro i c _
      rw [hz]
      rfl
  · have h' : ¬ (t.instr.headingStylesRange.isNone ∧ t.instr.stylesWithLevels ≠ []) := by simpa using h
    rw [if_neg h']
    simp only [listedLevels_levels styles t.instr h]
    generalize hH : hashGet (headingStyleMap styles) = H
    generalize hS : hashGet t.instr.stylesWithLevels = S
    generalize hA : (t.instr.headingStylesRange.getD (0, 9)).1 = A
    generalize hB : (t.instr.headingStylesRange.getD (0, 9)).2 = B
    have hlv : listedLevels styles t.instr = levels H S A B := by
      rw [listedLevels_levels styles t.instr h, hH, hS, hA, hB]
    obtain ⟨ms, k, h1, h2, h3⟩ := tocChildren_eq H S A B ((cs.mapIdx (overlay done marks items)).set index (.toc {})) g
    have hl : index < cs.length := (List.getElem?_eq_some_iff.1 ht).1
    have hitems : ((((cs.mapIdx (overlay done marks items)).set index (.toc {})).mapIdx
        fun i c => itemsOf (levels H S A B) (ms i) c).flatten) = itemsFor styles cs index ms := by
      unfold itemsFor
      simp only [ht, hlv]
      congr 1
      refine List.ext_getElem? fun i => ?_
      simp only [List.getElem?_set, List.getElem?_mapIdx, List.length_mapIdx]
      by_cases hi' : index = i
      · subst hi'
        simp only [if_true, hl, ht, Option.map_some, itemsOf]
      · simp only [if_neg hi']
        cases cs[i]? with
        | none => rfl
        | some c => simp only [Option.map_some, itemsOf_overlay]
    refine ⟨ms, k, ?_, ?_, ?_⟩
    · rw [h1]
      simp only [hitems]
      congr 1
      refine List.ext_getElem? fun i => ?_
      simp only [List.getElem?_set, List.getElem?_mapIdx, List.length_mapIdx, List.length_set]
      by_cases hi' : index = i
      · subst hi'
        simp only [ht, if_true, hl, overlay, Option.map_some, List.mem_append, List.mem_singleton, or_true]
      · simp only [if_neg hi']
        cases cs[i]? with
        | none => rfl
        | some c =>
          have : ¬ i = index := fun e => hi' e.symm
          cases c <;> simp [overlay, this, wrapChild, wrapAll_append]
          by_cases hx : i ∈ done
          · rw [if_pos hx]
          · rw [if_neg hx]
    · rw [← h2]
      congr 1
      refine List.ext_getElem? fun i => ?_
      simp only [List.getElem?_set, List.getElem?_mapIdx, List.length_mapIdx]
      by_cases hi' : index = i
      · subst hi'
        simp [hl, ht]
      · simp only [if_neg hi']
        cases cs[i]? <;> rfl
    · intro i c hc
      by_cases hi' : index = i
      · subst hi'
        rw [ht] at hc
        cases hc
        rw [h3 index (.toc {}) (by simp [hl])]
        rfl
      · rw [h3 i (overlay done marks items i c) (by simp [List.getElem?_set, hi', hc]), markCount_overlay]

theorem overlay_congr (cs : List DocumentChild) {done done' : List Nat} {marks marks' : Marks} {items items' : Nat → List TocItem}
    (h1 : ∀ i, i ∈ done ↔ i ∈ done') (h2 : ∀ i, marks i = marks' i) (h3 : ∀ i ∈ done, items i = items' i) :
    cs.mapIdx (overlay done marks items) = cs.mapIdx (overlay done' marks' items') := by
  refine List.ext_getElem? fun i => ?_
  simp only [List.getElem?_mapIdx]
  cases cs[i]? with
  | none => rfl
  | some c =>
    cases c <;> simp only [Option.map_some, overlay, h2]
    by_cases h : i ∈ done
    · rw [if_pos h, if_pos ((h1 i).1 h), h3 i h]
    · rw [if_neg h, if_neg (fun h' => h ((h1 i).2 h'))]

/-- All rounds. -/
theorem expandAll_eq (styles : List Style) (cs : List DocumentChild) : ∀ (todo done : List Nat) (marks : Marks)
    (items : Nat → List TocItem) (g : TocGen), todo.Nodup → (∀ i ∈ todo, i ∉ done) →
    (∀ i ∈ todo, ∃ t, cs[i]? = some (.toc t) ∧ t.items = []) →
    ∃ (ms : Nat → Marks) (k : Nat),
      todo.foldl (expandAutoToc styles) (cs.mapIdx (overlay done marks items), g) =
        (cs.mapIdx (overlay (done ++ todo) (fun i => marks i ++ todo.flatMap fun t => ms t i)
          (fun i => if i ∈ todo then itemsFor styles cs i (ms i) else items i)), g.after k) ∧
      (todo.flatMap fun t => (cs.mapIdx fun i _ => ms t i).flatten) = newMarks k g ∧
      ∀ t ∈ todo, ∀ toc, cs[t]? = some (.toc toc) → ∀ i c, cs[i]? = some c →
        (ms t i).length = markCount (listedLevels styles toc.instr) c
  | [], done, marks, items, g, _, _, _ => by
    refine ⟨fun _ _ => [], 0, ?_, rfl, by simp⟩
    rw [List.foldl_nil, after_zero]
    congr 1
    exact overlay_congr cs (by simp) (by simp) (by simp)
  | t :: todo, done, marks, items, g, hn, hd, ha => by
    obtain ⟨toc, ht, hi⟩ := ha t (.head _)
    rw [List.nodup_cons] at hn
    obtain ⟨m1, k1, a1, a2, a3⟩ := expandAutoToc_eq styles cs done marks items g t toc ht (hd t (.head _)) hi
    obtain ⟨ms, k, b1, b2, b3⟩ := expandAll_eq styles cs todo (done ++ [t]) _
      (fun i => if i = t then itemsFor styles cs t m1 else items i) (g.after k1) hn.2
      (fun i hi' => by
        simp only [List.mem_append, List.mem_singleton, not_or]
        exact ⟨hd i (.tail _ hi'), fun e => hn.1 (e ▸ hi')⟩)
      (fun i hi' => ha i (.tail _ hi'))
    have hne : ∀ x ∈ todo, x ≠ t := fun x hx e => hn.1 (e ▸ hx)
    have hfm : ∀ (f : Nat → Marks) (i : Nat), (todo.flatMap fun x => (if x = t then m1 else ms x) i) = todo.flatMap fun x => ms x i := by
      intro _ i
      refine flatMap_congr' fun x hx => ?_
      rw [if_neg (hne x hx)]
    refine ⟨fun x => if x = t then m1 else ms x, k1 + k, ?_, ?_, ?_⟩
    · rw [List.foldl_cons, a1, b1, after_add]
      congr 1
      refine overlay_congr cs (by simp) ?_ ?_
      · intro i
        rw [List.flatMap_cons, hfm (fun _ => m1)]
        dsimp only
        rw [if_pos rfl, List.append_assoc]
      · intro i _
        by_cases e : i = t
        · subst e
          simp [hn.1]
        · simp [e]
    · rw [List.flatMap_cons]
      dsimp only
      rw [if_pos rfl, a2, newMarks_add, ← b2]
      congr 1
      refine flatMap_congr' fun x hx => ?_
      rw [if_neg (hne x hx)]
    · intro x hx toc' htoc i c hc
      dsimp only
      rcases List.mem_cons.1 hx with e | hx'
      · subst e
        rw [if_pos rfl]
        rw [ht] at htoc
        cases htoc
        exact a3 i c hc
      · rw [if_neg (hne x hx')]
        exact b3 x hx' toc' htoc i c hc

theorem autoTocIndexes_mem : ∀ (cs : List DocumentChild) (n i : Nat), i ∈ autoTocIndexes n cs ↔
    n ≤ i ∧ ∃ t, cs[i - n]? = some (.toc t) ∧ isAuto t = true := by
  intro cs
  induction cs with
  | nil => intro n i; simp [autoTocIndexes]
  | cons c cs ih =>
    intro n i
    have tailCase : (i ∈ autoTocIndexes (n + 1) cs) ↔ n + 1 ≤ i ∧ ∃ t, (c :: cs)[i - n]? = some (.toc t) ∧ isAuto t = true := by
      rw [ih]
      constructor
      · rintro ⟨h1, t, h2, h3⟩
        refine ⟨h1, t, ?_, h3⟩
        have : i - n = (i - (n + 1)) + 1 := by omega
        rw [this, List.getElem?_cons_succ]
        exact h2
      · rintro ⟨h1, t, h2, h3⟩
        refine ⟨h1, t, ?_, h3⟩
        have : i - n = (i - (n + 1)) + 1 := by omega
        rw [this, List.getElem?_cons_succ] at h2
        exact h2
    have other : (∀ t, c ≠ .toc t) → ((n ≤ i ∧ ∃ t, (c :: cs)[i - n]? = some (.toc t) ∧ isAuto t = true) ↔
        (n + 1 ≤ i ∧ ∃ t, (c :: cs)[i - n]? = some (.toc t) ∧ isAuto t = true)) := by
      intro hc
      constructor
      · rintro ⟨h1, t, h2, h3⟩
        by_cases e : i = n
        · subst e
          simp only [Nat.sub_self, List.getElem?_cons_zero, Option.some.injEq] at h2
          exact absurd h2 (hc t)
        · exact ⟨by omega, t, h2, h3⟩
      · rintro ⟨h1, t, h2, h3⟩
        exact ⟨by omega, t, h2, h3⟩
    cases c with
    | toc t =>
      by_cases ha : t.items = [] ∧ t.auto
      · simp only [autoTocIndexes, if_pos ha, List.mem_cons, tailCase]
        constructor
        · rintro (e | ⟨h1, t', h2, h3⟩)
          · subst e
            exact ⟨Nat.le_refl _, t, by simp, by simp [isAuto, ha.1, ha.2]⟩
          · exact ⟨by omega, t', h2, h3⟩
        · rintro ⟨h1, t', h2, h3⟩
          by_cases e : i = n
          · exact .inl e
          · exact .inr ⟨by omega, t', h2, h3⟩
      · simp only [autoTocIndexes, if_neg ha, tailCase]
        constructor
        · rintro ⟨h1, t', h2, h3⟩
          exact ⟨by omega, t', h2, h3⟩
        · rintro ⟨h1, t', h2, h3⟩
          by_cases e : i = n
          · subst e
            simp only [Nat.sub_self, List.getElem?_cons_zero, Option.some.injEq, DocumentChild.toc.injEq] at h2
            subst h2
            exact absurd (by simpa [isAuto] using h3) ha
          · exact ⟨by omega, t', h2, h3⟩
    | _ => simp only [autoTocIndexes]; rw [tailCase, other (by simp)]

theorem autoTocIndexes_nodup : ∀ (cs : List DocumentChild) (n : Nat), (autoTocIndexes n cs).Nodup
  | [], _ => .nil
  | c :: cs, n => by
    have ht := autoTocIndexes_nodup cs (n + 1)
    cases c with
    | toc t =>
      simp only [autoTocIndexes]
      split
      · refine List.nodup_cons.2 ⟨fun h => ?_, ht⟩
        have := ((autoTocIndexes_mem cs (n + 1) n).1 h).1
        omega
      · exact ht
    | _ => exact ht

/-- `expand_auto_tocs` in closed form. -/
theorem expandAutoTocs_eq (styles : List Style) (cs : List DocumentChild) (g : TocGen) :
    ∃ (ms : Nat → Marks) (k : Nat),
      expandAutoTocs styles cs g =
        (cs.mapIdx (overlay (autoTocIndexes 0 cs) (fun i => (autoTocIndexes 0 cs).flatMap fun t => ms t i)
          (fun i => itemsFor styles cs i (ms i))), g.after k) ∧
      ((autoTocIndexes 0 cs).flatMap fun t => (cs.mapIdx fun i _ => ms t i).flatten) = newMarks k g ∧
      ∀ t ∈ autoTocIndexes 0 cs, ∀ toc, cs[t]? = some (.toc toc) → ∀ i c, cs[i]? = some c →
        (ms t i).length = markCount (listedLevels styles toc.instr) c := by
  have h0 : cs.mapIdx (overlay [] (fun _ => []) (fun _ => [])) = cs := by
    refine List.ext_getElem? fun i => ?_
    simp only [List.getElem?_mapIdx]
    cases cs[i]? with
    | none => rfl
    | some c => cases c <;> simp [overlay, wrapAll_nil]
  obtain ⟨ms, k, h1, h2, h3⟩ := expandAll_eq styles cs (autoTocIndexes 0 cs) [] (fun _ => []) (fun _ => []) g
    (autoTocIndexes_nodup cs 0) (by simp) (fun i hi => by
      obtain ⟨_, t, e, ht⟩ := (autoTocIndexes_mem cs 0 i).1 hi
      simp only [isAuto, Bool.and_eq_true, List.isEmpty_iff] at ht
      exact ⟨t, by simpa using e, ht.1⟩)
  refine ⟨ms, k, ?_, h2, h3⟩
  unfold expandAutoTocs
  rw [h0] at h1
  rw [h1]
  congr 1
  refine overlay_congr cs (by simp) (by simp) (fun i hi => ?_)
  rw [if_pos (by simpa using hi)]

end Docx
