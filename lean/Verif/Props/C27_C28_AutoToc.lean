import Verif.Lemmas.AutoToc
import Verif.Props.C44_Headings

/-!
# C27, C28: automatic tables of contents
-/

namespace Docx.Props

set_option linter.unusedSimpArgs false

open Docx Docx.Spec

theorem itemsOf_texts (p : Paragraph) : ∀ (ls : List Nat) (m : List (Nat × Str)), m.length = ls.length →
    (List.zipWith (fun l (k : Nat × Str) => ({ text := p.rawText, tocKey := k.2, level := l } : TocItem)) ls m).map
      (fun x => (x.text, x.level)) = ls.map fun l => (p.rawText, l)
  | [], [], _ => rfl
  | [], _ :: _, h => by simp at h
  | _ :: _, [], h => by simp at h
  | l :: ls, k :: m, h => by
    simp only [List.zipWith_cons_cons, List.map_cons]
    rw [itemsOf_texts p ls m (by simpa using h)]

theorem itemsOf_keys (p : Paragraph) : ∀ (ls : List Nat) (m : List (Nat × Str)), m.length = ls.length →
    (List.zipWith (fun l (k : Nat × Str) => ({ text := p.rawText, tocKey := k.2, level := l } : TocItem)) ls m).map
      (fun x => x.tocKey) = m.map Prod.snd
  | [], [], _ => rfl
  | [], _ :: _, h => by simp at h
  | _ :: _, [], h => by simp at h
  | l :: ls, k :: m, h => by
    simp only [List.zipWith_cons_cons, List.map_cons]
    rw [itemsOf_keys p ls m (by simpa using h)]

theorem items_texts (styles : List Style) (ins : InstrToC) : ∀ (cs : List DocumentChild) (ms : Marks),
    (∀ i c, cs[i]? = some c → (ms i).length = markCount (listedLevels styles ins) c) →
    ((cs.mapIdx fun j c => itemsOf (listedLevels styles ins) (ms j) c).flatten.map fun x => (x.text, x.level)) =
      entries styles ins cs
  | [], _, _ => rfl
  | c :: cs, ms, h => by
    rw [List.mapIdx_cons, List.flatten_cons, List.map_append,
      items_texts styles ins cs (fun i => ms (i + 1)) fun i c hc => h (i + 1) c (by simpa using hc)]
    have h0 := h 0 c rfl
    cases c with
    | paragraph p =>
      simp only [itemsOf, entries]
      rw [itemsOf_texts p _ _ h0]
    | _ => rfl

theorem items_keys (lv : Paragraph → List Nat) : ∀ (cs : List DocumentChild) (ms : Marks),
    (∀ i c, cs[i]? = some c → (ms i).length = markCount lv c) →
    ((cs.mapIdx fun j c => itemsOf lv (ms j) c).flatten.map fun x => x.tocKey) =
      (cs.mapIdx fun i _ => ms i).flatten.map Prod.snd
  | [], _, _ => rfl
  | c :: cs, ms, h => by
    rw [List.mapIdx_cons, List.flatten_cons, List.map_append, List.mapIdx_cons, List.flatten_cons, List.map_append,
      items_keys lv cs (fun i => ms (i + 1)) fun i c hc => h (i + 1) c (by simpa using hc)]
    have h0 := h 0 c rfl
    congr 1
    cases c with
    | paragraph p => exact itemsOf_keys p _ _ h0
    | _ =>
      have : ms 0 = [] := List.length_eq_zero_iff.1 h0
      rw [this]
      rfl

/-- **C27.** Filling in the automatic tables of contents keeps the number and order of the pieces of content;
a paragraph may only get bookmarks around its content, every automatic table of contents gets exactly the
entries it should have, computed from the document as it was given, and everything else stays as it is. -/
theorem C27_expand (styles : List Style) (children : List DocumentChild) (g : TocGen) :
    (expandAutoTocs styles children g).1.length = children.length ∧
    ∀ (i : Nat) (c : DocumentChild), children[i]? = some c →
      ∃ c', (expandAutoTocs styles children g).1[i]? = some c' ∧ ChildExpanded styles children c c' := by
  obtain ⟨ms, k, h1, h2, h3⟩ := expandAutoTocs_eq styles children g
  rw [h1]
  refine ⟨by simp, fun i c hc => ⟨_, by rw [List.getElem?_mapIdx, hc]; rfl, ?_⟩⟩
  cases c with
  | paragraph p => exact ⟨_, rfl⟩
  | toc t =>
    simp only [overlay, ChildExpanded]
    have hm : i ∈ autoTocIndexes 0 children ↔ isAuto t = true := by
      rw [autoTocIndexes_mem]
      simp [hc]
    by_cases ha : isAuto t = true
    · rw [if_pos ha, if_pos (hm.2 ha)]
      refine ⟨_, rfl, ?_⟩
      unfold itemsFor
      simp only [hc]
      exact items_texts styles t.instr children (ms i) (h3 i (hm.2 ha) t hc)
    · rw [if_neg ha, if_neg (fun h => ha (hm.1 h))]
  | _ => rfl

/-! ### Keys -/

theorem newItems_overlay (marks : Marks) (items : Nat → List TocItem) : ∀ (cs : List DocumentChild) (n : Nat)
    (done : List Nat), (∀ i t, cs[i]? = some (.toc t) → isAuto t = true → n + i ∈ done) →
    newItems cs (cs.mapIdx fun i c => overlay done marks items (n + i) c) = (autoTocIndexes n cs).flatMap items
  | [], _, _, _ => rfl
  | c :: cs, n, done, h => by
    have ih := newItems_overlay marks items cs (n + 1) done fun i t hc ha => by
      have := h (i + 1) t (by simpa using hc) ha
      rwa [Nat.add_assoc, Nat.add_comm 1 i]
    have e : (fun i c => overlay done marks items (n + 1 + i) c) = fun i c => overlay done marks items (n + (i + 1)) c := by
      funext i c
      rw [Nat.add_assoc, Nat.add_comm 1 i]
    rw [e] at ih
    rw [List.mapIdx_cons]
    generalize (cs.mapIdx fun i c => overlay done marks items (n + (i + 1)) c) = tl at ih ⊢
    cases c with
    | toc t =>
      by_cases ha : isAuto t = true
      · have hd := h 0 t rfl ha
        have ha' : t.items = [] ∧ t.auto = true := by simpa [isAuto] using ha
        simp only [overlay, if_pos hd, newItems, if_pos ha, autoTocIndexes, if_pos ha', List.flatMap_cons, ih]
        rfl
      · have ha' : ¬ (t.items = [] ∧ t.auto = true) := by simpa [isAuto] using ha
        by_cases hd : n ∈ done
        · simp only [overlay, Nat.add_zero, if_pos hd, newItems, if_neg ha, autoTocIndexes, if_neg ha', List.nil_append, ih]
        · simp only [overlay, Nat.add_zero, if_neg hd, newItems, if_neg ha, autoTocIndexes, if_neg ha', List.nil_append, ih]
    | _ => exact ih

theorem newItems_eq (styles : List Style) (children : List DocumentChild) (g : TocGen) (ms : Nat → Marks) (k : Nat)
    (h1 : expandAutoTocs styles children g =
        (children.mapIdx (overlay (autoTocIndexes 0 children) (fun i => (autoTocIndexes 0 children).flatMap fun t => ms t i)
          (fun i => itemsFor styles children i (ms i))), g.after k)) :
    newItems children (expandAutoTocs styles children g).1 =
      (autoTocIndexes 0 children).flatMap fun i => itemsFor styles children i (ms i) := by
  rw [h1]
  have := newItems_overlay (fun i => (autoTocIndexes 0 children).flatMap fun t => ms t i)
    (fun i => itemsFor styles children i (ms i)) children 0 (autoTocIndexes 0 children) (fun i t hc ha =>
      (autoTocIndexes_mem children 0 _).2 ⟨Nat.zero_le _, t, by simpa using hc, ha⟩)
  simpa only [Nat.zero_add] using this

theorem newItems_keys (styles : List Style) (children : List DocumentChild) (g : TocGen) (ms : Nat → Marks) (k : Nat)
    (h1 : expandAutoTocs styles children g =
        (children.mapIdx (overlay (autoTocIndexes 0 children) (fun i => (autoTocIndexes 0 children).flatMap fun t => ms t i)
          (fun i => itemsFor styles children i (ms i))), g.after k))
    (h3 : ∀ t ∈ autoTocIndexes 0 children, ∀ toc, children[t]? = some (.toc toc) → ∀ i c, children[i]? = some c →
        (ms t i).length = markCount (listedLevels styles toc.instr) c) :
    (newItems children (expandAutoTocs styles children g).1).map (fun x => x.tocKey) =
      ((autoTocIndexes 0 children).flatMap fun t => (children.mapIdx fun i _ => ms t i).flatten).map Prod.snd := by
  rw [newItems_eq styles children g ms k h1, List.map_flatMap, List.map_flatMap]
  refine flatMap_congr' fun i hi => ?_
  obtain ⟨_, t, ht, _⟩ := (autoTocIndexes_mem children 0 i).1 hi
  simp only [Nat.sub_zero] at ht
  unfold itemsFor
  simp only [ht]
  exact items_keys _ children (ms i) (h3 i hi t ht)

theorem newMarks_fst (k : Nat) (g : TocGen) : (newMarks k g).map Prod.fst = (generateIds k g.bookmark).1 := by
  unfold newMarks
  exact List.map_fst_zip (by simp [generateIds_len])

theorem newMarks_snd (k : Nat) (g : TocGen) : (newMarks k g).map Prod.snd = (generateIds k g.key).1.map tocKeyText := by
  unfold newMarks
  exact List.map_snd_zip (by simp [generateIds_len])

/-- **C28.** The keys of all the entries made for the automatic tables of contents of a document are different
from each other. -/
theorem C28_keys_distinct (styles : List Style) (children : List DocumentChild) (g : TocGen) (hg : g.key < usizeCount)
    (hn : (newItems children (expandAutoTocs styles children g).1).length ≤ usizeCount) :
    ((newItems children (expandAutoTocs styles children g).1).map fun x => x.tocKey).Nodup := by
  obtain ⟨ms, k, h1, h2, h3⟩ := expandAutoTocs_eq styles children g
  have hk := newItems_keys styles children g ms k h1 h3
  rw [h2, newMarks_snd] at hk
  have hl : (newItems children (expandAutoTocs styles children g).1).length = k := by
    have := congrArg List.length hk
    simpa [generateIds_len] using this
  rw [hk, List.nodup_iff_pairwise_ne, List.pairwise_map]
  refine (List.nodup_iff_pairwise_ne.1 (C11_distinct_one_thread k g.key hg (hl ▸ hn)).2).imp fun hne => ?_
  exact (C11_texts_distinct hne).2.2.2.2.1

theorem mapIdx_append_perm {α β : Type} : ∀ (cs : List α) (f h : Nat → List β),
    (cs.mapIdx fun i _ => f i ++ h i).flatten.Perm ((cs.mapIdx fun i _ => f i).flatten ++ (cs.mapIdx fun i _ => h i).flatten)
  | [], _, _ => .refl _
  | c :: cs, f, h => by
    simp only [List.mapIdx_cons, List.flatten_cons]
    have ih := mapIdx_append_perm cs (fun i => f (i + 1)) (fun i => h (i + 1))
    refine (List.Perm.append_left _ ih).trans ?_
    rw [List.append_assoc, List.append_assoc]
    refine List.Perm.append_left _ ?_
    rw [← List.append_assoc, ← List.append_assoc]
    exact List.Perm.append_right _ List.perm_append_comm

theorem mapIdx_nil_flatten {α β : Type} : ∀ cs : List α, (cs.mapIdx fun _ _ => ([] : List β)).flatten = []
  | [] => rfl
  | c :: cs => by
    rw [List.mapIdx_cons, List.flatten_cons, mapIdx_nil_flatten cs]
    rfl

theorem mapIdx_swap_perm {α β : Type} (cs : List α) (ms : Nat → Nat → List β) : ∀ todo : List Nat,
    (cs.mapIdx fun i _ => todo.flatMap fun t => ms t i).flatten.Perm
      (todo.flatMap fun t => (cs.mapIdx fun i _ => ms t i).flatten)
  | [] => by
    simp only [List.flatMap_nil, mapIdx_nil_flatten]
    exact .refl _
  | t :: todo => by
    simp only [List.flatMap_cons]
    exact (mapIdx_append_perm cs _ _).trans (List.Perm.append_left _ (mapIdx_swap_perm cs ms todo))

theorem mem_zipWith_item {p : Paragraph} {x : TocItem} : ∀ {ls : List Nat} {m : List (Nat × Str)},
    x ∈ List.zipWith (fun l (k : Nat × Str) => ({ text := p.rawText, tocKey := k.2, level := l } : TocItem)) ls m →
    x.level ∈ ls ∧ x.text = p.rawText ∧ ∃ k ∈ m, k.2 = x.tocKey
  | [], _, h => by simp at h
  | _ :: _, [], h => by simp at h
  | l :: ls, k :: m, h => by
    rw [List.zipWith_cons_cons, List.mem_cons] at h
    rcases h with rfl | h
    · exact ⟨.head _, rfl, k, .head _, rfl⟩
    · obtain ⟨h1, h2, k', h3, h4⟩ := mem_zipWith_item h
      exact ⟨.tail _ h1, h2, k', .tail _ h3, h4⟩

/-- **C28.** Let `marks i` be the bookmarks put around the content of the `i`-th piece of content. Each entry
made for an automatic table of contents has the text of a paragraph and, as key, the name of a bookmark around
exactly that paragraph's content; the bookmarks added and the entries correspond one to one; and the bookmark
ids are those of fresh numbers of the bookmark counter. -/
theorem C28_targets (styles : List Style) (children : List DocumentChild) (g : TocGen) :
    ∃ marks : Nat → List (Nat × Str),
      (∀ (i : Nat) (p : Paragraph), children[i]? = some (.paragraph p) →
        (expandAutoTocs styles children g).1[i]? = some (.paragraph (wrapAll p (marks i)))) ∧
      (∀ x ∈ newItems children (expandAutoTocs styles children g).1,
        ∃ (i : Nat) (p : Paragraph) (m : Nat × Str), children[i]? = some (.paragraph p) ∧ m ∈ marks i ∧ m.2 = x.tocKey ∧ x.text = p.rawText) ∧
      ((children.mapIdx fun i _ => marks i).flatten.map Prod.snd).Perm
        ((newItems children (expandAutoTocs styles children g).1).map fun x => x.tocKey) ∧
      ((children.mapIdx fun i _ => marks i).flatten.map Prod.fst).Perm
        (generateIds (newItems children (expandAutoTocs styles children g).1).length g.bookmark).1 := by
  obtain ⟨ms, k, h1, h2, h3⟩ := expandAutoTocs_eq styles children g
  have hk := newItems_keys styles children g ms k h1 h3
  have hl : (newItems children (expandAutoTocs styles children g).1).length = k := by
    have := congrArg List.length hk
    rw [h2, newMarks_snd] at this
    simpa [generateIds_len] using this
  refine ⟨fun i => (autoTocIndexes 0 children).flatMap fun t => ms t i, ?_, ?_, ?_, ?_⟩
  · intro i p hp
    rw [h1, List.getElem?_mapIdx, hp]
    rfl
  · intro x hx
    rw [newItems_eq styles children g ms k h1, List.mem_flatMap] at hx
    obtain ⟨t, ht, hx⟩ := hx
    obtain ⟨_, toc, htoc, _⟩ := (autoTocIndexes_mem children 0 t).1 ht
    simp only [Nat.sub_zero] at htoc
    unfold itemsFor at hx
    simp only [htoc, List.mem_flatten, List.mem_mapIdx] at hx
    obtain ⟨l, ⟨i, hi, rfl⟩, hx⟩ := hx
    have hc : children[i]? = some children[i] := List.getElem?_eq_getElem hi
    generalize children[i] = c at hx hc
    cases c with
    | paragraph p =>
      obtain ⟨_, h4, m, h5, h6⟩ := mem_zipWith_item hx
      exact ⟨i, p, m, hc, List.mem_flatMap.2 ⟨t, ht, h5⟩, h6, h4⟩
    | _ => simp [itemsOf] at hx
  · rw [hk]
    exact (mapIdx_swap_perm children ms _).map _
  · refine ((mapIdx_swap_perm children ms _).map _).trans ?_
    rw [h2, newMarks_fst, hl]

/-! ### What a user expects of the rule -/

/-- The level under which a table of contents is expected to list a paragraph with style `s` (as stored): the
level of a heading style if it is in the range, and otherwise the level given to the style by name. -/
def expectedLevel (styles : List Style) (i : InstrToC) (s : Str) : Option Nat :=
  ((hashGet (headingStyleMap styles) s).filter fun l =>
      decide ((i.headingStylesRange.getD (0, 9)).1 ≤ l ∧ l ≤ (i.headingStylesRange.getD (0, 9)).2)).or
    (hashGet (i.stylesWithLevels.map fun x => (escapeOwned x.1, x.2)) s)

/-- The expected entries. -/
def expectedEntries (styles : List Style) (i : InstrToC) : List DocumentChild → List (Str × Nat)
  | [] => []
  | .paragraph p :: cs =>
    ((p.property.base.style.bind (expectedLevel styles i)).map fun l => (p.rawText, l)).toList ++
      expectedEntries styles i cs
  | _ :: cs => expectedEntries styles i cs

theorem hashGet_mem {l : List (Str × Nat)} {s : Str} {n : Nat} (h : hashGet l s = some n) : (s, n) ∈ l := by
  unfold hashGet at h
  generalize hr : l.reverse = r at h
  have : (s, n) ∈ r := by
    clear hr
    induction r with
    | nil => simp at h
    | cons x r ih =>
      obtain ⟨a, b⟩ := x
      rw [List.lookup_cons] at h
      by_cases e : s == a
      · simp only [e, Option.some.injEq] at h
        rw [show s = a by simpa using e, h]
        exact .head _
      · simp only [e] at h
        exact .tail _ (ih h)
  rw [← List.mem_reverse, hr]
  exact this

/-- **C27.** The entries are the expected ones when the instruction gives a range or lists no styles, the ids of
the styles it lists need no escaping, the levels it gives them are in the range, and none of them is itself a
heading style. Without these conditions the claim is false: see the next theorems. -/
theorem C27_expected_partial (styles : List Style) (i : InstrToC) (children : List DocumentChild)
    (h1 : i.headingStylesRange ≠ none ∨ i.stylesWithLevels = [])
    (h2 : ∀ x ∈ i.stylesWithLevels, escapeOwned x.1 = x.1 ∧
      (i.headingStylesRange.getD (0, 9)).1 ≤ x.2 ∧ x.2 ≤ (i.headingStylesRange.getD (0, 9)).2 ∧
      hashGet (headingStyleMap styles) x.1 = none) :
    entries styles i children = expectedEntries styles i children := by
  have hmap : (i.stylesWithLevels.map fun x => (escapeOwned x.1, x.2)) = i.stylesWithLevels := by
    have : ∀ l : List (Str × Nat), (∀ x ∈ l, escapeOwned x.1 = x.1) → (l.map fun x => (escapeOwned x.1, x.2)) = l := by
      intro l hl
      induction l with
      | nil => rfl
      | cons x l ih =>
        rw [List.map_cons, hl x (.head _), ih fun y hy => hl y (.tail _ hy)]
    exact this _ fun x hx => (h2 x hx).1
  have hnot : ¬ (i.headingStylesRange = none ∧ i.stylesWithLevels ≠ []) := by
    rintro ⟨a, b⟩
    rcases h1 with h | h
    · exact h a
    · exact b h
  induction children with
  | nil => rfl
  | cons c cs ih =>
    cases c with
    | paragraph p =>
      simp only [entries, expectedEntries, ih]
      congr 1
      unfold listedLevels
      rw [if_neg hnot]
      cases p.property.base.style with
      | none => rfl
      | some s =>
        simp only [Option.bind_some, expectedLevel, hmap]
        cases hs : hashGet i.stylesWithLevels s with
        | none =>
          cases hh : hashGet (headingStyleMap styles) s with
          | none => rfl
          | some l =>
            simp only [Option.toList, List.append_nil, List.filter_cons, List.filter_nil, Option.filter, Option.or_none]
            split <;> rfl
        | some l =>
          obtain ⟨_, ha, hb, hc⟩ := h2 _ (hashGet_mem hs)
          dsimp only at ha hb hc
          simp only [hc, Option.toList, List.nil_append, List.filter_cons, List.filter_nil, ha, hb, and_self,
            decide_true, if_true, Option.filter, Option.none_or, Option.map_some, List.map_cons, List.map_nil]
    | _ => exact ih

/-- Helper for the examples: a paragraph with a style and a text. -/
def styledParagraph (style text : Str) : Paragraph :=
  ({ id := c!"00000001", property := { base := { style := some (escapeOwned style) } } } : Paragraph).addRun (Run.addText {} text)

/-- The styles of the examples. -/
def exampleStyles : List Style :=
  [(Style.new c!"H1" .paragraph).setName c!"Heading 1", (Style.new c!"H2" .paragraph).setName c!"Heading 2",
   (Style.new c!"C" .paragraph).setName c!"Caption"]

/-- **C27, a disagreement.** An instruction that lists styles but gives no range lists nothing, although a
paragraph with a listed style is expected to be listed. -/
theorem C27_fails_without_range :
    entries exampleStyles { stylesWithLevels := [(c!"C", 2)] } [.paragraph (styledParagraph c!"C" c!"Figure")] = [] ∧
    expectedEntries exampleStyles { stylesWithLevels := [(c!"C", 2)] } [.paragraph (styledParagraph c!"C" c!"Figure")] =
      [(c!"Figure", 2)] := by decide

/-- **C27, a disagreement.** A heading whose style is also listed by name is listed twice. -/
theorem C27_fails_twice :
    entries exampleStyles { headingStylesRange := some (1, 3), stylesWithLevels := [(c!"H1", 2)] }
      [.paragraph (styledParagraph c!"H1" c!"Intro")] = [(c!"Intro", 1), (c!"Intro", 2)] ∧
    expectedEntries exampleStyles { headingStylesRange := some (1, 3), stylesWithLevels := [(c!"H1", 2)] }
      [.paragraph (styledParagraph c!"H1" c!"Intro")] = [(c!"Intro", 1)] := by decide

/-- **C27, a disagreement.** A listed style is not found if its id contains a character that is escaped. -/
theorem C27_fails_escaped_style :
    entries exampleStyles { headingStylesRange := some (1, 3), stylesWithLevels := [(c!"Q&A", 2)] }
      [.paragraph (styledParagraph c!"Q&A" c!"Why")] = [] ∧
    expectedEntries exampleStyles { headingStylesRange := some (1, 3), stylesWithLevels := [(c!"Q&A", 2)] }
      [.paragraph (styledParagraph c!"Q&A" c!"Why")] = [(c!"Why", 2)] := by decide

/-- **C27, a disagreement.** A listed style whose level is outside the range of heading levels is left out. -/
theorem C27_fails_out_of_range :
    entries exampleStyles { headingStylesRange := some (1, 1), stylesWithLevels := [(c!"C", 2)] }
      [.paragraph (styledParagraph c!"C" c!"Figure")] = [] ∧
    expectedEntries exampleStyles { headingStylesRange := some (1, 1), stylesWithLevels := [(c!"C", 2)] }
      [.paragraph (styledParagraph c!"C" c!"Figure")] = [(c!"Figure", 2)] := by decide

/-- **C28, a disagreement.** A key can be the name of a bookmark the user made: keys do not avoid the names in
the document. -/
theorem C28_user_bookmark_collides :
    let user : Paragraph := { id := c!"00000001", children := [.bookmarkStart 5 c!"_Toc00000000", .bookmarkEnd 5] }
    let r := expandAutoTocs exampleStyles
      [.toc { auto := true, instr := { headingStylesRange := some (1, 3) } }, .paragraph user,
       .paragraph (styledParagraph c!"H1" c!"Intro")] {}
    (newItems [.toc { auto := true, instr := { headingStylesRange := some (1, 3) } }, .paragraph user,
       .paragraph (styledParagraph c!"H1" c!"Intro")] r.1).map (fun x => x.tocKey) = [c!"_Toc00000000"] := by decide

/-! A non-trivial document: two tables of contents with different ranges, listed styles and plain text. -/

/-- The document. -/
def exampleChildren : List DocumentChild :=
  [.toc { auto := true, instr := { headingStylesRange := some (1, 3), stylesWithLevels := [(c!"C", 3)] } },
   .paragraph (styledParagraph c!"H1" c!"Intro"), .paragraph (styledParagraph c!"N" c!"text"),
   .paragraph (styledParagraph c!"C" c!"Figure"), .toc { auto := false },
   .paragraph (styledParagraph c!"H2" c!"More"),
   .toc { auto := true, instr := { headingStylesRange := some (2, 2) } }]

example : (newItems exampleChildren (expandAutoTocs exampleStyles exampleChildren {}).1).map
      (fun x => (x.text, x.level, x.tocKey)) =
    [(c!"Intro", 1, c!"_Toc00000000"), (c!"Figure", 3, c!"_Toc00000001"), (c!"More", 2, c!"_Toc00000002"),
     (c!"More", 2, c!"_Toc00000003")] := by decide

example : entries exampleStyles { headingStylesRange := some (1, 3), stylesWithLevels := [(c!"C", 3)] } exampleChildren =
    [(c!"Intro", 1), (c!"Figure", 3), (c!"More", 2)] := by decide

/-- The conditions of `C27_expected_partial` hold for the first table of contents of the example. -/
example : ∀ x ∈ ({ headingStylesRange := some (1, 3), stylesWithLevels := [(c!"C", 3)] } : InstrToC).stylesWithLevels,
    escapeOwned x.1 = x.1 ∧ 1 ≤ x.2 ∧ x.2 ≤ 3 ∧ hashGet (headingStyleMap exampleStyles) x.1 = none := by decide

end Docx.Props
