import Verif.Lemmas.ParaIds
import Verif.Lemmas.Digits

/-! The paragraph id refresh on plain lists of ids, and its lift to whole documents. -/

namespace Docx
open Docx.Spec

theorem paraIdText_inj {m n : Nat} (h : paraIdText m = paraIdText n) : m = n := pad0_hex_inj 8 h

theorem paraIdText_ne_nil (n : Nat) : paraIdText n ≠ [] := pad0_ne_nil 8 (hex_ne_nil n)

theorem scanParaId_spec (used : List Str) : ∀ (fuel v : Nat),
    (∃ k, k < fuel ∧ paraIdText (v + k) ∉ used) →
    ∃ n, scanParaId used fuel v = some (paraIdText n) ∧ paraIdText n ∉ used
  | 0, _, h => by obtain ⟨k, hk, _⟩ := h; omega
  | fuel + 1, v, h => by
    unfold scanParaId
    by_cases hv : paraIdText v ∈ used
    · rw [if_pos hv]
      obtain ⟨k, hk, hk'⟩ := h
      cases k with
      | zero => exact absurd hv hk'
      | succ k => exact scanParaId_spec used fuel (v + 1) ⟨k, by omega, by
          have : v + (k + 1) = v + 1 + k := by omega
          rwa [this] at hk'⟩
    · rw [if_neg hv]; exact ⟨v, rfl, hv⟩

/-- The scan always finds an id: the `expect` in the code cannot fail for want of candidates. -/
theorem scanParaId_finds (used : List Str) (v : Nat) :
    ∃ n, scanParaId used (used.length + 1) v = some (paraIdText n) ∧ paraIdText n ∉ used := by
  obtain ⟨k, hk, hk'⟩ := exists_not_mem_of_injective paraIdText paraIdText_inj used v
  exact scanParaId_spec used _ _ ⟨k, by omega, hk'⟩

theorem nextUnique_spec (used : List Str) (next : Nat) :
    (nextUniqueParagraphId used next).1 ∉ used ∧ (nextUniqueParagraphId used next).1 ≠ [] := by
  unfold nextUniqueParagraphId
  by_cases h : (generateParaId next).1 ∈ used
  · simp only [h, if_true]
    obtain ⟨n, hn, hn'⟩ := scanParaId_finds used (used.length + 1)
    rw [hn]
    exact ⟨hn', paraIdText_ne_nil n⟩
  · simp only [if_neg h]
    exact ⟨h, paraIdText_ne_nil next⟩

theorem refreshIds_length (dup : List Str) : ∀ (l : List Str) (s : IdState),
    (refreshIds dup l s).1.length = l.length
  | [], _ => rfl
  | _ :: l, s => by simp [refreshIds, refreshIds_length dup l]

theorem refreshIds_unique (dup : List Str) : ∀ (l : List Str) (s : IdState),
    (∀ i ∈ l, i ∈ s.used) → (∀ i ∈ l, i ∉ dup → l.count i ≤ 1) →
    (refreshIds dup l s).1.Nodup ∧ [] ∉ (refreshIds dup l s).1 ∧
    ∀ i ∈ (refreshIds dup l s).1, (i ∈ l ∧ (i ∈ dup → i ∉ s.seen)) ∨ i ∉ s.used
  | [], s, _, _ => by simp [refreshIds]
  | i :: l, s, hu, hc => by
    have hu' : ∀ j ∈ l, j ∈ s.used := fun j hj => hu j (by simp [hj])
    have hc' : ∀ j ∈ l, j ∉ dup → l.count j ≤ 1 := fun j hj hd => by
      have := hc j (by simp [hj]) hd
      exact Nat.le_trans (List.count_le_count_cons) this
    have hi : i ∈ s.used := hu i (by simp)
    unfold refreshIds ensureUniqueParagraphId
    by_cases h1 : i ≠ [] ∧ i ∉ dup
    · rw [if_pos h1]
      obtain ⟨a, b, c⟩ := refreshIds_unique dup l s hu' hc'
      have hil : i ∉ l := fun hl => by
        have h := hc i (by simp) h1.2
        rw [List.count_cons_self] at h
        have := List.count_pos_iff.2 hl
        omega
      refine ⟨List.nodup_cons.2 ⟨fun h => ?_, a⟩, ?_, ?_⟩
      · rcases c i h with ⟨h, _⟩ | h
        · exact hil h
        · exact h hi
      · intro h
        rcases List.mem_cons.1 h with h | h
        · exact h1.1 h.symm
        · exact b h
      · intro j hj
        rcases List.mem_cons.1 hj with rfl | hj
        · exact .inl ⟨by simp, fun h => absurd h h1.2⟩
        · rcases c j hj with ⟨h, h'⟩ | h
          · exact .inl ⟨by simp [h], h'⟩
          · exact .inr h
    · rw [if_neg h1]
      by_cases h2 : i ≠ [] ∧ i ∉ s.seen
      · rw [if_pos h2]
        have hd : i ∈ dup := Classical.byContradiction fun h => h1 ⟨h2.1, h⟩
        obtain ⟨a, b, c⟩ := refreshIds_unique dup l { s with seen := i :: s.seen } hu' hc'
        refine ⟨List.nodup_cons.2 ⟨fun h => ?_, a⟩, ?_, ?_⟩
        · rcases c i h with ⟨_, h⟩ | h
          · exact h hd (by simp)
          · exact h hi
        · intro h
          rcases List.mem_cons.1 h with h | h
          · exact h2.1 h.symm
          · exact b h
        · intro j hj
          rcases List.mem_cons.1 hj with rfl | hj
          · exact .inl ⟨by simp, fun _ => h2.2⟩
          · rcases c j hj with ⟨h, h'⟩ | h
            · exact .inl ⟨by simp [h], fun hd h'' => h' hd (by simp [h''])⟩
            · exact .inr h
      · rw [if_neg h2]
        obtain ⟨hn, hn0⟩ := nextUnique_spec s.used s.next
        generalize nextUniqueParagraphId s.used s.next = n at *
        obtain ⟨a, b, c⟩ := refreshIds_unique dup l { s with used := n.1 :: s.used, next := n.2 }
          (fun j hj => by simp [hu' j hj]) hc'
        refine ⟨List.nodup_cons.2 ⟨fun h => ?_, a⟩, ?_, ?_⟩
        · rcases c n.1 h with ⟨h, _⟩ | h
          · exact hn (hu' _ h)
          · exact h (by simp)
        · intro h
          rcases List.mem_cons.1 h with h | h
          · exact hn0 h.symm
          · exact b h
        · intro j hj
          rcases List.mem_cons.1 hj with rfl | hj
          · exact .inr hn
          · rcases c j hj with ⟨h, h'⟩ | h
            · exact .inl ⟨by simp [h], h'⟩
            · exact .inr (fun h' => h (by simp [h']))

/-- Which ids are kept: `pre` is the list of the ids already processed. -/
theorem refreshIds_kept (dup : List Str) : ∀ (l pre : List Str) (s : IdState),
    (∀ i, i ∈ s.seen ↔ i ∈ pre ∧ i ∈ dup ∧ i ≠ []) →
    (∀ i ∈ l, i ∉ dup → i ∉ pre ∧ l.count i ≤ 1) →
    ∀ (k : Nat) (i : Str), l[k]? = some i →
      ∃ j, (refreshIds dup l s).1[k]? = some j ∧
        (i ≠ [] ∧ i ∉ pre ++ l.take k → j = i) ∧
        (¬ (i ≠ [] ∧ i ∉ pre ++ l.take k) → j ∉ s.used)
  | [], _, _, _, _, k, i, h => by simp at h
  | x :: l, pre, s, hs, hc, k, i, h => by
    -- the step for the first element
    have hc' : ∀ i ∈ l, i ∉ dup → i ∉ pre ++ [x] ∧ l.count i ≤ 1 := fun j hj hd => by
      obtain ⟨a, b⟩ := hc j (by simp [hj]) hd
      refine ⟨?_, Nat.le_trans (List.count_le_count_cons) b⟩
      intro hm
      rcases List.mem_append.1 hm with hm | hm
      · exact a hm
      · have e : j = x := by simpa using hm
        rw [e, List.count_cons_self] at b
        have := List.count_pos_iff.2 (e ▸ hj)
        omega
    have key : ∀ (s' : IdState), (∀ i, i ∈ s'.seen ↔ i ∈ pre ++ [x] ∧ i ∈ dup ∧ i ≠ []) →
        (∀ i, i ∈ s.used → i ∈ s'.used) → ∀ k', k = k' + 1 →
        ∃ j, (refreshIds dup l s').1[k']? = some j ∧
          (i ≠ [] ∧ i ∉ pre ++ (x :: l).take k → j = i) ∧
          (¬ (i ≠ [] ∧ i ∉ pre ++ (x :: l).take k) → j ∉ s.used) := by
      intro s' hs' hused k' hk
      subst hk
      obtain ⟨j, hj, h1, h2⟩ := refreshIds_kept dup l (pre ++ [x]) s' hs' hc' k' i (by simpa using h)
      have e : pre ++ [x] ++ l.take k' = pre ++ (x :: l).take (k' + 1) := by simp
      rw [e] at h1 h2
      exact ⟨j, hj, h1, fun hh hu => h2 hh (hused _ hu)⟩
    unfold refreshIds ensureUniqueParagraphId
    by_cases h1 : x ≠ [] ∧ x ∉ dup
    · rw [if_pos h1]
      cases k with
      | zero =>
        have e : x = i := by simpa using h
        subst e
        refine ⟨x, by simp, fun _ => rfl, fun hh => absurd ?_ hh⟩
        simpa using ⟨h1.1, (hc x (by simp) h1.2).1⟩
      | succ k =>
        obtain ⟨j, hj, r⟩ := key s (by
          intro i; rw [hs i]
          constructor
          · intro ⟨a, b, c⟩; exact ⟨by simp [a], b, c⟩
          · intro ⟨a, b, c⟩
            refine ⟨?_, b, c⟩
            rcases List.mem_append.1 a with a | a
            · exact a
            · exact absurd ((by simpa using a : i = x) ▸ b) h1.2) (fun _ h => h) k rfl
        exact ⟨j, by simpa using hj, r⟩
    · rw [if_neg h1]
      by_cases h2 : x ≠ [] ∧ x ∉ s.seen
      · rw [if_pos h2]
        have hd : x ∈ dup := Classical.byContradiction fun h => h1 ⟨h2.1, h⟩
        cases k with
        | zero =>
          have e : x = i := by simpa using h
          subst e
          refine ⟨x, by simp, fun _ => rfl, fun hh => absurd ?_ hh⟩
          refine ⟨h2.1, fun hm => h2.2 ((hs x).2 ⟨by simpa using hm, hd, h2.1⟩)⟩
        | succ k =>
          obtain ⟨j, hj, r⟩ := key { s with seen := x :: s.seen } (by
            intro i
            simp only [List.mem_cons, hs i, List.mem_append, List.not_mem_nil, or_false]
            constructor
            · rintro (rfl | ⟨a, b, c⟩)
              · exact ⟨.inr rfl, hd, h2.1⟩
              · exact ⟨.inl a, b, c⟩
            · rintro ⟨a | a, b, c⟩
              · exact .inr ⟨a, b, c⟩
              · exact .inl a) (fun _ h => h) k rfl
          exact ⟨j, by simpa using hj, r⟩
      · rw [if_neg h2]
        obtain ⟨hn, hn0⟩ := nextUnique_spec s.used s.next
        generalize nextUniqueParagraphId s.used s.next = n at *
        cases k with
        | zero =>
          have e : x = i := by simpa using h
          subst e
          refine ⟨n.1, by simp, fun hh => absurd ?_ h2, fun _ => hn⟩
          refine ⟨hh.1, fun hm => hh.2 ?_⟩
          simpa using ((hs x).1 hm).1
        | succ k =>
          obtain ⟨j, hj, r⟩ := key { s with used := n.1 :: s.used, next := n.2 } (by
            intro i
            simp only [hs i, List.mem_append, List.mem_cons, List.not_mem_nil, or_false]
            constructor
            · rintro ⟨a, b, c⟩; exact ⟨.inl a, b, c⟩
            · rintro ⟨a | a, b, c⟩
              · exact ⟨a, b, c⟩
              · subst a
                have := Classical.byContradiction fun hh => h2 ⟨c, hh⟩
                exact (hs i).1 this) (fun _ h => by simp [h]) k rfl
          exact ⟨j, by simpa using hj, r⟩

theorem mem_keysOf : ∀ (l : List Str) (i : Str), i ∈ keysOf l ↔ i ∈ l
  | [], i => by simp [keysOf]
  | x :: l, i => by
    unfold keysOf
    by_cases h : x ∈ keysOf l
    · rw [if_pos h, mem_keysOf l i]
      have hx : x ∈ l := (mem_keysOf l x).1 h
      constructor
      · intro h; simp [h]
      · intro h; rcases List.mem_cons.1 h with rfl | h
        · exact hx
        · exact h
    · rw [if_neg h]; simp [mem_keysOf l i]

/-! ### From lists of ids to documents -/

theorem refreshEach_ids {α : Type} (dup : List Str) (f : α → Refresh α) (c : α → List Str)
    (h : ∀ x s, refreshIds dup (c x) s = (c (f x s).1, (f x s).2)) :
    ∀ (l : List α) (s : IdState), refreshIds dup (l.flatMap c) s =
      ((refreshEach f l s).1.flatMap c, (refreshEach f l s).2)
  | [], s => rfl
  | x :: l, s => by simp [refreshEach, refreshIds_append, h, refreshEach_ids dup f c h l]

theorem refreshHeaderChild_ids (dup : List Str) (x : HeaderChild) (s : IdState) :
    refreshIds dup (collectHeaderChild x) s =
      (collectHeaderChild (refreshHeaderChild dup x s).1, (refreshHeaderChild dup x s).2) := by
  cases x <;> simp [collectHeaderChild, refreshHeaderChild, refreshParagraph_ids, refreshTable_ids,
    refreshSdt_ids]

theorem refreshPart_ids (dup : List Str) (x : Option (Str × Header)) (s : IdState) :
    refreshIds dup (collectPart x) s = (collectPart (refreshPart dup x s).1, (refreshPart dup x s).2) := by
  rcases x with _ | ⟨i, h⟩
  · rfl
  · simp [collectPart, refreshPart, collectHeader, refreshHeader,
      refreshEach_ids dup _ _ (refreshHeaderChild_ids dup)]

theorem refreshSectionProperty_ids (dup : List Str) (x : SectionProperty) (s : IdState) :
    refreshIds dup (collectSectionProperty x) s =
      (collectSectionProperty (refreshSectionProperty dup x s).1,
        (refreshSectionProperty dup x s).2) := by
  simp [collectSectionProperty, refreshSectionProperty, refreshIds_append, refreshPart_ids]

theorem refreshSectionChild_ids (dup : List Str) (x : SectionChild) (s : IdState) :
    refreshIds dup (collectSectionChild x) s =
      (collectSectionChild (refreshSectionChild dup x s).1, (refreshSectionChild dup x s).2) := by
  cases x <;> simp [collectSectionChild, refreshSectionChild, refreshParagraph_ids, refreshTable_ids,
    refreshSdt_ids, refreshToc_ids, refreshComment_ids, refreshIds]

theorem refreshSection_ids (dup : List Str) (x : Section) (s : IdState) :
    refreshIds dup (collectSection x) s =
      (collectSection (refreshSection dup x s).1, (refreshSection dup x s).2) := by
  simp [collectSection, refreshSection, refreshIds_append, refreshSectionProperty_ids,
    refreshEach_ids dup _ _ (refreshSectionChild_ids dup)]

theorem refreshDocumentChild_ids (dup : List Str) (x : DocumentChild) (s : IdState) :
    refreshIds dup (collectDocumentChild x) s =
      (collectDocumentChild (refreshDocumentChild dup x s).1, (refreshDocumentChild dup x s).2) := by
  cases x <;> simp [collectDocumentChild, refreshDocumentChild, refreshParagraph_ids, refreshTable_ids,
    refreshSdt_ids, refreshToc_ids, refreshComment_ids, refreshSection_ids, refreshIds]

theorem refreshFootnote_ids (dup : List Str) (x : Footnote) (s : IdState) :
    refreshIds dup (collectFootnote x) s =
      (collectFootnote (refreshFootnote dup x s).1, (refreshFootnote dup x s).2) := by
  simp [collectFootnote, refreshFootnote, refreshEach_ids dup _ _ (refreshParagraph_ids dup)]

/-- The ids of a story, in traversal order. -/
abbrev storyIds (x : Story) : List Str := collectDocx x.document x.comments x.footnotes

theorem refreshStory_ids (dup : List Str) (x : Story) (s : IdState) :
    refreshIds dup (storyIds x) s = (storyIds (refreshStory dup x s).1, (refreshStory dup x s).2) := by
  simp [storyIds, collectDocx, refreshStory, refreshIds_append, refreshSectionProperty_ids,
    refreshEach_ids dup _ _ (refreshDocumentChild_ids dup),
    refreshEach_ids dup _ _ (refreshComment_ids dup),
    refreshEach_ids dup _ _ (refreshFootnote_ids dup)]

/-! ### The visited ids are the ids of the paragraphs of the body -/

theorem bodyIds_flatMap {α : Type} (f : α → Walk) (c : α → List Str) (h : ∀ x, bodyIds (f x) = c x) :
    ∀ l : List α, bodyIds (l.flatMap f) = l.flatMap c
  | [] => rfl
  | x :: l => by simp [h, bodyIds_flatMap f c h l]

theorem walkHeader_ids (w : List Place) (hw : inBody w = true) (h : Header) :
    bodyIds (walkHeader w h) = collectHeader h := by
  unfold walkHeader collectHeader
  apply bodyIds_flatMap
  intro x
  cases x <;> simp [walkHeaderChild, collectHeaderChild, walkParagraph_ids, walkTable_ids, walkSdt_ids, hw]

theorem walkSectionProperty_ids (w : List Place) (hw : inBody w = true) (p : SectionProperty) :
    bodyIds (walkSectionProperty w p) = collectSectionProperty p := by
  obtain ⟨b, a1, a2, a3, a4, a5, a6⟩ := p
  have h1 : ∀ h, bodyIds (walkHeader (.header :: w) h) = collectHeader h :=
    walkHeader_ids _ (by simp [hw])
  have h2 : ∀ h, bodyIds (walkHeader (.footer :: w) h) = collectHeader h :=
    walkHeader_ids _ (by simp [hw])
  unfold walkSectionProperty collectSectionProperty
  rw [bodyIds_append, bodyIds_flatMap _ (fun x => collectHeader x.2) (fun x => h1 x.2),
    bodyIds_flatMap _ (fun x => collectHeader x.2) (fun x => h2 x.2)]
  cases a1 <;> cases a2 <;> cases a3 <;> cases a4 <;> cases a5 <;> cases a6 <;> simp [collectPart]

theorem walkSection_ids (w : List Place) (hw : inBody w = true) (x : Section) :
    bodyIds (walkSection w x) = collectSection x := by
  unfold walkSection collectSection
  rw [bodyIds_append, walkSectionProperty_ids _ (by simp [hw]),
    bodyIds_flatMap _ collectSectionChild]
  intro x
  cases x <;> simp [walkSectionChild, collectSectionChild, walkParagraph_ids, walkTable_ids, walkSdt_ids,
    walkToc_ids, walkComment_ids, hw, Item.paraId?]

theorem walkDocument_ids (d : Document) :
    bodyIds (walkDocument d) =
      d.children.flatMap collectDocumentChild ++ collectSectionProperty d.sectionProperty := by
  have hw : inBody [.document] = true := by decide
  unfold walkDocument
  rw [bodyIds_append, walkSectionProperty_ids _ hw, bodyIds_flatMap _ collectDocumentChild]
  intro x
  cases x <;> simp [walkDocumentChild, collectDocumentChild, walkParagraph_ids, walkTable_ids, walkSdt_ids,
    walkToc_ids, walkComment_ids, walkSection_ids _ hw, hw, Item.paraId?]

theorem walkStory_ids (x : Story) : bodyIds (walkStory x) = storyIds x := by
  unfold walkStory storyIds collectDocx
  rw [bodyIds_append, bodyIds_append, walkDocument_ids,
    bodyIds_flatMap _ collectComment (fun c => by rw [walkComment_ids]; rfl),
    bodyIds_flatMap _ collectFootnote (fun c => by rw [walkParagraphs_ids]; rfl)]

/-! ### Nothing but ids changes -/

theorem refreshEach_blank {α : Type} (f : α → Refresh α) (b : α → α)
    (h : ∀ x s, b (f x s).1 = b x) : ∀ (l : List α) (s : IdState),
    (refreshEach f l s).1.map b = l.map b
  | [], _ => rfl
  | x :: l, s => by simp [refreshEach, h, refreshEach_blank f b h l]

theorem blankPart_refresh (dup : List Str) (x : Option (Str × Header)) (s : IdState) :
    blankPart (refreshPart dup x s).1 = blankPart x := by
  rcases x with _ | ⟨i, h⟩
  · rfl
  · simp only [refreshPart, blankPart, blankHeader, refreshHeader, Option.map_some]
    rw [refreshEach_blank]
    intro x s
    cases x <;> simp [refreshHeaderChild, blankHeaderChild, blankParagraph_refresh, blankTable_refresh,
      blankSdt_refresh]

theorem blankSectionProperty_refresh (dup : List Str) (x : SectionProperty) (s : IdState) :
    blankSectionProperty (refreshSectionProperty dup x s).1 = blankSectionProperty x := by
  simp [blankSectionProperty, refreshSectionProperty, blankPart_refresh]

theorem blankSection_refresh (dup : List Str) (x : Section) (s : IdState) :
    blankSection (refreshSection dup x s).1 = blankSection x := by
  simp only [blankSection, refreshSection, blankSectionProperty_refresh]
  rw [refreshEach_blank]
  intro x s
  cases x <;> simp [refreshSectionChild, blankSectionChild, blankParagraph_refresh, blankTable_refresh,
      blankSdt_refresh, blankToc_refresh, blankComment_refresh]

theorem blankStory_refresh (dup : List Str) (x : Story) (s : IdState) :
    blankStory (refreshStory dup x s).1 = blankStory x := by
  simp only [blankStory, refreshStory, blankDocument, blankSectionProperty_refresh]
  rw [refreshEach_blank _ blankDocumentChild, refreshEach_blank _ _ (blankComment_refresh dup),
    refreshEach_blank _ blankFootnote]
  · intro x s
    simp only [blankFootnote, refreshFootnote]
    rw [refreshEach_blank _ _ (blankParagraph_refresh dup)]
  · intro x s
    cases x <;> simp [refreshDocumentChild, blankDocumentChild, blankParagraph_refresh,
      blankTable_refresh, blankSdt_refresh, blankToc_refresh, blankComment_refresh, blankSection_refresh]

end Docx
