import Verif.Lemmas.HeldMaps
import Verif.Lemmas.PackageXml
import Verif.Lemmas.Entries
import Verif.Lemmas.MediaNames

/-!
# The strings of a prepared document are those given, and generated ids
-/

namespace Docx

open Docx.Spec

set_option linter.unusedSimpArgs false

/-- A property of strings that generated ids have. -/
structure Generates (P : Str → Prop) : Prop where
  empty : P []
  para : ∀ n, P (paraIdText n)
  toc : ∀ n, P (tocKeyText n)
  named : ∀ pfx, pfx = [] ∨ pfx = c!"header" ∨ pfx = c!"footer" → ∀ s t, P s → NameOf (pfx ++ s) t → P t

theorem plain_paraId (n : Nat) : Plain (paraIdText n) := by
  have h' : ∀ c ∈ '0' :: c!"0123456789abcdef", c ≠ '&' ∧ c ≠ '<' ∧ c ≠ '"' ∧ c ≠ '\r' ∧ c ≠ '\t' ∧ c ≠ '\n' := by
    decide
  intro c hc
  apply h'
  simp only [paraIdText, pad0, List.mem_append, List.mem_replicate] at hc
  rcases hc with hc | hc
  · simp [hc.2]
  · exact List.mem_cons_of_mem _ (hexDigits_digits _ _ _ (by simp) c hc)

theorem plain_tocKey (n : Nat) : Plain (tocKeyText n) := by
  refine (plain_lit (by decide)).append fun c hc => ?_
  simp only [pad0, List.mem_append, List.mem_replicate] at hc
  rcases hc with hc | hc
  · rw [hc.2]
    decide
  · exact plain_dec n c hc

/-- Generated ids are safe to copy into a file. -/
theorem generates_stored : Generates Stored where
  empty := by decide
  para n := (plain_paraId n).stored
  toc n := (plain_tocKey n).stored
  named pfx hp s t hs ht := by
    have hpre : Stored (pfx ++ s) := by
      rcases hp with rfl | rfl | rfl
      · exact hs
      · exact stored_lit_append (by decide) hs
      · exact stored_lit_append (by decide) hs
    rcases ht with rfl | ⟨n, rfl⟩
    · exact hpre
    · exact (stored_append_lit hpre (by decide)).append (plain_dec n).stored

/-! ## Parts -/

section
variable {P : Str → Prop}

theorem spotsHeader (x : Header) (w : List Place) (hw : inPart w = true) (hb : ∀ s ∈ (bareHeader x).strings, P s)
    (hk : ∀ s ∈ pick spot (walkHeader w x), P s) : ∀ s ∈ x.strings, P s := by
  intro s hs
  simp only [Header.strings, List.mem_flatMap] at hs
  obtain ⟨c, hc, hs⟩ := hs
  have hb' : ∀ s ∈ (bareHeaderChild c).strings, P s := fun s h =>
    hb s (List.mem_flatMap.2 ⟨_, List.mem_map_of_mem hc, h⟩)
  have hk' : ∀ s ∈ pick spot (walkHeaderChild w c), P s := fun s h => hk s (by
    simp only [walkHeader, pick_flatMap]
    exact List.mem_flatMap.2 ⟨c, hc, h⟩)
  cases c with
  | paragraph p => exact spotsParagraph p w hw hb' hk' s hs
  | table p => exact spotsTable p w hw hb' hk' s hs
  | sdt p => exact spotsSdt p w hw hb' hk' s hs

theorem spotsSection (x : Section) (w : List Place) (hw : inPart (.section :: w) = true) (hb : ∀ s ∈ (bareSection x).strings, P s)
    (hk : ∀ s ∈ pick spot (walkSection w x), P s) : ∀ s ∈ x.strings, P s := by
  simp only [Section.strings, List.forall_mem_append, bareSection] at hb ⊢
  refine ⟨fun s hs => ?_, hb.2⟩
  obtain ⟨c, hc, hs⟩ := List.mem_flatMap.1 hs
  have hb' : ∀ s ∈ (bareSectionChild c).strings, P s := fun s h =>
    hb.1 s (List.mem_flatMap.2 ⟨_, List.mem_map_of_mem hc, h⟩)
  have hk' : ∀ s ∈ pick spot (walkSectionChild (.section :: w) c), P s := fun s h => hk s (by
    simp only [walkSection, pick_append, pick_flatMap]
    exact List.mem_append_left _ (List.mem_flatMap.2 ⟨c, hc, h⟩))
  cases c with
  | paragraph p => exact spotsParagraph p _ hw hb' hk' s hs
  | table p => exact spotsTable p _ hw hb' hk' s hs
  | sdt p => exact spotsSdt p _ hw hb' hk' s hs
  | toc p => exact spotsToc p _ hw hb' hk' s hs
  | bookmarkStart _ _ => exact hb' s hs
  | bookmarkEnd _ => exact hb' s hs
  | commentStart _ _ => exact hb' s hs
  | commentEnd _ => exact hb' s hs

theorem spotsDocument (x : Document) (hb : ∀ s ∈ (bareDocument x).strings, P s)
    (hk : ∀ s ∈ pick spot (walkDocument x), P s) : ∀ s ∈ x.strings, P s := by
  have hw : inPart [.document] = true := rfl
  simp only [Document.strings, List.forall_mem_append, bareDocument] at hb ⊢
  refine ⟨fun s hs => ?_, hb.2⟩
  obtain ⟨c, hc, hs⟩ := List.mem_flatMap.1 hs
  have hb' : ∀ s ∈ (bareDocumentChild c).strings, P s := fun s h =>
    hb.1 s (List.mem_flatMap.2 ⟨_, List.mem_map_of_mem hc, h⟩)
  have hk' : ∀ s ∈ pick spot (walkDocumentChild [.document] c), P s := fun s h => hk s (by
    simp only [walkDocument, pick_append, pick_flatMap]
    exact List.mem_append_left _ (List.mem_flatMap.2 ⟨c, hc, h⟩))
  cases c with
  | paragraph p => exact spotsParagraph p _ hw hb' hk' s hs
  | table p => exact spotsTable p _ hw hb' hk' s hs
  | sdt p => exact spotsSdt p _ hw hb' hk' s hs
  | toc p => exact spotsToc p _ hw hb' hk' s hs
  | «section» p => exact spotsSection p _ rfl hb' hk' s hs
  | bookmarkStart _ _ => exact hb' s hs
  | bookmarkEnd _ => exact hb' s hs
  | commentStart _ _ => exact hb' s hs
  | commentEnd _ => exact hb' s hs

theorem bareHeader_strings (h0 : P []) (x : Header) (h : ∀ s ∈ x.strings, P s) : ∀ s ∈ (bareHeader x).strings, P s := by
  intro s hs
  simp only [Header.strings, bareHeader, List.mem_flatMap, List.mem_map] at hs
  obtain ⟨_, ⟨c, hc, rfl⟩, hs⟩ := hs
  have h' : ∀ s ∈ c.strings, P s := fun s hs => h s (List.mem_flatMap.2 ⟨c, hc, hs⟩)
  cases c with
  | paragraph p => exact bareParagraph_strings h0 p h' s hs
  | table p => exact bareTable_strings h0 p h' s hs
  | sdt p => exact bareSdt_strings h0 p h' s hs

theorem bareSection_strings (h0 : P []) (x : Section) (h : ∀ s ∈ x.strings, P s) : ∀ s ∈ (bareSection x).strings, P s := by
  simp only [Section.strings, List.forall_mem_append, bareSection] at h ⊢
  refine ⟨fun s hs => ?_, h.2⟩
  simp only [List.mem_flatMap, List.mem_map] at hs
  obtain ⟨_, ⟨c, hc, rfl⟩, hs⟩ := hs
  have h' : ∀ s ∈ c.strings, P s := fun s hs => h.1 s (List.mem_flatMap.2 ⟨c, hc, hs⟩)
  cases c with
  | paragraph p => exact bareParagraph_strings h0 p h' s hs
  | table p => exact bareTable_strings h0 p h' s hs
  | sdt p => exact bareSdt_strings h0 p h' s hs
  | toc p => exact bareToc_strings h0 p h' s hs
  | bookmarkStart _ _ => exact h' s hs
  | bookmarkEnd _ => exact h' s hs
  | commentStart _ _ => exact h' s hs
  | commentEnd _ => exact h' s hs

theorem bareDocument_strings (h0 : P []) (x : Document) (h : ∀ s ∈ x.strings, P s) : ∀ s ∈ (bareDocument x).strings, P s := by
  simp only [Document.strings, List.forall_mem_append, bareDocument] at h ⊢
  refine ⟨fun s hs => ?_, h.2⟩
  simp only [List.mem_flatMap, List.mem_map] at hs
  obtain ⟨_, ⟨c, hc, rfl⟩, hs⟩ := hs
  have h' : ∀ s ∈ c.strings, P s := fun s hs => h.1 s (List.mem_flatMap.2 ⟨c, hc, hs⟩)
  cases c with
  | paragraph p => exact bareParagraph_strings h0 p h' s hs
  | table p => exact bareTable_strings h0 p h' s hs
  | sdt p => exact bareSdt_strings h0 p h' s hs
  | toc p => exact bareToc_strings h0 p h' s hs
  | «section» p => exact bareSection_strings h0 p h' s hs
  | bookmarkStart _ _ => exact h' s hs
  | bookmarkEnd _ => exact h' s hs
  | commentStart _ _ => exact h' s hs
  | commentEnd _ => exact h' s hs

/-! ## Ids -/

theorem refreshIds_from (hP : ∀ n, P (paraIdText n)) (dup : List Str) : ∀ (l : List Str) (s : IdState), (∀ i ∈ l, P i) →
    ∀ i ∈ (refreshIds dup l s).1, P i
  | [], _, _ => by intro i h; cases h
  | a :: l, s, h => by
    intro i hi
    simp only [refreshIds, List.mem_cons] at hi
    rcases hi with rfl | hi
    · unfold ensureUniqueParagraphId
      split
      · exact h a (.head _)
      · split
        · exact h a (.head _)
        · dsimp only
          unfold nextUniqueParagraphId
          dsimp only
          split
          · obtain ⟨n, hn, hn'⟩ := scanParaId_finds s.used (s.used.length + 1)
            rw [hn]
            exact hP n
          · exact hP _
    · exact refreshIds_from hP dup l _ (fun i hi => h i (.tail _ hi)) i hi

theorem refreshDuplicateParaIds_from (hP : ∀ n, P (paraIdText n)) (x : Story) (n : Nat) (h : ∀ i ∈ bodyIds (walkStory x), P i) :
    ∀ i ∈ bodyIds (walkStory (refreshDuplicateParaIds x n).1), P i := by
  unfold refreshDuplicateParaIds
  dsimp only
  split
  · exact h
  · rw [walkStory_ids] at h ⊢
    intro i hi
    have := refreshStory_ids (List.filter (fun i ↦ decide (List.count i (collectDocx x.document x.comments x.footnotes) > 1))
      (keysOf (collectDocx x.document x.comments x.footnotes))) x ⟨keysOf (collectDocx x.document x.comments x.footnotes), [], n⟩
    have h2 := refreshIds_from hP (List.filter (fun i ↦ decide (List.count i (collectDocx x.document x.comments x.footnotes) > 1))
      (keysOf (collectDocx x.document x.comments x.footnotes))) _ ⟨keysOf (collectDocx x.document x.comments x.footnotes), [], n⟩ h
    rw [this] at h2
    exact h2 i hi

theorem spot_ids {l : Walk} : ∀ s ∈ pick spot l, s ∈ bodyIds l ∨ ∃ p ∈ partPictures l, s = p.id := by
  intro s hs
  simp only [pick, List.mem_flatMap] at hs
  obtain ⟨⟨w, i⟩, hm, hs⟩ := hs
  cases i with
  | paragraph p =>
    simp only [spot] at hs
    split at hs
    · rename_i hw
      refine .inl ?_
      rw [List.mem_singleton] at hs
      simp only [bodyIds, Walk.within, List.mem_filterMap, List.mem_map, List.mem_filter]
      refine ⟨.paragraph p, ⟨_, ⟨hm, ?_⟩, rfl⟩, by rw [hs]; rfl⟩
      simp only [inPart, Bool.and_eq_true, decide_eq_true_eq] at hw
      simp [inBody, hw.1.1.1.2, hw.1.1.2]
    · cases hs
  | picture p =>
    simp only [spot] at hs
    split at hs
    · rename_i hw
      refine .inr ⟨p, ?_, List.mem_singleton.1 hs⟩
      simp only [partPictures, Walk.within, List.mem_filterMap, List.mem_map, List.mem_filter]
      exact ⟨.picture p, ⟨_, ⟨hm, hw⟩, rfl⟩, rfl⟩
    · cases hs
  | _ => cases hs


/-! ## Tables of contents -/

theorem tocEntry_strings (hP : ∀ n, P (tocKeyText n)) (l : Nat) (p : Paragraph) (g : TocGen) (h : ∀ s ∈ p.strings, P s) :
    (∀ s ∈ (tocEntry l p g).1.strings, P s) ∧ P (tocEntry l p g).2.1.tocKey := by
  refine ⟨?_, hP _⟩
  obtain ⟨i, cs, pr, n⟩ := p
  simp only [tocEntry, Paragraph.wrapByBookmark, Paragraph.strings, List.forall_mem_cons, List.forall_mem_append,
    List.cons_append, stringsParagraphChildren, ParagraphChild.strings] at h ⊢
  refine ⟨h.1, h.2.1, hP _, (by intro s h; cases h), ?_⟩
  have e : ∀ (a b : List ParagraphChild), stringsParagraphChildren (a ++ b) =
      stringsParagraphChildren a ++ stringsParagraphChildren b := by
    intro a b
    induction a with
    | nil => rfl
    | cons x a ih => simp [stringsParagraphChildren, ih]
  rw [e, List.forall_mem_append]
  exact ⟨h.2.2, by intro s h; simp [stringsParagraphChildren, ParagraphChild.strings] at h⟩

theorem tocEntry?_strings (hP : ∀ n, P (tocKeyText n)) (l : Option Nat) (a b : Nat) (p : Paragraph) (g : TocGen)
    (h : ∀ s ∈ p.strings, P s) :
    (∀ s ∈ (tocEntry? l a b p g).1.strings, P s) ∧ ∀ t ∈ (tocEntry? l a b p g).2.1, P t.tocKey := by
  unfold tocEntry?
  split
  · exact ⟨h, by intro t h; cases h⟩
  · split
    · obtain ⟨h1, h2⟩ := tocEntry_strings hP _ p g h
      refine ⟨h1, fun t ht => ?_⟩
      rw [List.mem_singleton] at ht
      exact ht ▸ h2
    · exact ⟨h, by intro t h; cases h⟩

theorem tocParagraph_strings (hP : ∀ n, P (tocKeyText n)) (hd st : Str → Option Nat) (a b : Nat) (p : Paragraph) (g : TocGen)
    (h : ∀ s ∈ p.strings, P s) :
    (∀ s ∈ (tocParagraph hd st a b p g).1.strings, P s) ∧ ∀ t ∈ (tocParagraph hd st a b p g).2.1, P t.tocKey := by
  unfold tocParagraph
  dsimp only
  obtain ⟨h1, h2⟩ := tocEntry?_strings hP (p.property.base.style.bind hd) a b p g h
  obtain ⟨h3, h4⟩ := tocEntry?_strings hP
    ((tocEntry? (p.property.base.style.bind hd) a b p g).1.property.base.style.bind st) a b _
    (tocEntry? (p.property.base.style.bind hd) a b p g).2.2 h1
  refine ⟨h3, fun t ht => ?_⟩
  rcases List.mem_append.1 ht with ht | ht
  · exact h2 t ht
  · exact h4 t ht

theorem tocChildren_strings (hP : ∀ n, P (tocKeyText n)) (hd st : Str → Option Nat) (a b : Nat) :
    ∀ (cs : List DocumentChild) (g : TocGen), (∀ c ∈ cs, ∀ s ∈ c.strings, P s) →
    (∀ c ∈ (tocChildren hd st a b cs g).1, ∀ s ∈ c.strings, P s) ∧ ∀ t ∈ (tocChildren hd st a b cs g).2.1, P t.tocKey
  | [], g, h => ⟨(by intro c h; cases h), (by intro c h; cases h)⟩
  | c :: cs, g, h => by
    have hc := h c (.head _)
    have hcs : ∀ c ∈ cs, ∀ s ∈ c.strings, P s := fun c hc => h c (.tail _ hc)
    cases c with
    | paragraph p =>
      obtain ⟨h1, h2⟩ := tocParagraph_strings hP hd st a b p g hc
      obtain ⟨h3, h4⟩ := tocChildren_strings hP hd st a b cs (tocParagraph hd st a b p g).2.2 hcs
      simp only [tocChildren]
      refine ⟨fun c hc => ?_, fun t ht => ?_⟩
      · rcases List.mem_cons.1 hc with rfl | hc
        · exact h1
        · exact h3 c hc
      · rcases List.mem_append.1 ht with ht | ht
        · exact h2 t ht
        · exact h4 t ht
    | _ =>
      obtain ⟨h3, h4⟩ := tocChildren_strings hP hd st a b cs g hcs
      refine ⟨fun c hc' => ?_, h4⟩
      rcases List.mem_cons.1 hc' with rfl | hc'
      · exact hc
      · exact h3 c hc'

theorem toc_items_strings (t : Toc) (items : List TocItem) (h : ∀ s ∈ t.strings, P s) (hi : ∀ x ∈ items, P x.tocKey) :
    ∀ s ∈ ({ t with items := items } : Toc).strings, P s := by
  obtain ⟨a, b, c, d, e, f, g, bs, as, j, l⟩ := t
  simp only [Toc.strings, List.forall_mem_append] at h ⊢
  obtain ⟨⟨⟨⟨⟨⟨h1, h2⟩, h3⟩, h4⟩, h5⟩, h6⟩, h7⟩ := h
  refine ⟨⟨⟨⟨⟨⟨h1, fun s hs => ?_⟩, h3⟩, h4⟩, h5⟩, h6⟩, h7⟩
  obtain ⟨x, hx, hs⟩ := List.mem_flatMap.1 hs
  rw [TocItem.strings, List.mem_singleton] at hs
  exact hs ▸ hi x hx

theorem expandAutoToc_strings (hP : ∀ n, P (tocKeyText n)) (styles : List Style) (x : List DocumentChild × TocGen) (i : Nat)
    (h : ∀ c ∈ x.1, ∀ s ∈ c.strings, P s) : ∀ c ∈ (expandAutoToc styles x i).1, ∀ s ∈ c.strings, P s := by
  unfold expandAutoToc
  split
  · rename_i t e
    have ht : ∀ s ∈ t.strings, P s := h (.toc t) (List.mem_of_getElem? e)
    have hset : ∀ c ∈ x.1.set i (.toc {}), ∀ s ∈ c.strings, P s := by
      intro c hc
      rcases List.mem_or_eq_of_mem_set hc with hc | rfl
      · exact h c hc
      · intro s hs
        have e : (DocumentChild.toc ({} : Toc)).strings = [] := by rfl
        rw [e] at hs
        cases hs
    unfold updateDocumentByToc
    split
    · intro c hc
      rcases List.mem_or_eq_of_mem_set hc with hc | rfl
      · exact hset c hc
      · exact ht
    · dsimp only
      obtain ⟨h1, h2⟩ := tocChildren_strings hP (hashGet (headingStyleMap styles)) (hashGet t.instr.stylesWithLevels)
        (t.instr.headingStylesRange.getD (0, 9)).1 (t.instr.headingStylesRange.getD (0, 9)).2 _ x.2 hset
      intro c hc
      rcases List.mem_or_eq_of_mem_set hc with hc | rfl
      · exact h1 c hc
      · exact toc_items_strings t _ ht h2
  · exact h

theorem expandAutoTocs_strings (hP : ∀ n, P (tocKeyText n)) (styles : List Style) (cs : List DocumentChild) (g : TocGen)
    (h : ∀ c ∈ cs, ∀ s ∈ c.strings, P s) : ∀ c ∈ (expandAutoTocs styles cs g).1, ∀ s ∈ c.strings, P s := by
  unfold expandAutoTocs
  generalize autoTocIndexes 0 cs = l
  have : ∀ (x : List DocumentChild × TocGen), (∀ c ∈ x.1, ∀ s ∈ c.strings, P s) →
      ∀ c ∈ (l.foldl (expandAutoToc styles) x).1, ∀ s ∈ c.strings, P s := by
    induction l with
    | nil => exact fun x h => h
    | cons i l ih => exact fun x h => ih _ (expandAutoToc_strings hP styles x i h)
  exact this (cs, g) h

theorem wrapAll_ids (p : Paragraph) (m : List (Nat × Str)) : collectParagraph (wrapAll p m) = collectParagraph p := by
  obtain ⟨i, cs, pr, n⟩ := p
  simp only [wrapAll, collectParagraph]
  congr 1
  have e : ∀ (a b : List ParagraphChild), collectParagraphChildren (a ++ b) =
      collectParagraphChildren a ++ collectParagraphChildren b := by
    intro a b
    induction a with
    | nil => rfl
    | cons x a ih => simp [collectParagraphChildren, ih]
  induction m generalizing cs with
  | nil => rfl
  | cons a m ih =>
    rw [List.foldl_cons, ih]
    simp [collectParagraphChildren, collectParagraphChild, e]

theorem expandAutoTocs_ids (styles : List Style) (d : Document) (g : TocGen) :
    bodyIds (walkDocument { d with children := (expandAutoTocs styles d.children g).1 }) = bodyIds (walkDocument d) := by
  obtain ⟨ms, k, e, _⟩ := expandAutoTocs_eq styles d.children g
  rw [walkDocument_ids, walkDocument_ids, e]
  dsimp only
  rw [flatMap_mapIdx]
  intro i c
  cases c with
  | paragraph p => exact wrapAll_ids p _
  | toc t =>
    simp only [overlay]
    cases t
    split <;> rfl
  | _ => rfl

end

end Docx
