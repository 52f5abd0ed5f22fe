import Verif.Lemmas.ReadSections
import Verif.Lemmas.FileRead
import Verif.Spec.SectionItems

/-!
# The sections of a packed file
-/

namespace Docx

open Docx.Xml Docx.Spec Docx.Props

variable {x : ReadEnv}

theorem bare_spreadAs (id : Str) (c : DocumentChild) : (c.spreadAs id).map bareDocumentChild = (bareDocumentChild c).spreadAs [] := by
  cases c <;> try rfl
  case «section» s =>
    simp only [DocumentChild.spreadAs, bareDocumentChild, bareSection, List.map_append, List.map_map, List.map_cons, List.map_nil]
    congr 1
    refine List.map_congr_left fun c _ => ?_
    cases c <;> rfl

theorem bare_spreadAll : ∀ (ids : List Str) (cs : List DocumentChild),
    (spreadAll ids cs).map bareDocumentChild = spreadAll [] (cs.map bareDocumentChild)
  | _, [] => rfl
  | ids, c :: cs => by
    simp only [spreadAll, List.map_append, List.map_cons, bare_spreadAs, bare_spreadAll ids.tail cs, List.headD_nil, List.tail_nil]

theorem bareDocument_spread (ids : List Str) (d : Document) : bareDocument (d.spread ids) = (bareDocument d).spread [] := by
  simp only [bareDocument, Document.spread, bare_spreadAll]

theorem sectionEnd_strings {b : SectionBase} (h : AllS b.strings) : AllS (sectionEnd [] b).strings := by
  have h0 : AllS (ParagraphBase.strings {}) := base_default_kept.strings
  intro s hs
  simp only [sectionEnd, Paragraph.strings, stringsParagraphChildren, ParagraphProperty.strings, changeStrings, List.append_nil, List.mem_cons] at hs
  rcases hs with rfl | hs
  · decide
  · simp only [ParagraphBase.strings, List.mem_append, optStrings] at hs h0
    by_cases hb : s ∈ b.strings
    · exact h s hb
    · refine h0 s ?_
      simp only [List.mem_append]
      grind

theorem spreadAll_strings : ∀ cs : List DocumentChild, AllS (cs.flatMap DocumentChild.strings) →
    AllS ((spreadAll [] cs).flatMap DocumentChild.strings)
  | [], h => h
  | c :: cs, h => by
    rw [List.flatMap_cons] at h
    simp only [spreadAll, List.flatMap_append, List.headD_nil, List.tail_nil]
    intro s hs
    rcases List.mem_append.1 hs with hs | hs
    · by_cases hc : ∃ s, c = .section s
      · obtain ⟨t, rfl⟩ := hc
        simp only [DocumentChild.spreadAs, List.flatMap_append, List.mem_append, List.flatMap_cons, List.flatMap_nil, List.append_nil] at hs
        rcases hs with hs | hs
        · refine h s (List.mem_append_left _ (List.mem_append_left _ ?_))
          rw [List.flatMap_map] at hs
          obtain ⟨k, hk, hs⟩ := List.mem_flatMap.1 hs
          refine List.mem_flatMap.2 ⟨k, hk, ?_⟩
          cases k <;> exact hs
        · exact sectionEnd_strings (fun s hs => h s (List.mem_append_left _ (List.mem_append_right _ hs))) s hs
      · have hs' : c.spreadAs [] = [c] := by
          cases c <;> first | rfl | exact absurd ⟨_, rfl⟩ hc
        rw [hs', List.flatMap_cons, List.flatMap_nil, List.append_nil] at hs
        exact h s (List.mem_append_left _ hs)
    · exact spreadAll_strings cs (fun s hs => h s (List.mem_append_right _ hs)) s hs

theorem spread_strings {d : Document} (h : AllS d.strings) : AllS (d.spread []).strings := by
  intro s hs
  rcases List.mem_append.1 hs with hs | hs
  · exact spreadAll_strings d.children (fun s hs => h s (List.mem_append_left _ hs)) s hs
  · exact h s (List.mem_append_right _ hs)

/-- What is read from the document part of any packed file whose document is readable when its sections are spread out, and has no table
of contents to be filled in. -/
theorem packed_document_spread {d : DocxFile} {env : Env} {w : World} {es : List Entry} (h : Packed env d w es)
    (hi : ∀ i ∈ bodyIds (walkStory ⟨d.document, d.comments, d.footnotes⟩), PlainValue i)
    (ht : autoTocIndexes 0 d.document.children = []) (hs : AllS d.document.strings) (hr : (d.document.spread []).Readable) :
    ∃ text, ⟨c!"word/document.xml", .text text⟩ ∈ es ∧ ∃ k, ∀ n, k ≤ n → ∃ q, readDocument x n text = .ok q [] ∧
      bareDocument q = bareDocument ((d.document.spread []).reread x) := by
  obtain ⟨s, g, g', h1, h2⟩ := fits_write (packed_fits h) (step_document _ _ _)
  have hb := preparePackage_bare env d w ht
  have hs' := prepared_strings generates_stored env d w hs fun i h => stored_of_plain (hi i h)
  generalize (d.preparePackage env w).1.document = p at h1 hb hs'
  have hr' : (p.spread []).Readable := bareDocument_readable
    (by rw [bareDocument_spread, hb, ← bareDocument_spread []]; exact readable_bareDocument hr) (spread_strings hs')
  obtain ⟨ids, _, k, hk⟩ := reads_document_spread (x := x) p hs' hr' h1
  refine ⟨s, h2, k, fun n hn => ⟨_, hk n hn, ?_⟩⟩
  rw [bareDocument_reread, bareDocument_reread, bareDocument_spread, bareDocument_spread, hb]

/-! ## Items -/

/-- What an item becomes in a section. -/
def itemSectionChild : BodyItem → SectionChild
  | .paragraph id property parts => .paragraph (paragraphOf id property parts)
  | .table rows => .table (Table.new (rowsOf rows))

theorem itemSectionChild_spread (i : BodyItem) : (itemSectionChild i).spread = itemChild i := by
  cases i <;> rfl

theorem sectionOf_children (items : List BodyItem) : (sectionOf items).children = items.map itemSectionChild := by
  suffices h : ∀ (is : List BodyItem) (d : Section), (is.foldl (fun s i => match i with
      | .paragraph id property parts => s.addParagraph (paragraphOf id property parts)
      | .table rows => s.addTable (Table.new (rowsOf rows))) d).children = d.children ++ is.map itemSectionChild from
    (h items {}).trans (by simp)
  intro is
  induction is with
  | nil => intro d; simp
  | cons i is ih =>
    intro d
    cases i with
    | paragraph id property parts => exact (ih (d.addParagraph (paragraphOf id property parts))).trans (by simp [Section.addParagraph, itemSectionChild])
    | table rows => exact (ih (d.addTable (Table.new (rowsOf rows)))).trans (by simp [Section.addTable, itemSectionChild])

/-- Children that are read as items. -/
structure FineChildren (x : ReadEnv) (cs : List DocumentChild) (items : List BodyItem) : Prop where
  read : ∀ c ∈ cs, c.Readable
  seen : allThere ((cs.flatMap (DocumentChild.reread x)).map seenChild) = some items

theorem allThere_append {α : Type} : ∀ {a b : List (Option α)} {l m : List α}, allThere a = some l → allThere b = some m →
    allThere (a ++ b) = some (l ++ m)
  | [], b, l, m, ha, hb => by cases ha; exact hb
  | none :: a, b, l, m, ha, hb => by simp [allThere] at ha
  | some y :: a, b, l, m, ha, hb => by
    cases h : allThere a with
    | none => simp [allThere, h] at ha
    | some l' =>
      simp only [allThere, h, Option.map_some, Option.some.injEq] at ha
      subst ha
      exact allThere_cons rfl (allThere_append h hb)

theorem FineChildren.append {cs cs' : List DocumentChild} {is is' : List BodyItem} (h : FineChildren x cs is) (h' : FineChildren x cs' is') :
    FineChildren x (cs ++ cs') (is ++ is') := by
  refine ⟨fun c hc => ?_, ?_⟩
  · rcases List.mem_append.1 hc with hc | hc
    · exact h.read c hc
    · exact h'.read c hc
  · rw [List.flatMap_append, List.map_append]
    exact allThere_append h.seen h'.seen

theorem fine_items : ∀ (items : List BodyItem), (∀ i ∈ items, KeptItem i) → FineChildren x (items.map itemChild) (items.map afterItem)
  | [], _ => ⟨fun _ h => (by cases h), rfl⟩
  | i :: is, h => by
    have hf := fineChild x (h i List.mem_cons_self)
    obtain ⟨c', a, b⟩ := hf.seen
    have h1 : FineChildren x [itemChild i] [afterItem i] := by
      refine ⟨fun c hc => ?_, ?_⟩
      · rw [List.mem_singleton.1 hc]; exact hf.read
      · rw [List.flatMap_cons, a]
        exact allThere_cons b rfl
    exact h1.append (fine_items is fun j hj => h j (List.mem_cons_of_mem _ hj))

theorem sectionBase_mark {b : SectionBase} (h : SectionBase.Kept b) : ParagraphBase.Kept { sectionProperty := some b } :=
  { base_default_kept with section_ := fun s e => by cases e; exact h }

theorem sectionEnd_readable {b : SectionBase} (h : SectionBase.Kept b) : (sectionEnd [] b).Readable := by
  refine ⟨show (decodeAttr []).isSome from by decide, ?_, fun _ h => (by cases h)⟩
  show ParagraphProperty.Readable ⟨_, none⟩
  rw [ParagraphProperty.Readable]
  exact ⟨(sectionBase_mark h).readable, trivial⟩

theorem fine_mark {b : SectionBase} (h : SectionBase.Kept b) : FineChildren x [.paragraph (sectionEnd [] b)] [sectionMark b] := by
  refine ⟨fun c hc => ?_, ?_⟩
  · rw [List.mem_singleton.1 hc]; exact sectionEnd_readable h
  · simp only [List.flatMap_cons, List.flatMap_nil, List.append_nil, DocumentChild.reread, sectionEnd_reread, h.reread]
    rfl

theorem item_is {i : BodyItem} {c : DocumentChild} (h : BookItem.Is (.item i) c) : c = itemChild i := by
  have h : [c] = (bodyOf [i]).children := h
  rw [(bodyOf_children [i]).1] at h
  exact (List.cons.inj h).1

theorem fine_book {b : BookItem} {c : DocumentChild} (hb : b.Is c) (hk : b.Kept) : FineChildren x (c.spreadAs []) b.after := by
  cases b with
  | item i =>
    obtain rfl := item_is hb
    have : (itemChild i).spreadAs [] = [i].map itemChild := by cases i <;> rfl
    rw [this, BookItem.after, afterItems_eq]
    exact fine_items [i] fun j hj => (List.mem_singleton.1 hj) ▸ hk
  | «section» items page =>
    obtain ⟨s, rfl, h1, h2⟩ := hb
    rw [DocumentChild.spreadAs, h1, h2, sectionOf_children, List.map_map, BookItem.after, afterItems_eq]
    refine FineChildren.append ?_ (fine_mark hk.2)
    rw [show (SectionChild.spread ∘ itemSectionChild) = itemChild from funext itemSectionChild_spread]
    exact fine_items items (keptItems_mem hk.1)

theorem book_strings (x : ReadEnv) {b : BookItem} {c : DocumentChild} (hb : b.Is c) (hk : b.Kept) : AllS c.strings := by
  cases b with
  | item i =>
    obtain rfl := item_is hb
    exact (fineChild x hk).strings
  | «section» items page =>
    obtain ⟨s, rfl, h1, h2⟩ := hb
    intro t ht
    simp only [DocumentChild.strings, Section.strings, h1, h2, sectionOf_children, List.mem_append, List.mem_flatMap, List.mem_map] at ht
    rcases ht with ⟨_, ⟨i, hi, rfl⟩, ht⟩ | ht
    · refine (fineChild x (keptItems_mem hk.1 i hi)).strings t ?_
      cases i <;> exact ht
    · exact hk.2.strings t ht

/-- What is read from a document with these items. -/
theorem fine_books : ∀ {bs : List BookItem} {cs : List DocumentChild}, List.Forall₂ BookItem.Is bs cs → (∀ b ∈ bs, b.Kept) →
    FineChildren x (spreadAll [] cs) (bs.flatMap BookItem.after) ∧ AllS (cs.flatMap DocumentChild.strings) ∧
      ∀ c ∈ cs, ∀ t, c ≠ .toc t
  | _, _, .nil, _ => ⟨⟨fun _ h => (by cases h), rfl⟩, fun _ h => (by cases h), fun _ h => (by cases h)⟩
  | b :: bs, c :: cs, .cons h hs, hk => by
    obtain ⟨h1, h2, h3⟩ := fine_books hs fun b hb => hk b (List.mem_cons_of_mem _ hb)
    have hkb := hk b List.mem_cons_self
    refine ⟨(fine_book h hkb).append h1, fun s hs => ?_, fun c' hc t => ?_⟩
    · rcases List.mem_append.1 hs with hs | hs
      · exact book_strings x h hkb s hs
      · exact h2 s hs
    · rcases List.mem_cons.1 hc with rfl | hc
      · cases b with
        | item i => rw [item_is h]; cases i <;> exact fun e => (by cases e)
        | «section» items page => obtain ⟨s, rfl, _⟩ := h; exact fun e => (by cases e)
      · exact h3 c' hc t

end Docx
