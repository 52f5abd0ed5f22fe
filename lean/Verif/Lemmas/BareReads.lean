import Verif.Lemmas.Bare
import Verif.Lemmas.ReadDocument

/-!
# Reading and the ids of paragraphs

What is read back does not depend on the ids of the paragraphs, except for the ids themselves.
-/

namespace Docx

open Docx.Spec Docx.Xml

theorem seen_nil : seen [] = [] := by decide +kernel

theorem bareRunChildren_eq (l : List RunChild) : bareRunChildren l = l.map bareRunChild := by
  induction l <;> simp_all [bareRunChildren]
theorem bareBlocks_eq (l : List Block) : bareBlocks l = l.map bareBlock := by
  induction l <;> simp_all [bareBlocks]
theorem bareDeleteChildren_eq (l : List DeleteChild) : bareDeleteChildren l = l.map bareDeleteChild := by
  induction l <;> simp_all [bareDeleteChildren]
theorem bareInsertChildren_eq (l : List InsertChild) : bareInsertChildren l = l.map bareInsertChild := by
  induction l <;> simp_all [bareInsertChildren]
theorem bareParagraphChildren_eq (l : List ParagraphChild) : bareParagraphChildren l = l.map bareParagraphChild := by
  induction l <;> simp_all [bareParagraphChildren]
theorem bareSdtChildren_eq (l : List SdtChild) : bareSdtChildren l = l.map bareSdtChild := by
  induction l <;> simp_all [bareSdtChildren]
theorem bareCellContents_eq (l : List CellContent) : bareCellContents l = l.map bareCellContent := by
  induction l <;> simp_all [bareCellContents]

theorem flatMap_comm {α : Type} {f : α → List α} {g : α → α} (h : ∀ a, (f a).map g = f (g a)) (l : List α) :
    (l.flatMap f).map g = (l.map g).flatMap f := by
  induction l with
  | nil => rfl
  | cons a l ih => simp [h, ih]

/-! ## What is read back -/

theorem bareRunChild_reread (c : RunChild) : c.reread.map bareRunChild = (bareRunChild c).reread := by
  cases c <;> try rfl
  case picture p =>
    obtain ⟨id, image, size, t⟩ := p
    cases t <;> rfl
  all_goals
    simp only [RunChild.reread, bareRunChild, List.map_map]
    rfl

theorem bareRun_reread (r : Run) : bareRun r.reread = (bareRun r).reread := by
  obtain ⟨p, cs⟩ := r
  simp only [Run.reread, bareRun, bareRunChildren_eq, flatMap_comm bareRunChild_reread]

theorem bareRun_empty : bareRun {} = {} := rfl

theorem bareComment_new (id : Nat) : bareComment (.new id) = .new id := rfl

theorem bareDeleteChild_reread (c : DeleteChild) : c.reread.map bareDeleteChild = (bareDeleteChild c).reread := by
  cases c <;> simp [DeleteChild.reread, bareDeleteChild, bareRun_reread, bareComment_new, bareRun_empty]

theorem bareDelete_reread (r : Delete) : bareDelete r.reread = (bareDelete r).reread := by
  obtain ⟨a, b, cs⟩ := r
  simp only [Delete.reread, bareDelete, bareDeleteChildren_eq, flatMap_comm bareDeleteChild_reread]

theorem bareInsertChild_reread (c : InsertChild) : c.reread.map bareInsertChild = (bareInsertChild c).reread := by
  cases c <;> simp [InsertChild.reread, bareInsertChild, bareRun_reread, bareDelete_reread, bareComment_new, bareRun_empty]

theorem bareInsert_reread (r : Insert) : bareInsert r.reread = (bareInsert r).reread := by
  obtain ⟨a, b, cs⟩ := r
  simp only [Insert.reread, bareInsert, bareInsertChildren_eq, flatMap_comm bareInsertChild_reread]

theorem barePage_reread : bareRun (pageFieldRun .page).reread = (pageFieldRun .page).reread := by
  rw [bareRun_reread]; rfl

theorem barePages_reread : bareRun (pageFieldRun .numPages).reread = (pageFieldRun .numPages).reread := by
  rw [bareRun_reread]; rfl

theorem bareParagraphChild_rereadInner (c : ParagraphChild) :
    c.rereadInner.map bareParagraphChild = (bareParagraphChild c).rereadInner := by
  cases c <;> simp [ParagraphChild.rereadInner, bareParagraphChild, bareRun_reread, bareDelete_reread, bareInsert_reread,
    bareComment_new, bareRun_empty, barePage_reread, barePages_reread]
  · rw [← bareRun_reread, barePage_reread]
  · rw [← bareRun_reread, barePages_reread]

theorem bareParagraphChild_reread (c : ParagraphChild) : c.reread.map bareParagraphChild = (bareParagraphChild c).reread := by
  cases c
  case hyperlink h =>
    obtain ⟨l, y, cs⟩ := h
    simp only [ParagraphChild.reread, bareParagraphChild, bareHyperlink, bareParagraphChildren_eq, List.map_cons, List.map_nil,
      flatMap_comm bareParagraphChild_rereadInner]
  all_goals
    simp only [bareParagraphChild, ParagraphChild.reread]
    exact bareParagraphChild_rereadInner _

theorem bareParagraph_reread (p : Paragraph) : bareParagraph p.reread = (bareParagraph p).reread := by
  obtain ⟨i, cs, q, n⟩ := p
  simp only [Paragraph.reread, bareParagraph, bareParagraphChildren_eq, flatMap_comm bareParagraphChild_reread, seen_nil]

theorem hasNumbering_bareCell : ∀ c : Cell, (bareCell c).hasNumbering = c.hasNumbering
  | ⟨_, _, _⟩ => rfl

theorem numbered_bareContent (c : CellContent) : (bareCellContent c).numbered = c.numbered := by
  rcases c with ⟨⟨⟩⟩ | ⟨⟨⟩⟩ | ⟨⟨⟩⟩ | ⟨⟨⟩⟩ <;> rfl

mutual
theorem bareSdt_reread (x : ReadEnv) : ∀ s : Sdt, bareSdt (s.reread x) = (bareSdt s).reread x
  | ⟨cs, p, n⟩ => by simp only [Sdt.reread, bareSdt, bareSdtChildren_reread x cs]
theorem bareSdtChildren_reread (x : ReadEnv) : ∀ cs : List SdtChild,
    bareSdtChildren (rereadSdtChildren x cs) = rereadSdtChildren x (bareSdtChildren cs)
  | [] => rfl
  | c :: cs => by
    rw [rereadSdtChildren, bareSdtChildren, rereadSdtChildren, ← bareSdtChildren_reread x cs, bareSdtChildren_eq, List.map_append,
      bareSdtChild_reread x c, bareSdtChildren_eq]
theorem bareSdtChild_reread (x : ReadEnv) : ∀ c : SdtChild, (c.reread x).map bareSdtChild = (bareSdtChild c).reread x
  | .run r => by simp only [SdtChild.reread, bareSdtChild, List.map_cons, List.map_nil, bareRun_reread]
  | .paragraph p => by simp only [SdtChild.reread, bareSdtChild, List.map_cons, List.map_nil, bareParagraph_reread]
  | .table t => by simp only [SdtChild.reread, bareSdtChild, List.map_cons, List.map_nil, bareTable_reread x t]
  | .bookmarkStart _ _ => rfl
  | .bookmarkEnd _ => rfl
  | .commentStart _ _ => rfl
  | .commentEnd _ => rfl
  | .sdt _ => by simp only [SdtChild.reread, bareSdtChild, List.map_nil]
theorem bareTable_reread (x : ReadEnv) : ∀ t : Table, bareTable (t.reread x) = (bareTable t).reread x
  | ⟨rows, g, n, p⟩ => by simp only [Table.reread, bareTable, bareRows_reread x rows]
theorem bareRows_reread (x : ReadEnv) : ∀ rs : List Row, bareRows (rereadRows x rs) = rereadRows x (bareRows rs)
  | [] => rfl
  | r :: rs => by simp only [rereadRows, bareRows, bareRow_reread x r, bareRows_reread x rs]
theorem bareRow_reread (x : ReadEnv) : ∀ r : Row, bareRow (r.reread x) = (bareRow r).reread x
  | ⟨cells, n, p⟩ => by
    have h := bareCells_reread x cells
    have a : ∀ l : List Cell, (bareCells l).any Cell.hasNumbering = l.any Cell.hasNumbering := by
      intro l
      induction l with
      | nil => rfl
      | cons c l ih => simp only [bareCells, List.any_cons, hasNumbering_bareCell, ih]
    simp only [Row.reread, bareRow, ← h, a]
theorem bareCells_reread (x : ReadEnv) : ∀ cs : List Cell, bareCells (rereadCells x cs) = rereadCells x (bareCells cs)
  | [] => rfl
  | c :: cs => by simp only [rereadCells, bareCells, bareCell_reread x c, bareCells_reread x cs]
theorem bareCell_reread (x : ReadEnv) : ∀ c : Cell, bareCell (c.reread x) = (bareCell c).reread x
  | ⟨cs, p, n⟩ => by
    have h := bareContents_reread x cs
    have a : ∀ l : List CellContent, (bareCellContents l).any CellContent.numbered = l.any CellContent.numbered := by
      intro l
      induction l with
      | nil => rfl
      | cons c l ih => simp only [bareCellContents, List.any_cons, numbered_bareContent, ih]
    simp only [Cell.reread, bareCell, ← h, a]
theorem bareContents_reread (x : ReadEnv) : ∀ cs : List CellContent,
    bareCellContents (rereadContents x cs) = rereadContents x (bareCellContents cs)
  | [] => rfl
  | c :: cs => by
    rw [rereadContents, bareCellContents, rereadContents, ← bareContents_reread x cs, bareCellContents_eq, List.map_append,
      bareContent_reread x c, bareCellContents_eq]
theorem bareContent_reread (x : ReadEnv) : ∀ c : CellContent, (c.reread x).map bareCellContent = (bareCellContent c).reread x
  | .paragraph p => by simp only [CellContent.reread, bareCellContent, List.map_cons, List.map_nil, bareParagraph_reread]
  | .table t => by simp only [CellContent.reread, bareCellContent, List.map_cons, List.map_nil, bareTable_reread x t]
  | .sdt s => by simp only [CellContent.reread, bareCellContent, List.map_cons, List.map_nil, bareSdt_reread x s]
  | .toc t => by simp only [CellContent.reread, bareCellContent, List.map_nil]
end

theorem bareDocumentChild_reread (x : ReadEnv) (c : DocumentChild) :
    (c.reread x).map bareDocumentChild = (bareDocumentChild c).reread x := by
  cases c <;> simp [DocumentChild.reread, bareDocumentChild, bareParagraph_reread, bareTable_reread, bareSdt_reread, bareComment_new]

theorem numbered_bareChild (c : DocumentChild) : (bareDocumentChild c).numbered = c.numbered := by
  rcases c with ⟨⟨⟩⟩ | ⟨⟨⟩⟩ | _ | _ | _ | _ | ⟨⟨⟩⟩ | ⟨⟨⟩⟩ | ⟨⟨⟩⟩ <;> rfl

/-- The document read back, without ids, is the document without ids read back. -/
theorem bareDocument_reread (x : ReadEnv) (d : Document) : bareDocument (d.reread x) = (bareDocument d).reread x := by
  have h := flatMap_comm (bareDocumentChild_reread x) d.children
  have a : ∀ l : List DocumentChild, (l.map bareDocumentChild).any DocumentChild.numbered = l.any DocumentChild.numbered := by
    intro l
    induction l with
    | nil => rfl
    | cons c l ih => simp only [List.map_cons, List.any_cons, numbered_bareChild, ih]
  simp only [Document.reread, bareDocument, ← h, a]
  rfl

/-! ## What can be read back -/

theorem bareRunChild_readable (c : RunChild) : (bareRunChild c).Readable ↔ c.Readable := by
  cases c <;> exact Iff.rfl

theorem bareRun_readable (r : Run) : (bareRun r).Readable ↔ r.Readable := by
  obtain ⟨p, cs⟩ := r
  simp [Run.Readable, bareRun, bareRunChildren_eq, bareRunChild_readable]

theorem bareDeleteChild_readable (c : DeleteChild) : (bareDeleteChild c).Readable ↔ c.Readable := by
  cases c <;> simp [DeleteChild.Readable, bareDeleteChild, bareRun_readable]

theorem bareDelete_readable (r : Delete) : (bareDelete r).Readable ↔ r.Readable := by
  obtain ⟨a, b, cs⟩ := r
  simp [Delete.Readable, bareDelete, bareDeleteChildren_eq, bareDeleteChild_readable]

theorem bareInsertChild_readable (c : InsertChild) : (bareInsertChild c).Readable ↔ c.Readable := by
  cases c <;> simp [InsertChild.Readable, bareInsertChild, bareRun_readable, bareDelete_readable]

theorem bareInsert_readable (r : Insert) : (bareInsert r).Readable ↔ r.Readable := by
  obtain ⟨a, b, cs⟩ := r
  simp [Insert.Readable, bareInsert, bareInsertChildren_eq, bareInsertChild_readable]

theorem bareParagraphChild_readableInner (c : ParagraphChild) : (bareParagraphChild c).ReadableInner ↔ c.ReadableInner := by
  cases c <;> simp [ParagraphChild.ReadableInner, bareParagraphChild, bareRun_readable, bareDelete_readable, bareInsert_readable]

theorem bareParagraphChild_readable (c : ParagraphChild) : (bareParagraphChild c).Readable ↔ c.Readable := by
  cases c
  case hyperlink h =>
    obtain ⟨l, y, cs⟩ := h
    simp [ParagraphChild.Readable, bareParagraphChild, bareHyperlink, bareParagraphChildren_eq, bareParagraphChild_readableInner]
  case moveFrom d => exact bareDelete_readable d
  case moveTo d => exact bareInsert_readable d
  all_goals
    rename_i a
    simp only [bareParagraphChild, ParagraphChild.Readable, ParagraphChild.ReadableInner, bareRun_readable, bareDelete_readable,
      bareInsert_readable]

theorem bareParagraph_readable {p : Paragraph} (h : (bareParagraph p).Readable) (hi : (decodeAttr p.id).isSome) : p.Readable := by
  obtain ⟨i, cs, q, n⟩ := p
  obtain ⟨h1, h2, h3⟩ := h
  refine ⟨hi, h2, fun c hc => ?_⟩
  simp only [bareParagraph, bareParagraphChildren_eq] at h3
  exact (bareParagraphChild_readable c).1 (h3 _ (List.mem_map_of_mem hc))

theorem readable_bareParagraph {p : Paragraph} (h : p.Readable) : (bareParagraph p).Readable := by
  obtain ⟨i, cs, q, n⟩ := p
  obtain ⟨h1, h2, h3⟩ := h
  refine ⟨show (decodeAttr []).isSome = true by decide +kernel, h2, fun c hc => ?_⟩
  simp only [bareParagraph, bareParagraphChildren_eq] at hc
  obtain ⟨c, hm, rfl⟩ := List.mem_map.1 hc
  exact (bareParagraphChild_readable c).2 (h3 _ hm)

theorem AllS.id {p : Paragraph} (h : AllS p.strings) : (decodeAttr p.id).isSome := by
  obtain ⟨i, cs, q, n⟩ := p
  exact (h i (by simp [Paragraph.strings])).2.1

theorem AllS.left {a b : List Str} (h : AllS (a ++ b)) : AllS a := fun s hs => h s (List.mem_append_left _ hs)
theorem AllS.right {a b : List Str} (h : AllS (a ++ b)) : AllS b := fun s hs => h s (List.mem_append_right _ hs)

theorem onlyTable_bare (l : List CellContent) : onlyTable (bareCellContents l) ↔ onlyTable l := by
  match l with
  | [] => exact Iff.rfl
  | [.table _] => simp [bareCellContents, bareCellContent, onlyTable]
  | [.paragraph _] => simp [bareCellContents, bareCellContent, onlyTable]
  | [.sdt _] => simp [bareCellContents, bareCellContent, onlyTable]
  | [.toc _] => simp [bareCellContents, bareCellContent, onlyTable]
  | _ :: _ :: _ => simp [bareCellContents, onlyTable]

mutual
theorem bareSdt_readable : ∀ s : Sdt, (bareSdt s).Readable → AllS s.strings → s.Readable
  | ⟨cs, p, n⟩, h, a => by
    simp only [bareSdt, Sdt.Readable, Sdt.strings] at h a ⊢
    exact ⟨h.1, bareSdtChildren_readable cs h.2 a.right⟩
theorem bareSdtChildren_readable : ∀ cs : List SdtChild, readableSdtChildren (bareSdtChildren cs) → AllS (stringsSdtChildren cs) →
    readableSdtChildren cs
  | [], _, _ => trivial
  | c :: cs, h, a => by
    simp only [bareSdtChildren, readableSdtChildren, stringsSdtChildren] at h a ⊢
    exact ⟨bareSdtChild_readable c h.1 a.left, bareSdtChildren_readable cs h.2 a.right⟩
theorem bareSdtChild_readable : ∀ c : SdtChild, (bareSdtChild c).Readable → AllS c.strings → c.Readable
  | .run r, h, _ => by simp only [bareSdtChild, SdtChild.Readable] at h ⊢; exact (bareRun_readable r).1 h
  | .paragraph p, h, a => by
    simp only [bareSdtChild, SdtChild.Readable, SdtChild.strings] at h a ⊢; exact bareParagraph_readable h a.id
  | .table t, h, a => by
    simp only [bareSdtChild, SdtChild.Readable, SdtChild.strings] at h a ⊢; exact bareTable_readable t h a
  | .bookmarkStart _ _, h, _ => h
  | .bookmarkEnd _, h, _ => h
  | .commentStart _ _, h, _ => by simp only [bareSdtChild, SdtChild.Readable] at h ⊢; exact h
  | .commentEnd _, h, _ => h
  | .sdt _, h, _ => by simp only [bareSdtChild, SdtChild.Readable] at h
theorem bareTable_readable : ∀ t : Table, (bareTable t).Readable → AllS t.strings → t.Readable
  | ⟨rows, g, n, p⟩, h, a => by
    simp only [bareTable, Table.Readable, Table.strings] at h a ⊢
    exact ⟨h.1, bareRows_readable rows h.2 a.right⟩
theorem bareRows_readable : ∀ rs : List Row, readableRows (bareRows rs) → AllS (stringsRows rs) → readableRows rs
  | [], _, _ => trivial
  | r :: rs, h, a => by
    simp only [bareRows, readableRows, stringsRows] at h a ⊢
    exact ⟨bareRow_readable r h.1 a.left, bareRows_readable rs h.2 a.right⟩
theorem bareRow_readable : ∀ r : Row, (bareRow r).Readable → AllS r.strings → r.Readable
  | ⟨cells, n, p⟩, h, a => by
    simp only [bareRow, Row.Readable, Row.strings] at h a ⊢
    exact ⟨h.1, bareCells_readable cells h.2 a.right⟩
theorem bareCells_readable : ∀ cs : List Cell, readableCells (bareCells cs) → AllS (stringsCells cs) → readableCells cs
  | [], _, _ => trivial
  | r :: rs, h, a => by
    simp only [bareCells, readableCells, stringsCells] at h a ⊢
    exact ⟨bareCell_readable r h.1 a.left, bareCells_readable rs h.2 a.right⟩
theorem bareCell_readable : ∀ c : Cell, (bareCell c).Readable → AllS c.strings → c.Readable
  | ⟨cs, p, n⟩, h, a => by
    simp only [bareCell, Cell.Readable, Cell.strings] at h a ⊢
    refine ⟨?_, fun ho => h.2.1 ((onlyTable_bare cs).2 ho), h.2.2.1, bareContents_readable cs h.2.2.2 a.right⟩
    rintro rfl
    exact h.1 rfl
theorem bareContents_readable : ∀ cs : List CellContent, readableContents (bareCellContents cs) → AllS (stringsCellContents cs) →
    readableContents cs
  | [], _, _ => trivial
  | r :: rs, h, a => by
    simp only [bareCellContents, readableContents, stringsCellContents] at h a ⊢
    exact ⟨bareContent_readable r h.1 a.left, bareContents_readable rs h.2 a.right⟩
theorem bareContent_readable : ∀ c : CellContent, (bareCellContent c).Readable → AllS c.strings → c.Readable
  | .paragraph p, h, a => by
    simp only [bareCellContent, CellContent.Readable, CellContent.strings] at h a ⊢; exact bareParagraph_readable h a.id
  | .table t, h, a => by
    simp only [bareCellContent, CellContent.Readable, CellContent.strings] at h a ⊢; exact bareTable_readable t h a
  | .sdt s, h, a => by
    simp only [bareCellContent, CellContent.Readable, CellContent.strings] at h a ⊢; exact bareSdt_readable s h a
  | .toc _, h, _ => by simp only [bareCellContent, CellContent.Readable] at h
end

mutual
theorem readable_bareSdt : ∀ s : Sdt, s.Readable → (bareSdt s).Readable
  | ⟨cs, p, n⟩, h => by
    simp only [bareSdt, Sdt.Readable] at h ⊢
    exact ⟨h.1, readable_bareSdtChildren cs h.2⟩
theorem readable_bareSdtChildren : ∀ cs : List SdtChild, readableSdtChildren cs → readableSdtChildren (bareSdtChildren cs)
  | [], _ => trivial
  | c :: cs, h => by
    simp only [bareSdtChildren, readableSdtChildren] at h ⊢
    exact ⟨readable_bareSdtChild c h.1, readable_bareSdtChildren cs h.2⟩
theorem readable_bareSdtChild : ∀ c : SdtChild, c.Readable → (bareSdtChild c).Readable
  | .run r, h => by simp only [bareSdtChild, SdtChild.Readable] at h ⊢; exact (bareRun_readable r).2 h
  | .paragraph p, h => by simp only [bareSdtChild, SdtChild.Readable] at h ⊢; exact readable_bareParagraph h
  | .table t, h => by simp only [bareSdtChild, SdtChild.Readable] at h ⊢; exact readable_bareTable t h
  | .bookmarkStart _ _, h => h
  | .bookmarkEnd _, h => h
  | .commentStart _ _, h => by simp only [bareSdtChild, SdtChild.Readable] at h ⊢; exact h
  | .commentEnd _, h => h
  | .sdt _, h => by simp only [SdtChild.Readable] at h
theorem readable_bareTable : ∀ t : Table, t.Readable → (bareTable t).Readable
  | ⟨rows, g, n, p⟩, h => by
    simp only [bareTable, Table.Readable] at h ⊢
    exact ⟨h.1, readable_bareRows rows h.2⟩
theorem readable_bareRows : ∀ rs : List Row, readableRows rs → readableRows (bareRows rs)
  | [], _ => trivial
  | r :: rs, h => by
    simp only [bareRows, readableRows] at h ⊢
    exact ⟨readable_bareRow r h.1, readable_bareRows rs h.2⟩
theorem readable_bareRow : ∀ r : Row, r.Readable → (bareRow r).Readable
  | ⟨cells, n, p⟩, h => by
    simp only [bareRow, Row.Readable] at h ⊢
    exact ⟨h.1, readable_bareCells cells h.2⟩
theorem readable_bareCells : ∀ cs : List Cell, readableCells cs → readableCells (bareCells cs)
  | [], _ => trivial
  | r :: rs, h => by
    simp only [bareCells, readableCells] at h ⊢
    exact ⟨readable_bareCell r h.1, readable_bareCells rs h.2⟩
theorem readable_bareCell : ∀ c : Cell, c.Readable → (bareCell c).Readable
  | ⟨cs, p, n⟩, h => by
    simp only [bareCell, Cell.Readable] at h ⊢
    refine ⟨?_, fun ho => h.2.1 ((onlyTable_bare cs).1 ho), h.2.2.1, readable_bareContents cs h.2.2.2⟩
    intro e
    rw [bareCellContents_eq, List.map_eq_nil_iff] at e
    exact h.1 e
theorem readable_bareContents : ∀ cs : List CellContent, readableContents cs → readableContents (bareCellContents cs)
  | [], _ => trivial
  | r :: rs, h => by
    simp only [bareCellContents, readableContents] at h ⊢
    exact ⟨readable_bareContent r h.1, readable_bareContents rs h.2⟩
theorem readable_bareContent : ∀ c : CellContent, c.Readable → (bareCellContent c).Readable
  | .paragraph p, h => by simp only [bareCellContent, CellContent.Readable] at h ⊢; exact readable_bareParagraph h
  | .table t, h => by simp only [bareCellContent, CellContent.Readable] at h ⊢; exact readable_bareTable t h
  | .sdt s, h => by simp only [bareCellContent, CellContent.Readable] at h ⊢; exact readable_bareSdt s h
  | .toc _, h => by simp only [CellContent.Readable] at h
end

/-- A document with stored strings can be read back if the document without ids can. -/
theorem bareDocument_readable {d : Document} (h : (bareDocument d).Readable) (hs : AllS d.strings) : d.Readable := by
  refine ⟨fun c hc => ?_, h.2⟩
  have h1 := h.1 (bareDocumentChild c) (List.mem_map_of_mem hc)
  have a : AllS c.strings := fun s hs' => hs s (List.mem_append_left _ (List.mem_flatMap.2 ⟨c, hc, hs'⟩))
  cases c
  case paragraph p => exact bareParagraph_readable h1 (AllS.id a)
  case table t => exact bareTable_readable t h1 a
  case sdt s => exact bareSdt_readable s h1 a
  case toc t => exact h1
  case «section» t => exact h1
  all_goals exact h1

/-- The document without ids can be read back if the document can. -/
theorem readable_bareDocument {d : Document} (h : d.Readable) : (bareDocument d).Readable := by
  refine ⟨fun c hc => ?_, h.2⟩
  obtain ⟨c, hm, rfl⟩ := List.mem_map.1 hc
  have h1 := h.1 c hm
  clear hm hc
  cases c
  case paragraph p => exact readable_bareParagraph h1
  case table t => exact readable_bareTable t h1
  case sdt s => exact readable_bareSdt s h1
  case toc t => exact h1
  case «section» t => exact h1
  all_goals exact h1

end Docx
