import Verif.Lemmas.Found
import Verif.Spec.Strings

/-!
# The strings of a part: those of its bare form, its paragraph ids and its picture ids
-/

namespace Docx

open Docx.Spec

/-- The ids that preparing a document can replace. -/
def spot (w : List Place) : Item → List Str
  | .paragraph p => if inPart w then [p.id] else []
  | .picture p => if inPart w then [p.id] else []
  | _ => []

private theorem inPart_run {w : List Place} (h : inPart w = true) : inPart (.run :: w) = true := by simpa [inPart] using h
private theorem inPart_insert {w : List Place} (h : inPart w = true) : inPart (.insert :: w) = true := by simpa [inPart] using h
private theorem inPart_delete {w : List Place} (h : inPart w = true) : inPart (.delete :: w) = true := by simpa [inPart] using h
private theorem inPart_moveFrom {w : List Place} (h : inPart w = true) : inPart (.moveFrom :: w) = true := by simpa [inPart] using h
private theorem inPart_moveTo {w : List Place} (h : inPart w = true) : inPart (.moveTo :: w) = true := by simpa [inPart] using h
private theorem inPart_hyperlink {w : List Place} (h : inPart w = true) : inPart (.hyperlink :: w) = true := by simpa [inPart] using h
private theorem inPart_paragraph {w : List Place} (h : inPart w = true) : inPart (.paragraph :: w) = true := by simpa [inPart] using h
private theorem inPart_sdt {w : List Place} (h : inPart w = true) : inPart (.sdt :: w) = true := by simpa [inPart] using h
private theorem inPart_cell {w : List Place} (h : inPart w = true) : inPart (.cell :: w) = true := by simpa [inPart] using h
private theorem inPart_tocBefore {w : List Place} (h : inPart w = true) : inPart (.tocBefore :: w) = true := by simpa [inPart] using h
private theorem inPart_tocAfter {w : List Place} (h : inPart w = true) : inPart (.tocAfter :: w) = true := by simpa [inPart] using h
private theorem inPart_section {w : List Place} (h : inPart w = true) : inPart (.section :: w) = true := by simpa [inPart] using h
private theorem inPart_document {w : List Place} (h : inPart w = true) : inPart (.document :: w) = true := by simpa [inPart] using h

section
variable {P : Str → Prop}

mutual
theorem spotsRun : ∀ (x : Run) (w : List Place), inPart w = true → (∀ s ∈ (bareRun x).strings, P s) →
    (∀ s ∈ pick spot (walkRun w x), P s) → ∀ s ∈ x.strings, P s
  | ⟨pr, cs⟩, w, hw, hb, hk => by
    simp only [bareRun, Run.strings, List.forall_mem_append] at hb ⊢
    simp only [walkRun, pick_cons] at hk
    exact ⟨hb.1, spotsRunChildren cs _ (inPart_run hw) hb.2 (fun s h => hk s (List.mem_append_right _ h))⟩
theorem spotsRunChildren : ∀ (x : List RunChild) (w : List Place), inPart w = true → (∀ s ∈ (bareRunChildren x).flatMap RunChild.strings, P s) →
    (∀ s ∈ pick spot (walkRunChildren w x), P s) → ∀ s ∈ x.flatMap RunChild.strings, P s
  | [], _, _, _, _ => by intro s h; cases h
  | c :: cs, w, hw, hb, hk => by
    simp only [bareRunChildren, List.flatMap_cons, List.forall_mem_append] at hb ⊢
    simp only [walkRunChildren, pick_append, List.forall_mem_append] at hk
    exact ⟨spotsRunChild c w hw hb.1 hk.1, spotsRunChildren cs w hw hb.2 hk.2⟩
theorem spotsDeleteChildren : ∀ (x : List DeleteChild) (w : List Place), inPart w = true → (∀ s ∈ (bareDeleteChildren x).flatMap DeleteChild.strings, P s) →
    (∀ s ∈ pick spot (walkDeleteChildren w x), P s) → ∀ s ∈ x.flatMap DeleteChild.strings, P s
  | [], _, _, _, _ => by intro s h; cases h
  | c :: cs, w, hw, hb, hk => by
    simp only [bareDeleteChildren, List.flatMap_cons, List.forall_mem_append] at hb ⊢
    simp only [walkDeleteChildren, pick_append, List.forall_mem_append] at hk
    exact ⟨spotsDeleteChild c w hw hb.1 hk.1, spotsDeleteChildren cs w hw hb.2 hk.2⟩
theorem spotsInsertChildren : ∀ (x : List InsertChild) (w : List Place), inPart w = true → (∀ s ∈ (bareInsertChildren x).flatMap InsertChild.strings, P s) →
    (∀ s ∈ pick spot (walkInsertChildren w x), P s) → ∀ s ∈ x.flatMap InsertChild.strings, P s
  | [], _, _, _, _ => by intro s h; cases h
  | c :: cs, w, hw, hb, hk => by
    simp only [bareInsertChildren, List.flatMap_cons, List.forall_mem_append] at hb ⊢
    simp only [walkInsertChildren, pick_append, List.forall_mem_append] at hk
    exact ⟨spotsInsertChild c w hw hb.1 hk.1, spotsInsertChildren cs w hw hb.2 hk.2⟩
theorem spotsBlocks : ∀ (x : List Block) (w : List Place), inPart w = true → (∀ s ∈ stringsBlocks (bareBlocks x), P s) →
    (∀ s ∈ pick spot (walkBlocks w x), P s) → ∀ s ∈ stringsBlocks x, P s
  | [], _, _, _, _ => by intro s h; cases h
  | c :: cs, w, hw, hb, hk => by
    simp only [bareBlocks, stringsBlocks, List.forall_mem_append] at hb ⊢
    simp only [walkBlocks, pick_append, List.forall_mem_append] at hk
    exact ⟨spotsBlock c w hw hb.1 hk.1, spotsBlocks cs w hw hb.2 hk.2⟩
theorem spotsParagraphChildren : ∀ (x : List ParagraphChild) (w : List Place), inPart w = true → (∀ s ∈ stringsParagraphChildren (bareParagraphChildren x), P s) →
    (∀ s ∈ pick spot (walkParagraphChildren w x), P s) → ∀ s ∈ stringsParagraphChildren x, P s
  | [], _, _, _, _ => by intro s h; cases h
  | c :: cs, w, hw, hb, hk => by
    simp only [bareParagraphChildren, stringsParagraphChildren, List.forall_mem_append] at hb ⊢
    simp only [walkParagraphChildren, pick_append, List.forall_mem_append] at hk
    exact ⟨spotsParagraphChild c w hw hb.1 hk.1, spotsParagraphChildren cs w hw hb.2 hk.2⟩
theorem spotsSdtChildren : ∀ (x : List SdtChild) (w : List Place), inPart w = true → (∀ s ∈ stringsSdtChildren (bareSdtChildren x), P s) →
    (∀ s ∈ pick spot (walkSdtChildren w x), P s) → ∀ s ∈ stringsSdtChildren x, P s
  | [], _, _, _, _ => by intro s h; cases h
  | c :: cs, w, hw, hb, hk => by
    simp only [bareSdtChildren, stringsSdtChildren, List.forall_mem_append] at hb ⊢
    simp only [walkSdtChildren, pick_append, List.forall_mem_append] at hk
    exact ⟨spotsSdtChild c w hw hb.1 hk.1, spotsSdtChildren cs w hw hb.2 hk.2⟩
theorem spotsRows : ∀ (x : List Row) (w : List Place), inPart w = true → (∀ s ∈ stringsRows (bareRows x), P s) →
    (∀ s ∈ pick spot (walkRows w x), P s) → ∀ s ∈ stringsRows x, P s
  | [], _, _, _, _ => by intro s h; cases h
  | c :: cs, w, hw, hb, hk => by
    simp only [bareRows, stringsRows, List.forall_mem_append] at hb ⊢
    simp only [walkRows, pick_append, List.forall_mem_append] at hk
    exact ⟨spotsRow c w hw hb.1 hk.1, spotsRows cs w hw hb.2 hk.2⟩
theorem spotsCells : ∀ (x : List Cell) (w : List Place), inPart w = true → (∀ s ∈ stringsCells (bareCells x), P s) →
    (∀ s ∈ pick spot (walkCells w x), P s) → ∀ s ∈ stringsCells x, P s
  | [], _, _, _, _ => by intro s h; cases h
  | c :: cs, w, hw, hb, hk => by
    simp only [bareCells, stringsCells, List.forall_mem_append] at hb ⊢
    simp only [walkCells, pick_append, List.forall_mem_append] at hk
    exact ⟨spotsCell c w hw hb.1 hk.1, spotsCells cs w hw hb.2 hk.2⟩
theorem spotsCellContents : ∀ (x : List CellContent) (w : List Place), inPart w = true → (∀ s ∈ stringsCellContents (bareCellContents x), P s) →
    (∀ s ∈ pick spot (walkCellContents w x), P s) → ∀ s ∈ stringsCellContents x, P s
  | [], _, _, _, _ => by intro s h; cases h
  | c :: cs, w, hw, hb, hk => by
    simp only [bareCellContents, stringsCellContents, List.forall_mem_append] at hb ⊢
    simp only [walkCellContents, pick_append, List.forall_mem_append] at hk
    exact ⟨spotsCellContent c w hw hb.1 hk.1, spotsCellContents cs w hw hb.2 hk.2⟩
theorem spotsDelete : ∀ (x : Delete) (w : List Place), inPart w = true → (∀ s ∈ (bareDelete x).strings, P s) →
    (∀ s ∈ pick spot (walkDelete w x), P s) → ∀ s ∈ x.strings, P s
  | ⟨a, d, cs⟩, w, hw, hb, hk => by
    simp only [bareDelete, Delete.strings, List.forall_mem_cons] at hb ⊢
    exact ⟨hb.1, hb.2.1, spotsDeleteChildren cs w hw hb.2.2 hk⟩
theorem spotsInsert : ∀ (x : Insert) (w : List Place), inPart w = true → (∀ s ∈ (bareInsert x).strings, P s) →
    (∀ s ∈ pick spot (walkInsert w x), P s) → ∀ s ∈ x.strings, P s
  | ⟨a, d, cs⟩, w, hw, hb, hk => by
    simp only [bareInsert, Insert.strings, List.forall_mem_cons] at hb ⊢
    exact ⟨hb.1, hb.2.1, spotsInsertChildren cs w hw hb.2.2 hk⟩
theorem spotsHyperlink : ∀ (x : Hyperlink) (w : List Place), inPart w = true → (∀ s ∈ (bareHyperlink x).strings, P s) →
    (∀ s ∈ pick spot (walkHyperlink w x), P s) → ∀ s ∈ x.strings, P s
  | ⟨l, y, cs⟩, w, hw, hb, hk => by
    simp only [bareHyperlink, Hyperlink.strings, List.forall_mem_append] at hb ⊢
    simp only [walkHyperlink, pick_cons] at hk
    exact ⟨hb.1, spotsParagraphChildren cs _ (inPart_hyperlink hw) hb.2 (fun s h => hk s (List.mem_append_right _ h))⟩
theorem spotsParagraph : ∀ (x : Paragraph) (w : List Place), inPart w = true → (∀ s ∈ (bareParagraph x).strings, P s) →
    (∀ s ∈ pick spot (walkParagraph w x), P s) → ∀ s ∈ x.strings, P s
  | ⟨i, cs, pr, n⟩, w, hw, hb, hk => by
    simp only [bareParagraph, Paragraph.strings, List.forall_mem_cons, List.forall_mem_append] at hb ⊢
    simp only [walkParagraph, pick_cons, spot, hw, if_true] at hk
    exact ⟨hk i (List.mem_append_left _ (List.mem_singleton.2 rfl)), hb.2.1,
      spotsParagraphChildren cs _ (inPart_paragraph hw) hb.2.2 (fun s h => hk s (List.mem_append_right _ h))⟩
theorem spotsSdt : ∀ (x : Sdt) (w : List Place), inPart w = true → (∀ s ∈ (bareSdt x).strings, P s) →
    (∀ s ∈ pick spot (walkSdt w x), P s) → ∀ s ∈ x.strings, P s
  | ⟨cs, pr, n⟩, w, hw, hb, hk => by
    simp only [bareSdt, Sdt.strings, List.forall_mem_append] at hb ⊢
    simp only [walkSdt, pick_cons] at hk
    exact ⟨hb.1, spotsSdtChildren cs _ (inPart_sdt hw) hb.2 (fun s h => hk s (List.mem_append_right _ h))⟩
theorem spotsCell : ∀ (x : Cell) (w : List Place), inPart w = true → (∀ s ∈ (bareCell x).strings, P s) →
    (∀ s ∈ pick spot (walkCell w x), P s) → ∀ s ∈ x.strings, P s
  | ⟨cs, pr, n⟩, w, hw, hb, hk => by
    simp only [bareCell, Cell.strings, List.forall_mem_append] at hb ⊢
    simp only [walkCell, pick_cons] at hk
    exact ⟨hb.1, spotsCellContents cs _ (inPart_cell hw) hb.2 (fun s h => hk s (List.mem_append_right _ h))⟩
theorem spotsTable : ∀ (x : Table) (w : List Place), inPart w = true → (∀ s ∈ (bareTable x).strings, P s) →
    (∀ s ∈ pick spot (walkTable w x), P s) → ∀ s ∈ x.strings, P s
  | ⟨cs, g, n, pr⟩, w, hw, hb, hk => by
    simp only [bareTable, Table.strings, List.forall_mem_append] at hb ⊢
    simp only [walkTable, pick_cons] at hk
    exact ⟨hb.1, spotsRows cs w hw hb.2 (fun s h => hk s (List.mem_append_right _ h))⟩
theorem spotsRow : ∀ (x : Row) (w : List Place), inPart w = true → (∀ s ∈ (bareRow x).strings, P s) →
    (∀ s ∈ pick spot (walkRow w x), P s) → ∀ s ∈ x.strings, P s
  | ⟨cs, n, pr⟩, w, hw, hb, hk => by
    simp only [bareRow, Row.strings, List.forall_mem_append] at hb ⊢
    exact ⟨hb.1, spotsCells cs w hw hb.2 hk⟩
theorem spotsToc : ∀ (x : Toc) (w : List Place), inPart w = true → (∀ s ∈ (bareToc x).strings, P s) →
    (∀ s ∈ pick spot (walkToc w x), P s) → ∀ s ∈ x.strings, P s
  | ⟨a, b, c, d, e, f, g, bs, as, j, l⟩, w, hw, hb, hk => by
    simp only [bareToc, Toc.strings, List.forall_mem_append] at hb ⊢
    simp only [walkToc, pick_cons, pick_append] at hk
    obtain ⟨⟨⟨⟨⟨⟨h1, h2⟩, h3⟩, h4⟩, h5⟩, h6⟩, h7⟩ := hb
    exact ⟨⟨⟨⟨⟨⟨h1, h2⟩, h3⟩, spotsBlocks bs _ (inPart_tocBefore hw) h4
      fun s h => hk s (List.mem_append_right _ (List.mem_append_left _ h))⟩,
      spotsBlocks as _ (inPart_tocAfter hw) h5 fun s h => hk s (List.mem_append_right _ (List.mem_append_right _ h))⟩, h6⟩, h7⟩
theorem spotsRunChild : ∀ (x : RunChild) (w : List Place), inPart w = true → (∀ s ∈ (bareRunChild x).strings, P s) →
    (∀ s ∈ pick spot (walkRunChild w x), P s) → ∀ s ∈ x.strings, P s
  | .text _, w, hw, hb, hk => hb
  | .sym _ _, w, hw, hb, hk => hb
  | .deleteText _, w, hw, hb, hk => hb
  | .tab, w, hw, hb, hk => hb
  | .ptab _, w, hw, hb, hk => hb
  | .brk _, w, hw, hb, hk => hb
  | .carriageReturn, w, hw, hb, hk => hb
  | .picture _, w, hw, hb, hk => by
    intro s h
    simp only [RunChild.strings, Pic.strings, List.mem_singleton] at h
    subst h
    simp only [walkRunChild, pick_cons, spot, hw, if_true] at hk
    exact hk _ (List.mem_append_right _ (List.mem_append_left _ (List.mem_singleton.2 rfl)))
  | .textBox _, w, hw, hb, hk => hb
  | .emptyDrawing, w, hw, hb, hk => hb
  | .shape _, w, hw, hb, hk => hb
  | .commentStart _ _, w, hw, hb, hk => by intro s h; cases h
  | .commentEnd _, w, hw, hb, hk => hb
  | .fieldChar _ _, w, hw, hb, hk => hb
  | .instrText _, w, hw, hb, hk => hb
  | .deleteInstrText _, w, hw, hb, hk => hb
  | .instrTextString _, w, hw, hb, hk => hb
  | .footnoteReference _ _ _, w, hw, hb, hk => hb
  | .shading _, w, hw, hb, hk => hb
theorem spotsBlock : ∀ (x : Block) (w : List Place), inPart w = true → (∀ s ∈ (bareBlock x).strings, P s) →
    (∀ s ∈ pick spot (walkBlock w x), P s) → ∀ s ∈ x.strings, P s
  | .paragraph x, w, hw, hb, hk => spotsParagraph x _ hw hb hk
  | .table x, w, hw, hb, hk => spotsTable x _ hw hb hk
theorem spotsDeleteChild : ∀ (x : DeleteChild) (w : List Place), inPart w = true → (∀ s ∈ (bareDeleteChild x).strings, P s) →
    (∀ s ∈ pick spot (walkDeleteChild w x), P s) → ∀ s ∈ x.strings, P s
  | .run x, w, hw, hb, hk => spotsRun x _ hw hb hk
  | .commentStart _ _, w, hw, hb, hk => by intro s h; cases h
  | .commentEnd _, w, hw, hb, hk => hb
theorem spotsInsertChild : ∀ (x : InsertChild) (w : List Place), inPart w = true → (∀ s ∈ (bareInsertChild x).strings, P s) →
    (∀ s ∈ pick spot (walkInsertChild w x), P s) → ∀ s ∈ x.strings, P s
  | .run x, w, hw, hb, hk => spotsRun x _ hw hb hk
  | .delete x, w, hw, hb, hk => spotsDelete x _ (inPart_delete hw) hb hk
  | .commentStart _ _, w, hw, hb, hk => by intro s h; cases h
  | .commentEnd _, w, hw, hb, hk => hb
theorem spotsParagraphChild : ∀ (x : ParagraphChild) (w : List Place), inPart w = true → (∀ s ∈ (bareParagraphChild x).strings, P s) →
    (∀ s ∈ pick spot (walkParagraphChild w x), P s) → ∀ s ∈ x.strings, P s
  | .run x, w, hw, hb, hk => spotsRun x _ hw hb hk
  | .insert x, w, hw, hb, hk => spotsInsert x _ (inPart_insert hw) hb hk
  | .delete x, w, hw, hb, hk => spotsDelete x _ (inPart_delete hw) hb hk
  | .moveFrom x, w, hw, hb, hk => spotsDelete x _ (inPart_moveFrom hw) hb hk
  | .moveTo x, w, hw, hb, hk => spotsInsert x _ (inPart_moveTo hw) hb hk
  | .bookmarkStart _ _, w, hw, hb, hk => hb
  | .hyperlink x, w, hw, hb, hk => spotsHyperlink x _ hw hb hk
  | .bookmarkEnd _, w, hw, hb, hk => hb
  | .commentStart _ _, w, hw, hb, hk => by intro s h; cases h
  | .commentEnd _, w, hw, hb, hk => hb
  | .sdt x, w, hw, hb, hk => spotsSdt x _ hw hb hk
  | .pageNum _, w, hw, hb, hk => hb
  | .numPages _, w, hw, hb, hk => hb
theorem spotsSdtChild : ∀ (x : SdtChild) (w : List Place), inPart w = true → (∀ s ∈ (bareSdtChild x).strings, P s) →
    (∀ s ∈ pick spot (walkSdtChild w x), P s) → ∀ s ∈ x.strings, P s
  | .run x, w, hw, hb, hk => spotsRun x _ hw hb hk
  | .paragraph x, w, hw, hb, hk => spotsParagraph x _ hw hb hk
  | .table x, w, hw, hb, hk => spotsTable x _ hw hb hk
  | .bookmarkStart _ _, w, hw, hb, hk => hb
  | .bookmarkEnd _, w, hw, hb, hk => hb
  | .commentStart _ _, w, hw, hb, hk => by intro s h; cases h
  | .commentEnd _, w, hw, hb, hk => hb
  | .sdt x, w, hw, hb, hk => spotsSdt x _ hw hb hk
theorem spotsCellContent : ∀ (x : CellContent) (w : List Place), inPart w = true → (∀ s ∈ (bareCellContent x).strings, P s) →
    (∀ s ∈ pick spot (walkCellContent w x), P s) → ∀ s ∈ x.strings, P s
  | .paragraph x, w, hw, hb, hk => spotsParagraph x _ hw hb hk
  | .table x, w, hw, hb, hk => spotsTable x _ hw hb hk
  | .sdt x, w, hw, hb, hk => spotsSdt x _ hw hb hk
  | .toc x, w, hw, hb, hk => spotsToc x _ hw hb hk
end

end

end Docx
