import Verif.Lemmas.HeldMaps

/-!
# The replaceable ids of a part are among its strings
-/

namespace Docx

open Docx.Spec

set_option linter.unusedSimpArgs false
set_option linter.unusedVariables false

theorem inPart_of_mem {w : List Place} {p : Place} (h : p ∈ w) (hp : p = .comment ∨ p = .footnote ∨ p = .textBox ∨ p = .header ∨ p = .footer) :
    inPart w = false := by
  rcases hp with rfl | rfl | rfl | rfl | rfl <;> simp [inPart, h]

theorem deadSpot_of {w : List Place} {p : Place} (hp : p = .comment ∨ p = .footnote ∨ p = .textBox ∨ p = .header ∨ p = .footer) :
    Dead spot (p :: w) := fun a i => by
  have h : inPart (a ++ p :: w) = false := inPart_of_mem (List.mem_append_right _ (.head _)) hp
  cases i <;> simp [spot, h]

theorem deadSpot_comment {w : List Place} : Dead spot (.comment :: w) := deadSpot_of (by decide)
theorem deadSpot_footnote {w : List Place} : Dead spot (.footnote :: w) := deadSpot_of (by decide)
theorem deadSpot_textBox {w : List Place} : Dead spot (.textBox :: w) := deadSpot_of (by decide)
theorem deadSpot_header {w : List Place} : Dead spot (.header :: w) := deadSpot_of (by decide)
theorem deadSpot_footer {w : List Place} : Dead spot (.footer :: w) := deadSpot_of (by decide)

section
variable {P : Str → Prop}

theorem spot_one (b : Bool) {i : Str} (h : P i) : ∀ s ∈ (if b = true then [i] else []), P s := by
  intro s hs
  split at hs
  · rw [List.mem_singleton] at hs
    exact hs ▸ h
  · cases hs

mutual
theorem walkRun_spots : ∀ (x : Run) (w : List Place), (∀ s ∈ x.strings, P s) → ∀ s ∈ pick spot (walkRun w x), P s
  | ⟨pr, cs⟩, w, h => by
    simp only [Run.strings, List.forall_mem_append] at h
    simp only [walkRun, pick_cons, List.forall_mem_append]
    exact ⟨(by intro s h; cases h), walkRunChildren_spots cs _ h.2⟩
theorem walkDelete_spots : ∀ (x : Delete) (w : List Place), (∀ s ∈ x.strings, P s) → ∀ s ∈ pick spot (walkDelete w x), P s
  | ⟨a, d, cs⟩, w, h => by
    simp only [Delete.strings, List.forall_mem_cons] at h
    exact walkDeleteChildren_spots cs w h.2.2
theorem walkInsert_spots : ∀ (x : Insert) (w : List Place), (∀ s ∈ x.strings, P s) → ∀ s ∈ pick spot (walkInsert w x), P s
  | ⟨a, d, cs⟩, w, h => by
    simp only [Insert.strings, List.forall_mem_cons] at h
    exact walkInsertChildren_spots cs w h.2.2
theorem walkHyperlink_spots : ∀ (x : Hyperlink) (w : List Place), (∀ s ∈ x.strings, P s) → ∀ s ∈ pick spot (walkHyperlink w x), P s
  | ⟨l, y, cs⟩, w, h => by
    simp only [Hyperlink.strings, List.forall_mem_append] at h
    simp only [walkHyperlink, pick_cons, List.forall_mem_append]
    exact ⟨(by intro s h; cases h), walkParagraphChildren_spots cs _ h.2⟩
theorem walkParagraph_spots : ∀ (x : Paragraph) (w : List Place), (∀ s ∈ x.strings, P s) → ∀ s ∈ pick spot (walkParagraph w x), P s
  | ⟨i, cs, pr, n⟩, w, h => by
    simp only [Paragraph.strings, List.forall_mem_cons, List.forall_mem_append] at h
    simp only [walkParagraph, pick_cons, List.forall_mem_append]
    exact ⟨spot_one _ h.1, walkParagraphChildren_spots cs _ h.2.2⟩
theorem walkSdt_spots : ∀ (x : Sdt) (w : List Place), (∀ s ∈ x.strings, P s) → ∀ s ∈ pick spot (walkSdt w x), P s
  | ⟨cs, pr, n⟩, w, h => by
    simp only [Sdt.strings, List.forall_mem_append] at h
    simp only [walkSdt, pick_cons, List.forall_mem_append]
    exact ⟨(by intro s h; cases h), walkSdtChildren_spots cs _ h.2⟩
theorem walkTable_spots : ∀ (x : Table) (w : List Place), (∀ s ∈ x.strings, P s) → ∀ s ∈ pick spot (walkTable w x), P s
  | ⟨cs, g, n, pr⟩, w, h => by
    simp only [Table.strings, List.forall_mem_append] at h
    simp only [walkTable, pick_cons, List.forall_mem_append]
    exact ⟨(by intro s h; cases h), walkRows_spots cs _ h.2⟩
theorem walkRow_spots : ∀ (x : Row) (w : List Place), (∀ s ∈ x.strings, P s) → ∀ s ∈ pick spot (walkRow w x), P s
  | ⟨cs, n, pr⟩, w, h => by
    simp only [Row.strings, List.forall_mem_append] at h
    exact walkCells_spots cs w h.2
theorem walkCell_spots : ∀ (x : Cell) (w : List Place), (∀ s ∈ x.strings, P s) → ∀ s ∈ pick spot (walkCell w x), P s
  | ⟨cs, pr, n⟩, w, h => by
    simp only [Cell.strings, List.forall_mem_append] at h
    simp only [walkCell, pick_cons, List.forall_mem_append]
    exact ⟨(by intro s h; cases h), walkCellContents_spots cs _ h.2⟩
theorem walkToc_spots : ∀ (x : Toc) (w : List Place), (∀ s ∈ x.strings, P s) → ∀ s ∈ pick spot (walkToc w x), P s
  | ⟨a, b, c, d, e, f, g, bs, as, j, l⟩, w, h => by
    simp only [Toc.strings, List.forall_mem_append] at h
    simp only [walkToc, pick_cons, pick_append, List.forall_mem_append]
    exact ⟨(by intro s h; cases h), walkBlocks_spots bs _ h.1.1.1.2, walkBlocks_spots as _ h.1.1.2⟩
theorem walkRunChildren_spots : ∀ (x : List RunChild) (w : List Place), (∀ s ∈ x.flatMap RunChild.strings, P s) → ∀ s ∈ pick spot (walkRunChildren w x), P s
  | [], w, h => by intro s h; cases h
  | c :: cs, w, h => by
    simp only [List.flatMap_cons, List.forall_mem_append] at h
    simp only [walkRunChildren, pick_append, List.forall_mem_append]
    exact ⟨walkRunChild_spots c w h.1, walkRunChildren_spots cs w h.2⟩
theorem walkBlocks_spots : ∀ (x : List Block) (w : List Place), (∀ s ∈ stringsBlocks x, P s) → ∀ s ∈ pick spot (walkBlocks w x), P s
  | [], w, h => by intro s h; cases h
  | c :: cs, w, h => by
    simp only [stringsBlocks, List.forall_mem_append] at h
    simp only [walkBlocks, pick_append, List.forall_mem_append]
    exact ⟨walkBlock_spots c w h.1, walkBlocks_spots cs w h.2⟩
theorem walkDeleteChildren_spots : ∀ (x : List DeleteChild) (w : List Place), (∀ s ∈ x.flatMap DeleteChild.strings, P s) → ∀ s ∈ pick spot (walkDeleteChildren w x), P s
  | [], w, h => by intro s h; cases h
  | c :: cs, w, h => by
    simp only [List.flatMap_cons, List.forall_mem_append] at h
    simp only [walkDeleteChildren, pick_append, List.forall_mem_append]
    exact ⟨walkDeleteChild_spots c w h.1, walkDeleteChildren_spots cs w h.2⟩
theorem walkInsertChildren_spots : ∀ (x : List InsertChild) (w : List Place), (∀ s ∈ x.flatMap InsertChild.strings, P s) → ∀ s ∈ pick spot (walkInsertChildren w x), P s
  | [], w, h => by intro s h; cases h
  | c :: cs, w, h => by
    simp only [List.flatMap_cons, List.forall_mem_append] at h
    simp only [walkInsertChildren, pick_append, List.forall_mem_append]
    exact ⟨walkInsertChild_spots c w h.1, walkInsertChildren_spots cs w h.2⟩
theorem walkParagraphChildren_spots : ∀ (x : List ParagraphChild) (w : List Place), (∀ s ∈ stringsParagraphChildren x, P s) → ∀ s ∈ pick spot (walkParagraphChildren w x), P s
  | [], w, h => by intro s h; cases h
  | c :: cs, w, h => by
    simp only [stringsParagraphChildren, List.forall_mem_append] at h
    simp only [walkParagraphChildren, pick_append, List.forall_mem_append]
    exact ⟨walkParagraphChild_spots c w h.1, walkParagraphChildren_spots cs w h.2⟩
theorem walkSdtChildren_spots : ∀ (x : List SdtChild) (w : List Place), (∀ s ∈ stringsSdtChildren x, P s) → ∀ s ∈ pick spot (walkSdtChildren w x), P s
  | [], w, h => by intro s h; cases h
  | c :: cs, w, h => by
    simp only [stringsSdtChildren, List.forall_mem_append] at h
    simp only [walkSdtChildren, pick_append, List.forall_mem_append]
    exact ⟨walkSdtChild_spots c w h.1, walkSdtChildren_spots cs w h.2⟩
theorem walkRows_spots : ∀ (x : List Row) (w : List Place), (∀ s ∈ stringsRows x, P s) → ∀ s ∈ pick spot (walkRows w x), P s
  | [], w, h => by intro s h; cases h
  | c :: cs, w, h => by
    simp only [stringsRows, List.forall_mem_append] at h
    simp only [walkRows, pick_append, List.forall_mem_append]
    exact ⟨walkRow_spots c w h.1, walkRows_spots cs w h.2⟩
theorem walkCells_spots : ∀ (x : List Cell) (w : List Place), (∀ s ∈ stringsCells x, P s) → ∀ s ∈ pick spot (walkCells w x), P s
  | [], w, h => by intro s h; cases h
  | c :: cs, w, h => by
    simp only [stringsCells, List.forall_mem_append] at h
    simp only [walkCells, pick_append, List.forall_mem_append]
    exact ⟨walkCell_spots c w h.1, walkCells_spots cs w h.2⟩
theorem walkCellContents_spots : ∀ (x : List CellContent) (w : List Place), (∀ s ∈ stringsCellContents x, P s) → ∀ s ∈ pick spot (walkCellContents w x), P s
  | [], w, h => by intro s h; cases h
  | c :: cs, w, h => by
    simp only [stringsCellContents, List.forall_mem_append] at h
    simp only [walkCellContents, pick_append, List.forall_mem_append]
    exact ⟨walkCellContent_spots c w h.1, walkCellContents_spots cs w h.2⟩
theorem walkRunChild_spots : ∀ (x : RunChild) (w : List Place), (∀ s ∈ x.strings, P s) → ∀ s ∈ pick spot (walkRunChild w x), P s
  | .text _, w, h => by intro s h; cases h
  | .sym _ _, w, h => by intro s h; cases h
  | .deleteText _, w, h => by intro s h; cases h
  | .tab, w, h => by intro s h; cases h
  | .ptab _, w, h => by intro s h; cases h
  | .brk _, w, h => by intro s h; cases h
  | .carriageReturn, w, h => by intro s h; cases h
  | .picture p, w, h => by
    simp only [RunChild.strings, Pic.strings, List.forall_mem_cons] at h
    simp only [walkRunChild, pick_cons, List.forall_mem_append]
    exact ⟨(by intro s h; cases h), spot_one _ h.1, (by intro s h; cases h)⟩
  | .textBox x, w, h => by
    simp only [walkRunChild, pick_cons, walkBlocks_dead x _ deadSpot_textBox, spot, List.append_nil]
    intro s h
    cases h
  | .emptyDrawing, w, h => by intro s h; cases h
  | .shape _, w, h => by intro s h; cases h
  | .commentStart i x, w, h => by
    simp only [walkRunChild, pick_cons, walkComment_dead x _ deadSpot_comment, spot, List.append_nil]
    intro s h
    cases h
  | .commentEnd _, w, h => by intro s h; cases h
  | .fieldChar _ _, w, h => by intro s h; cases h
  | .instrText _, w, h => by intro s h; cases h
  | .deleteInstrText _, w, h => by intro s h; cases h
  | .instrTextString _, w, h => by intro s h; cases h
  | .footnoteReference i r x, w, h => by
    simp only [walkRunChild, pick_cons, walkParagraphs_dead x _ deadSpot_footnote, spot, List.append_nil]
    intro s h
    cases h
  | .shading _, w, h => by intro s h; cases h
theorem walkBlock_spots : ∀ (x : Block) (w : List Place), (∀ s ∈ x.strings, P s) → ∀ s ∈ pick spot (walkBlock w x), P s
  | .paragraph x, w, h => walkParagraph_spots x _ h
  | .table x, w, h => walkTable_spots x _ h
theorem walkDeleteChild_spots : ∀ (x : DeleteChild) (w : List Place), (∀ s ∈ x.strings, P s) → ∀ s ∈ pick spot (walkDeleteChild w x), P s
  | .run x, w, h => walkRun_spots x _ h
  | .commentStart i x, w, h => by
    simp only [walkDeleteChild, pick_cons, walkComment_dead x _ deadSpot_comment, spot, List.append_nil]
    intro s h
    cases h
  | .commentEnd _, w, h => by intro s h; cases h
theorem walkInsertChild_spots : ∀ (x : InsertChild) (w : List Place), (∀ s ∈ x.strings, P s) → ∀ s ∈ pick spot (walkInsertChild w x), P s
  | .run x, w, h => walkRun_spots x _ h
  | .delete x, w, h => walkDelete_spots x _ h
  | .commentStart i x, w, h => by
    simp only [walkInsertChild, pick_cons, walkComment_dead x _ deadSpot_comment, spot, List.append_nil]
    intro s h
    cases h
  | .commentEnd _, w, h => by intro s h; cases h
theorem walkParagraphChild_spots : ∀ (x : ParagraphChild) (w : List Place), (∀ s ∈ x.strings, P s) → ∀ s ∈ pick spot (walkParagraphChild w x), P s
  | .run x, w, h => walkRun_spots x _ h
  | .insert x, w, h => walkInsert_spots x _ h
  | .delete x, w, h => walkDelete_spots x _ h
  | .moveFrom x, w, h => walkDelete_spots x _ h
  | .moveTo x, w, h => walkInsert_spots x _ h
  | .bookmarkStart _ _, w, h => by intro s h; cases h
  | .hyperlink x, w, h => walkHyperlink_spots x _ h
  | .bookmarkEnd _, w, h => by intro s h; cases h
  | .commentStart i x, w, h => by
    simp only [walkParagraphChild, pick_cons, walkComment_dead x _ deadSpot_comment, spot, List.append_nil]
    intro s h
    cases h
  | .commentEnd _, w, h => by intro s h; cases h
  | .sdt x, w, h => walkSdt_spots x _ h
  | .pageNum _, w, h => by intro s h; cases h
  | .numPages _, w, h => by intro s h; cases h
theorem walkSdtChild_spots : ∀ (x : SdtChild) (w : List Place), (∀ s ∈ x.strings, P s) → ∀ s ∈ pick spot (walkSdtChild w x), P s
  | .run x, w, h => walkRun_spots x _ h
  | .paragraph x, w, h => walkParagraph_spots x _ h
  | .table x, w, h => walkTable_spots x _ h
  | .bookmarkStart _ _, w, h => by intro s h; cases h
  | .bookmarkEnd _, w, h => by intro s h; cases h
  | .commentStart i x, w, h => by
    simp only [walkSdtChild, pick_cons, walkComment_dead x _ deadSpot_comment, spot, List.append_nil]
    intro s h
    cases h
  | .commentEnd _, w, h => by intro s h; cases h
  | .sdt x, w, h => walkSdt_spots x _ h
theorem walkCellContent_spots : ∀ (x : CellContent) (w : List Place), (∀ s ∈ x.strings, P s) → ∀ s ∈ pick spot (walkCellContent w x), P s
  | .paragraph x, w, h => walkParagraph_spots x _ h
  | .table x, w, h => walkTable_spots x _ h
  | .sdt x, w, h => walkSdt_spots x _ h
  | .toc x, w, h => walkToc_spots x _ h
end

end

end Docx
