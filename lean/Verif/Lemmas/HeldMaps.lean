import Verif.Lemmas.Held

/-!
# What preparing a document does to its strings
-/

namespace Docx

open Docx.Spec

set_option linter.unusedSimpArgs false
set_option linter.unusedVariables false

/-! Visiting pictures keeps the paragraph ids. -/

section
variable {σ : Type} {v : Visitor σ}

mutual
theorem collectRun_visit : ∀ (x : Run) (s : σ), collectRun (visitRun v x s).1 = collectRun x
  | ⟨pr, cs⟩, s => by simp only [visitRun, collectRun, collectRunChildren_visit cs]
theorem collectDelete_visit : ∀ (x : Delete) (s : σ), collectDelete (visitDelete v x s).1 = collectDelete x
  | ⟨_, _, cs⟩, s => by simp only [visitDelete, collectDelete, collectDeleteChildren_visit cs]
theorem collectInsert_visit : ∀ (x : Insert) (s : σ), collectInsert (visitInsert v x s).1 = collectInsert x
  | ⟨_, _, cs⟩, s => by simp only [visitInsert, collectInsert, collectInsertChildren_visit cs]
theorem collectHyperlink_visit : ∀ (x : Hyperlink) (s : σ), collectHyperlink (visitHyperlink v x s).1 = collectHyperlink x
  | ⟨l, y, cs⟩, s => by simp only [visitHyperlink, collectHyperlink, collectParagraphChildren_visit cs]
theorem collectParagraph_visit : ∀ (x : Paragraph) (s : σ), collectParagraph (visitParagraph v x s).1 = collectParagraph x
  | ⟨i, cs, pr, n⟩, s => by simp only [visitParagraph, collectParagraph, collectParagraphChildren_visit cs]
theorem collectSdt_visit : ∀ (x : Sdt) (s : σ), collectSdt (visitSdt v x s).1 = collectSdt x
  | ⟨cs, pr, n⟩, s => by simp only [visitSdt, collectSdt, collectSdtChildren_visit cs]
theorem collectTable_visit : ∀ (x : Table) (s : σ), collectTable (visitTable v x s).1 = collectTable x
  | ⟨cs, g, n, pr⟩, s => by simp only [visitTable, collectTable, collectRows_visit cs]
theorem collectRow_visit : ∀ (x : Row) (s : σ), collectRow (visitRow v x s).1 = collectRow x
  | ⟨cs, _, _⟩, s => by simp only [visitRow, collectRow, collectCells_visit cs]
theorem collectCell_visit : ∀ (x : Cell) (s : σ), collectCell (visitCell v x s).1 = collectCell x
  | ⟨cs, pr, n⟩, s => by simp only [visitCell, collectCell, collectCellContents_visit cs]
theorem collectToc_visit : ∀ (x : Toc) (s : σ), collectToc (visitToc v x s).1 = collectToc x
  | ⟨a, b, c, d, e, f, g, bs, as, j, l⟩, s => by simp only [visitToc, collectToc, collectBlocks_visit bs, collectBlocks_visit as]
theorem collectRunChildren_visit : ∀ (x : List RunChild) (s : σ), collectRunChildren (visitRunChildren v x s).1 = collectRunChildren x
  | [], _ => rfl
  | c :: cs, s => by simp only [visitRunChildren, collectRunChildren, collectRunChild_visit c, collectRunChildren_visit cs]
theorem collectBlocks_visit : ∀ (x : List Block) (s : σ), collectBlocks (visitBlocks v x s).1 = collectBlocks x
  | [], _ => rfl
  | c :: cs, s => by simp only [visitBlocks, collectBlocks, collectBlock_visit c, collectBlocks_visit cs]
theorem collectDeleteChildren_visit : ∀ (x : List DeleteChild) (s : σ), collectDeleteChildren (visitDeleteChildren v x s).1 = collectDeleteChildren x
  | [], _ => rfl
  | c :: cs, s => by simp only [visitDeleteChildren, collectDeleteChildren, collectDeleteChild_visit c, collectDeleteChildren_visit cs]
theorem collectInsertChildren_visit : ∀ (x : List InsertChild) (s : σ), collectInsertChildren (visitInsertChildren v x s).1 = collectInsertChildren x
  | [], _ => rfl
  | c :: cs, s => by simp only [visitInsertChildren, collectInsertChildren, collectInsertChild_visit c, collectInsertChildren_visit cs]
theorem collectParagraphChildren_visit : ∀ (x : List ParagraphChild) (s : σ), collectParagraphChildren (visitParagraphChildren v x s).1 = collectParagraphChildren x
  | [], _ => rfl
  | c :: cs, s => by simp only [visitParagraphChildren, collectParagraphChildren, collectParagraphChild_visit c, collectParagraphChildren_visit cs]
theorem collectSdtChildren_visit : ∀ (x : List SdtChild) (s : σ), collectSdtChildren (visitSdtChildren v x s).1 = collectSdtChildren x
  | [], _ => rfl
  | c :: cs, s => by simp only [visitSdtChildren, collectSdtChildren, collectSdtChild_visit c, collectSdtChildren_visit cs]
theorem collectRows_visit : ∀ (x : List Row) (s : σ), collectRows (visitRows v x s).1 = collectRows x
  | [], _ => rfl
  | c :: cs, s => by simp only [visitRows, collectRows, collectRow_visit c, collectRows_visit cs]
theorem collectCells_visit : ∀ (x : List Cell) (s : σ), collectCells (visitCells v x s).1 = collectCells x
  | [], _ => rfl
  | c :: cs, s => by simp only [visitCells, collectCells, collectCell_visit c, collectCells_visit cs]
theorem collectCellContents_visit : ∀ (x : List CellContent) (s : σ), collectCellContents (visitCellContents v x s).1 = collectCellContents x
  | [], _ => rfl
  | c :: cs, s => by simp only [visitCellContents, collectCellContents, collectCellContent_visit c, collectCellContents_visit cs]
theorem collectRunChild_visit : ∀ (x : RunChild) (s : σ), collectRunChild (visitRunChild v x s).1 = collectRunChild x
  | .text _, s => rfl
  | .sym _ _, s => rfl
  | .deleteText _, s => rfl
  | .tab, s => rfl
  | .ptab _, s => rfl
  | .brk _, s => rfl
  | .carriageReturn, s => rfl
  | .picture _, s => rfl
  | .textBox _, s => rfl
  | .emptyDrawing, s => rfl
  | .shape _, s => rfl
  | .commentStart _ _, s => rfl
  | .commentEnd _, s => rfl
  | .fieldChar _ _, s => rfl
  | .instrText _, s => rfl
  | .deleteInstrText _, s => rfl
  | .instrTextString _, s => rfl
  | .footnoteReference _ _ _, s => rfl
  | .shading _, s => rfl
theorem collectBlock_visit : ∀ (x : Block) (s : σ), collectBlock (visitBlock v x s).1 = collectBlock x
  | .paragraph x, s => collectParagraph_visit x s
  | .table x, s => collectTable_visit x s
theorem collectDeleteChild_visit : ∀ (x : DeleteChild) (s : σ), collectDeleteChild (visitDeleteChild v x s).1 = collectDeleteChild x
  | .run x, s => collectRun_visit x s
  | .commentStart _ _, s => rfl
  | .commentEnd _, s => rfl
theorem collectInsertChild_visit : ∀ (x : InsertChild) (s : σ), collectInsertChild (visitInsertChild v x s).1 = collectInsertChild x
  | .run x, s => collectRun_visit x s
  | .delete x, s => collectDelete_visit x s
  | .commentStart _ _, s => rfl
  | .commentEnd _, s => rfl
theorem collectParagraphChild_visit : ∀ (x : ParagraphChild) (s : σ), collectParagraphChild (visitParagraphChild v x s).1 = collectParagraphChild x
  | .run x, s => collectRun_visit x s
  | .insert x, s => collectInsert_visit x s
  | .delete x, s => collectDelete_visit x s
  | .moveFrom x, s => collectDelete_visit x s
  | .moveTo x, s => collectInsert_visit x s
  | .bookmarkStart _ _, s => rfl
  | .hyperlink x, s => collectHyperlink_visit x s
  | .bookmarkEnd _, s => rfl
  | .commentStart _ _, s => rfl
  | .commentEnd _, s => rfl
  | .sdt x, s => collectSdt_visit x s
  | .pageNum _, s => rfl
  | .numPages _, s => rfl
theorem collectSdtChild_visit : ∀ (x : SdtChild) (s : σ), collectSdtChild (visitSdtChild v x s).1 = collectSdtChild x
  | .run x, s => collectRun_visit x s
  | .paragraph x, s => collectParagraph_visit x s
  | .table x, s => collectTable_visit x s
  | .bookmarkStart _ _, s => rfl
  | .bookmarkEnd _, s => rfl
  | .commentStart _ _, s => rfl
  | .commentEnd _, s => rfl
  | .sdt x, s => collectSdt_visit x s
theorem collectCellContent_visit : ∀ (x : CellContent) (s : σ), collectCellContent (visitCellContent v x s).1 = collectCellContent x
  | .paragraph x, s => collectParagraph_visit x s
  | .table x, s => collectTable_visit x s
  | .sdt x, s => collectSdt_visit x s
  | .toc x, s => collectToc_visit x s
end

end

/-! The bare form has no new strings but empty ones. -/

section
variable {P : Str → Prop} (h0 : P [])
include h0

mutual
theorem bareRun_strings : ∀ (x : Run), (∀ s ∈ x.strings, P s) → ∀ s ∈ (bareRun x).strings, P s
  | ⟨pr, cs⟩, h => by
    simp only [bareRun, Run.strings, List.forall_mem_cons, List.forall_mem_append] at h ⊢
    exact ⟨h.1, bareRunChildren_strings cs h.2⟩
theorem bareComment_strings : ∀ (x : Comment), (∀ s ∈ x.strings, P s) → ∀ s ∈ (bareComment x).strings, P s
  | ⟨_, _, _, cs, _⟩, h => by
    simp only [bareComment, Comment.strings, List.forall_mem_cons, List.forall_mem_append] at h ⊢
    exact ⟨h.1, h.2.1, bareBlocks_strings cs h.2.2⟩
theorem bareDelete_strings : ∀ (x : Delete), (∀ s ∈ x.strings, P s) → ∀ s ∈ (bareDelete x).strings, P s
  | ⟨_, _, cs⟩, h => by
    simp only [bareDelete, Delete.strings, List.forall_mem_cons, List.forall_mem_append] at h ⊢
    exact ⟨h.1, h.2.1, bareDeleteChildren_strings cs h.2.2⟩
theorem bareInsert_strings : ∀ (x : Insert), (∀ s ∈ x.strings, P s) → ∀ s ∈ (bareInsert x).strings, P s
  | ⟨_, _, cs⟩, h => by
    simp only [bareInsert, Insert.strings, List.forall_mem_cons, List.forall_mem_append] at h ⊢
    exact ⟨h.1, h.2.1, bareInsertChildren_strings cs h.2.2⟩
theorem bareHyperlink_strings : ∀ (x : Hyperlink), (∀ s ∈ x.strings, P s) → ∀ s ∈ (bareHyperlink x).strings, P s
  | ⟨l, y, cs⟩, h => by
    simp only [bareHyperlink, Hyperlink.strings, List.forall_mem_cons, List.forall_mem_append] at h ⊢
    exact ⟨h.1, bareParagraphChildren_strings cs h.2⟩
theorem bareParagraph_strings : ∀ (x : Paragraph), (∀ s ∈ x.strings, P s) → ∀ s ∈ (bareParagraph x).strings, P s
  | ⟨i, cs, pr, n⟩, h => by
    simp only [bareParagraph, Paragraph.strings, List.forall_mem_cons, List.forall_mem_append] at h ⊢
    exact ⟨h0, h.2.1, bareParagraphChildren_strings cs h.2.2⟩
theorem bareSdt_strings : ∀ (x : Sdt), (∀ s ∈ x.strings, P s) → ∀ s ∈ (bareSdt x).strings, P s
  | ⟨cs, pr, n⟩, h => by
    simp only [bareSdt, Sdt.strings, List.forall_mem_cons, List.forall_mem_append] at h ⊢
    exact ⟨h.1, bareSdtChildren_strings cs h.2⟩
theorem bareTable_strings : ∀ (x : Table), (∀ s ∈ x.strings, P s) → ∀ s ∈ (bareTable x).strings, P s
  | ⟨cs, g, n, pr⟩, h => by
    simp only [bareTable, Table.strings, List.forall_mem_cons, List.forall_mem_append] at h ⊢
    exact ⟨h.1, bareRows_strings cs h.2⟩
theorem bareRow_strings : ∀ (x : Row), (∀ s ∈ x.strings, P s) → ∀ s ∈ (bareRow x).strings, P s
  | ⟨cs, _, _⟩, h => by
    simp only [bareRow, Row.strings, List.forall_mem_cons, List.forall_mem_append] at h ⊢
    exact ⟨h.1, bareCells_strings cs h.2⟩
theorem bareCell_strings : ∀ (x : Cell), (∀ s ∈ x.strings, P s) → ∀ s ∈ (bareCell x).strings, P s
  | ⟨cs, pr, n⟩, h => by
    simp only [bareCell, Cell.strings, List.forall_mem_cons, List.forall_mem_append] at h ⊢
    exact ⟨h.1, bareCellContents_strings cs h.2⟩
theorem bareToc_strings : ∀ (x : Toc), (∀ s ∈ x.strings, P s) → ∀ s ∈ (bareToc x).strings, P s
  | ⟨a, b, c, d, e, f, g, bs, as, j, l⟩, h => by
    simp only [bareToc, Toc.strings, List.forall_mem_cons, List.forall_mem_append] at h ⊢
    obtain ⟨⟨⟨⟨⟨⟨h1, h2⟩, h3⟩, h4⟩, h5⟩, h6⟩, h7⟩ := h
    exact ⟨⟨⟨⟨⟨⟨h1, h2⟩, h3⟩, bareBlocks_strings bs h4⟩, bareBlocks_strings as h5⟩, h6⟩, h7⟩
theorem bareRunChildren_strings : ∀ (x : List RunChild), (∀ s ∈ x.flatMap RunChild.strings, P s) → ∀ s ∈ (bareRunChildren x).flatMap RunChild.strings, P s
  | [], h => h
  | c :: cs, h => by
    simp only [bareRunChildren, List.flatMap_cons, List.forall_mem_append] at h ⊢
    exact ⟨bareRunChild_strings c h.1, bareRunChildren_strings cs h.2⟩
theorem bareBlocks_strings : ∀ (x : List Block), (∀ s ∈ stringsBlocks x, P s) → ∀ s ∈ stringsBlocks (bareBlocks x), P s
  | [], h => h
  | c :: cs, h => by
    simp only [bareBlocks, stringsBlocks, List.forall_mem_append] at h ⊢
    exact ⟨bareBlock_strings c h.1, bareBlocks_strings cs h.2⟩
theorem bareDeleteChildren_strings : ∀ (x : List DeleteChild), (∀ s ∈ x.flatMap DeleteChild.strings, P s) → ∀ s ∈ (bareDeleteChildren x).flatMap DeleteChild.strings, P s
  | [], h => h
  | c :: cs, h => by
    simp only [bareDeleteChildren, List.flatMap_cons, List.forall_mem_append] at h ⊢
    exact ⟨bareDeleteChild_strings c h.1, bareDeleteChildren_strings cs h.2⟩
theorem bareInsertChildren_strings : ∀ (x : List InsertChild), (∀ s ∈ x.flatMap InsertChild.strings, P s) → ∀ s ∈ (bareInsertChildren x).flatMap InsertChild.strings, P s
  | [], h => h
  | c :: cs, h => by
    simp only [bareInsertChildren, List.flatMap_cons, List.forall_mem_append] at h ⊢
    exact ⟨bareInsertChild_strings c h.1, bareInsertChildren_strings cs h.2⟩
theorem bareParagraphChildren_strings : ∀ (x : List ParagraphChild), (∀ s ∈ stringsParagraphChildren x, P s) → ∀ s ∈ stringsParagraphChildren (bareParagraphChildren x), P s
  | [], h => h
  | c :: cs, h => by
    simp only [bareParagraphChildren, stringsParagraphChildren, List.forall_mem_append] at h ⊢
    exact ⟨bareParagraphChild_strings c h.1, bareParagraphChildren_strings cs h.2⟩
theorem bareSdtChildren_strings : ∀ (x : List SdtChild), (∀ s ∈ stringsSdtChildren x, P s) → ∀ s ∈ stringsSdtChildren (bareSdtChildren x), P s
  | [], h => h
  | c :: cs, h => by
    simp only [bareSdtChildren, stringsSdtChildren, List.forall_mem_append] at h ⊢
    exact ⟨bareSdtChild_strings c h.1, bareSdtChildren_strings cs h.2⟩
theorem bareRows_strings : ∀ (x : List Row), (∀ s ∈ stringsRows x, P s) → ∀ s ∈ stringsRows (bareRows x), P s
  | [], h => h
  | c :: cs, h => by
    simp only [bareRows, stringsRows, List.forall_mem_append] at h ⊢
    exact ⟨bareRow_strings c h.1, bareRows_strings cs h.2⟩
theorem bareCells_strings : ∀ (x : List Cell), (∀ s ∈ stringsCells x, P s) → ∀ s ∈ stringsCells (bareCells x), P s
  | [], h => h
  | c :: cs, h => by
    simp only [bareCells, stringsCells, List.forall_mem_append] at h ⊢
    exact ⟨bareCell_strings c h.1, bareCells_strings cs h.2⟩
theorem bareCellContents_strings : ∀ (x : List CellContent), (∀ s ∈ stringsCellContents x, P s) → ∀ s ∈ stringsCellContents (bareCellContents x), P s
  | [], h => h
  | c :: cs, h => by
    simp only [bareCellContents, stringsCellContents, List.forall_mem_append] at h ⊢
    exact ⟨bareCellContent_strings c h.1, bareCellContents_strings cs h.2⟩
theorem bareRunChild_strings : ∀ (x : RunChild), (∀ s ∈ x.strings, P s) → ∀ s ∈ (bareRunChild x).strings, P s
  | .text _, h => h
  | .sym _ _, h => h
  | .deleteText _, h => h
  | .tab, h => h
  | .ptab _, h => h
  | .brk _, h => h
  | .carriageReturn, h => h
  | .picture _, h => by
    intro s hs
    simp only [bareRunChild, RunChild.strings, Pic.strings, List.mem_singleton] at hs
    exact hs ▸ h0
  | .textBox _, h => h
  | .emptyDrawing, h => h
  | .shape _, h => h
  | .commentStart _ _, h => by intro s hs; cases hs
  | .commentEnd _, h => h
  | .fieldChar _ _, h => h
  | .instrText _, h => h
  | .deleteInstrText _, h => h
  | .instrTextString _, h => h
  | .footnoteReference _ _ _, h => h
  | .shading _, h => h
theorem bareBlock_strings : ∀ (x : Block), (∀ s ∈ x.strings, P s) → ∀ s ∈ (bareBlock x).strings, P s
  | .paragraph x, h => bareParagraph_strings x h
  | .table x, h => bareTable_strings x h
theorem bareDeleteChild_strings : ∀ (x : DeleteChild), (∀ s ∈ x.strings, P s) → ∀ s ∈ (bareDeleteChild x).strings, P s
  | .run x, h => bareRun_strings x h
  | .commentStart _ _, h => by intro s hs; cases hs
  | .commentEnd _, h => h
theorem bareInsertChild_strings : ∀ (x : InsertChild), (∀ s ∈ x.strings, P s) → ∀ s ∈ (bareInsertChild x).strings, P s
  | .run x, h => bareRun_strings x h
  | .delete x, h => bareDelete_strings x h
  | .commentStart _ _, h => by intro s hs; cases hs
  | .commentEnd _, h => h
theorem bareParagraphChild_strings : ∀ (x : ParagraphChild), (∀ s ∈ x.strings, P s) → ∀ s ∈ (bareParagraphChild x).strings, P s
  | .run x, h => bareRun_strings x h
  | .insert x, h => bareInsert_strings x h
  | .delete x, h => bareDelete_strings x h
  | .moveFrom x, h => bareDelete_strings x h
  | .moveTo x, h => bareInsert_strings x h
  | .bookmarkStart _ _, h => h
  | .hyperlink x, h => bareHyperlink_strings x h
  | .bookmarkEnd _, h => h
  | .commentStart _ _, h => by intro s hs; cases hs
  | .commentEnd _, h => h
  | .sdt x, h => bareSdt_strings x h
  | .pageNum _, h => h
  | .numPages _, h => h
theorem bareSdtChild_strings : ∀ (x : SdtChild), (∀ s ∈ x.strings, P s) → ∀ s ∈ (bareSdtChild x).strings, P s
  | .run x, h => bareRun_strings x h
  | .paragraph x, h => bareParagraph_strings x h
  | .table x, h => bareTable_strings x h
  | .bookmarkStart _ _, h => h
  | .bookmarkEnd _, h => h
  | .commentStart _ _, h => by intro s hs; cases hs
  | .commentEnd _, h => h
  | .sdt x, h => bareSdt_strings x h
theorem bareCellContent_strings : ∀ (x : CellContent), (∀ s ∈ x.strings, P s) → ∀ s ∈ (bareCellContent x).strings, P s
  | .paragraph x, h => bareParagraph_strings x h
  | .table x, h => bareTable_strings x h
  | .sdt x, h => bareSdt_strings x h
  | .toc x, h => bareToc_strings x h
end

end

end Docx
