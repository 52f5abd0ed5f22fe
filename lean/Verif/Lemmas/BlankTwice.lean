import Verif.Lemmas.BlankWalk

/-!
# Removing paragraph ids twice
-/

namespace Docx

open Docx.Spec

mutual
theorem blankRun_idem : ∀ x : Run, blankRun (blankRun x) = blankRun x
  | ⟨_, cs⟩ => by simp only [blankRun, blankRunChildren_idem cs]
theorem blankComment_idem : ∀ x : Comment, blankComment (blankComment x) = blankComment x
  | ⟨_, _, _, cs, _⟩ => by simp only [blankComment, blankBlocks_idem cs]
theorem blankDelete_idem : ∀ x : Delete, blankDelete (blankDelete x) = blankDelete x
  | ⟨_, _, cs⟩ => by simp only [blankDelete, blankDeleteChildren_idem cs]
theorem blankInsert_idem : ∀ x : Insert, blankInsert (blankInsert x) = blankInsert x
  | ⟨_, _, cs⟩ => by simp only [blankInsert, blankInsertChildren_idem cs]
theorem blankHyperlink_idem : ∀ x : Hyperlink, blankHyperlink (blankHyperlink x) = blankHyperlink x
  | ⟨_, _, cs⟩ => by simp only [blankHyperlink, blankParagraphChildren_idem cs]
theorem blankParagraph_idem : ∀ x : Paragraph, blankParagraph (blankParagraph x) = blankParagraph x
  | ⟨_, cs, _, _⟩ => by simp only [blankParagraph, blankParagraphChildren_idem cs]
theorem blankSdt_idem : ∀ x : Sdt, blankSdt (blankSdt x) = blankSdt x
  | ⟨cs, _, _⟩ => by simp only [blankSdt, blankSdtChildren_idem cs]
theorem blankTable_idem : ∀ x : Table, blankTable (blankTable x) = blankTable x
  | ⟨cs, _, _, _⟩ => by simp only [blankTable, blankRows_idem cs]
theorem blankRow_idem : ∀ x : Row, blankRow (blankRow x) = blankRow x
  | ⟨cs, _, _⟩ => by simp only [blankRow, blankCells_idem cs]
theorem blankCell_idem : ∀ x : Cell, blankCell (blankCell x) = blankCell x
  | ⟨cs, _, _⟩ => by simp only [blankCell, blankCellContents_idem cs]
theorem blankRunChildren_idem : ∀ x : List RunChild, blankRunChildren (blankRunChildren x) = blankRunChildren x
  | [] => rfl
  | c :: cs => by simp only [blankRunChildren, blankRunChild_idem c, blankRunChildren_idem cs]
theorem blankBlocks_idem : ∀ x : List Block, blankBlocks (blankBlocks x) = blankBlocks x
  | [] => rfl
  | c :: cs => by simp only [blankBlocks, blankBlock_idem c, blankBlocks_idem cs]
theorem blankDeleteChildren_idem : ∀ x : List DeleteChild, blankDeleteChildren (blankDeleteChildren x) = blankDeleteChildren x
  | [] => rfl
  | c :: cs => by simp only [blankDeleteChildren, blankDeleteChild_idem c, blankDeleteChildren_idem cs]
theorem blankInsertChildren_idem : ∀ x : List InsertChild, blankInsertChildren (blankInsertChildren x) = blankInsertChildren x
  | [] => rfl
  | c :: cs => by simp only [blankInsertChildren, blankInsertChild_idem c, blankInsertChildren_idem cs]
theorem blankParagraphChildren_idem : ∀ x : List ParagraphChild, blankParagraphChildren (blankParagraphChildren x) = blankParagraphChildren x
  | [] => rfl
  | c :: cs => by simp only [blankParagraphChildren, blankParagraphChild_idem c, blankParagraphChildren_idem cs]
theorem blankSdtChildren_idem : ∀ x : List SdtChild, blankSdtChildren (blankSdtChildren x) = blankSdtChildren x
  | [] => rfl
  | c :: cs => by simp only [blankSdtChildren, blankSdtChild_idem c, blankSdtChildren_idem cs]
theorem blankRows_idem : ∀ x : List Row, blankRows (blankRows x) = blankRows x
  | [] => rfl
  | c :: cs => by simp only [blankRows, blankRow_idem c, blankRows_idem cs]
theorem blankCells_idem : ∀ x : List Cell, blankCells (blankCells x) = blankCells x
  | [] => rfl
  | c :: cs => by simp only [blankCells, blankCell_idem c, blankCells_idem cs]
theorem blankCellContents_idem : ∀ x : List CellContent, blankCellContents (blankCellContents x) = blankCellContents x
  | [] => rfl
  | c :: cs => by simp only [blankCellContents, blankCellContent_idem c, blankCellContents_idem cs]
theorem blankRunChild_idem : ∀ x : RunChild, blankRunChild (blankRunChild x) = blankRunChild x
  | .text _ => by simp only [blankRunChild]
  | .sym _ _ => by simp only [blankRunChild]
  | .deleteText _ => by simp only [blankRunChild]
  | .tab => by simp only [blankRunChild]
  | .ptab _ => by simp only [blankRunChild]
  | .brk _ => by simp only [blankRunChild]
  | .carriageReturn => by simp only [blankRunChild]
  | .picture _ => by simp only [blankRunChild]
  | .textBox _ => by simp only [blankRunChild]
  | .emptyDrawing => by simp only [blankRunChild]
  | .shape _ => by simp only [blankRunChild]
  | .commentStart _ x => by simp only [blankRunChild, blankComment_idem x]
  | .commentEnd _ => by simp only [blankRunChild]
  | .fieldChar _ _ => by simp only [blankRunChild]
  | .instrText _ => by simp only [blankRunChild]
  | .deleteInstrText _ => by simp only [blankRunChild]
  | .instrTextString _ => by simp only [blankRunChild]
  | .footnoteReference _ _ _ => by simp only [blankRunChild]
  | .shading _ => by simp only [blankRunChild]
theorem blankBlock_idem : ∀ x : Block, blankBlock (blankBlock x) = blankBlock x
  | .paragraph x => by simp only [blankBlock, blankParagraph_idem x]
  | .table x => by simp only [blankBlock, blankTable_idem x]
theorem blankDeleteChild_idem : ∀ x : DeleteChild, blankDeleteChild (blankDeleteChild x) = blankDeleteChild x
  | .run x => by simp only [blankDeleteChild, blankRun_idem x]
  | .commentStart _ x => by simp only [blankDeleteChild, blankComment_idem x]
  | .commentEnd _ => by simp only [blankDeleteChild]
theorem blankInsertChild_idem : ∀ x : InsertChild, blankInsertChild (blankInsertChild x) = blankInsertChild x
  | .run x => by simp only [blankInsertChild, blankRun_idem x]
  | .delete x => by simp only [blankInsertChild, blankDelete_idem x]
  | .commentStart _ x => by simp only [blankInsertChild, blankComment_idem x]
  | .commentEnd _ => by simp only [blankInsertChild]
theorem blankParagraphChild_idem : ∀ x : ParagraphChild, blankParagraphChild (blankParagraphChild x) = blankParagraphChild x
  | .run x => by simp only [blankParagraphChild, blankRun_idem x]
  | .insert x => by simp only [blankParagraphChild, blankInsert_idem x]
  | .delete x => by simp only [blankParagraphChild, blankDelete_idem x]
  | .moveFrom x => by simp only [blankParagraphChild, blankDelete_idem x]
  | .moveTo x => by simp only [blankParagraphChild, blankInsert_idem x]
  | .bookmarkStart _ _ => by simp only [blankParagraphChild]
  | .hyperlink x => by simp only [blankParagraphChild, blankHyperlink_idem x]
  | .bookmarkEnd _ => by simp only [blankParagraphChild]
  | .commentStart _ x => by simp only [blankParagraphChild, blankComment_idem x]
  | .commentEnd _ => by simp only [blankParagraphChild]
  | .sdt x => by simp only [blankParagraphChild, blankSdt_idem x]
  | .pageNum _ => by simp only [blankParagraphChild]
  | .numPages _ => by simp only [blankParagraphChild]
theorem blankSdtChild_idem : ∀ x : SdtChild, blankSdtChild (blankSdtChild x) = blankSdtChild x
  | .run x => by simp only [blankSdtChild, blankRun_idem x]
  | .paragraph x => by simp only [blankSdtChild, blankParagraph_idem x]
  | .table x => by simp only [blankSdtChild, blankTable_idem x]
  | .bookmarkStart _ _ => by simp only [blankSdtChild]
  | .bookmarkEnd _ => by simp only [blankSdtChild]
  | .commentStart _ x => by simp only [blankSdtChild, blankComment_idem x]
  | .commentEnd _ => by simp only [blankSdtChild]
  | .sdt x => by simp only [blankSdtChild, blankSdt_idem x]
theorem blankCellContent_idem : ∀ x : CellContent, blankCellContent (blankCellContent x) = blankCellContent x
  | .paragraph x => by simp only [blankCellContent, blankParagraph_idem x]
  | .table x => by simp only [blankCellContent, blankTable_idem x]
  | .sdt x => by simp only [blankCellContent, blankSdt_idem x]
  | .toc x => by simp only [blankCellContent, blankToc_idem x]
theorem blankToc_idem : ∀ x : Toc, blankToc (blankToc x) = blankToc x
  | ⟨_, _, _, _, _, _, _, bs, as, _, _⟩ => by simp only [blankToc, blankBlocks_idem bs, blankBlocks_idem as]
end

theorem blankItem_blank (i : Item) : blankItem (blankItem i) = blankItem i := by
  cases i <;> simp only [blankItem, blankParagraph_idem, blankTable_idem, blankCell_idem, blankRun_idem, blankRunChild_idem, blankHyperlink_idem,
    blankSdt_idem, blankToc_idem, blankComment_idem]

end Docx
