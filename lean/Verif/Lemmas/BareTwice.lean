import Verif.Lemmas.BareWalk
import Verif.Lemmas.Bare

/-!
# Removing ids twice
-/

namespace Docx

open Docx.Spec

mutual
theorem bareRun_idem : ∀ x : Run, bareRun (bareRun x) = bareRun x
  | ⟨_, cs⟩ => by simp only [bareRun, bareRunChildren_idem cs]
theorem bareComment_idem : ∀ x : Comment, bareComment (bareComment x) = bareComment x
  | ⟨_, _, _, cs, _⟩ => by simp only [bareComment, bareBlocks_idem cs]
theorem bareDelete_idem : ∀ x : Delete, bareDelete (bareDelete x) = bareDelete x
  | ⟨_, _, cs⟩ => by simp only [bareDelete, bareDeleteChildren_idem cs]
theorem bareInsert_idem : ∀ x : Insert, bareInsert (bareInsert x) = bareInsert x
  | ⟨_, _, cs⟩ => by simp only [bareInsert, bareInsertChildren_idem cs]
theorem bareHyperlink_idem : ∀ x : Hyperlink, bareHyperlink (bareHyperlink x) = bareHyperlink x
  | ⟨_, _, cs⟩ => by simp only [bareHyperlink, bareParagraphChildren_idem cs]
theorem bareParagraph_idem : ∀ x : Paragraph, bareParagraph (bareParagraph x) = bareParagraph x
  | ⟨_, cs, _, _⟩ => by simp only [bareParagraph, bareParagraphChildren_idem cs]
theorem bareSdt_idem : ∀ x : Sdt, bareSdt (bareSdt x) = bareSdt x
  | ⟨cs, _, _⟩ => by simp only [bareSdt, bareSdtChildren_idem cs]
theorem bareTable_idem : ∀ x : Table, bareTable (bareTable x) = bareTable x
  | ⟨cs, _, _, _⟩ => by simp only [bareTable, bareRows_idem cs]
theorem bareRow_idem : ∀ x : Row, bareRow (bareRow x) = bareRow x
  | ⟨cs, _, _⟩ => by simp only [bareRow, bareCells_idem cs]
theorem bareCell_idem : ∀ x : Cell, bareCell (bareCell x) = bareCell x
  | ⟨cs, _, _⟩ => by simp only [bareCell, bareCellContents_idem cs]
theorem bareRunChildren_idem : ∀ x : List RunChild, bareRunChildren (bareRunChildren x) = bareRunChildren x
  | [] => rfl
  | c :: cs => by simp only [bareRunChildren, bareRunChild_idem c, bareRunChildren_idem cs]
theorem bareBlocks_idem : ∀ x : List Block, bareBlocks (bareBlocks x) = bareBlocks x
  | [] => rfl
  | c :: cs => by simp only [bareBlocks, bareBlock_idem c, bareBlocks_idem cs]
theorem bareDeleteChildren_idem : ∀ x : List DeleteChild, bareDeleteChildren (bareDeleteChildren x) = bareDeleteChildren x
  | [] => rfl
  | c :: cs => by simp only [bareDeleteChildren, bareDeleteChild_idem c, bareDeleteChildren_idem cs]
theorem bareInsertChildren_idem : ∀ x : List InsertChild, bareInsertChildren (bareInsertChildren x) = bareInsertChildren x
  | [] => rfl
  | c :: cs => by simp only [bareInsertChildren, bareInsertChild_idem c, bareInsertChildren_idem cs]
theorem bareParagraphChildren_idem : ∀ x : List ParagraphChild, bareParagraphChildren (bareParagraphChildren x) = bareParagraphChildren x
  | [] => rfl
  | c :: cs => by simp only [bareParagraphChildren, bareParagraphChild_idem c, bareParagraphChildren_idem cs]
theorem bareSdtChildren_idem : ∀ x : List SdtChild, bareSdtChildren (bareSdtChildren x) = bareSdtChildren x
  | [] => rfl
  | c :: cs => by simp only [bareSdtChildren, bareSdtChild_idem c, bareSdtChildren_idem cs]
theorem bareRows_idem : ∀ x : List Row, bareRows (bareRows x) = bareRows x
  | [] => rfl
  | c :: cs => by simp only [bareRows, bareRow_idem c, bareRows_idem cs]
theorem bareCells_idem : ∀ x : List Cell, bareCells (bareCells x) = bareCells x
  | [] => rfl
  | c :: cs => by simp only [bareCells, bareCell_idem c, bareCells_idem cs]
theorem bareCellContents_idem : ∀ x : List CellContent, bareCellContents (bareCellContents x) = bareCellContents x
  | [] => rfl
  | c :: cs => by simp only [bareCellContents, bareCellContent_idem c, bareCellContents_idem cs]
theorem bareRunChild_idem : ∀ x : RunChild, bareRunChild (bareRunChild x) = bareRunChild x
  | .text _ => by simp only [bareRunChild]
  | .sym _ _ => by simp only [bareRunChild]
  | .deleteText _ => by simp only [bareRunChild]
  | .tab => by simp only [bareRunChild]
  | .ptab _ => by simp only [bareRunChild]
  | .brk _ => by simp only [bareRunChild]
  | .carriageReturn => by simp only [bareRunChild]
  | .picture _ => by simp only [bareRunChild]
  | .textBox _ => by simp only [bareRunChild]
  | .emptyDrawing => by simp only [bareRunChild]
  | .shape _ => by simp only [bareRunChild]
  | .commentStart _ x => by simp only [bareRunChild, bareComment_idem x]
  | .commentEnd _ => by simp only [bareRunChild]
  | .fieldChar _ _ => by simp only [bareRunChild]
  | .instrText _ => by simp only [bareRunChild]
  | .deleteInstrText _ => by simp only [bareRunChild]
  | .instrTextString _ => by simp only [bareRunChild]
  | .footnoteReference _ _ _ => by simp only [bareRunChild]
  | .shading _ => by simp only [bareRunChild]
theorem bareBlock_idem : ∀ x : Block, bareBlock (bareBlock x) = bareBlock x
  | .paragraph x => by simp only [bareBlock, bareParagraph_idem x]
  | .table x => by simp only [bareBlock, bareTable_idem x]
theorem bareDeleteChild_idem : ∀ x : DeleteChild, bareDeleteChild (bareDeleteChild x) = bareDeleteChild x
  | .run x => by simp only [bareDeleteChild, bareRun_idem x]
  | .commentStart _ x => by simp only [bareDeleteChild, bareComment_idem x]
  | .commentEnd _ => by simp only [bareDeleteChild]
theorem bareInsertChild_idem : ∀ x : InsertChild, bareInsertChild (bareInsertChild x) = bareInsertChild x
  | .run x => by simp only [bareInsertChild, bareRun_idem x]
  | .delete x => by simp only [bareInsertChild, bareDelete_idem x]
  | .commentStart _ x => by simp only [bareInsertChild, bareComment_idem x]
  | .commentEnd _ => by simp only [bareInsertChild]
theorem bareParagraphChild_idem : ∀ x : ParagraphChild, bareParagraphChild (bareParagraphChild x) = bareParagraphChild x
  | .run x => by simp only [bareParagraphChild, bareRun_idem x]
  | .insert x => by simp only [bareParagraphChild, bareInsert_idem x]
  | .delete x => by simp only [bareParagraphChild, bareDelete_idem x]
  | .moveFrom x => by simp only [bareParagraphChild, bareDelete_idem x]
  | .moveTo x => by simp only [bareParagraphChild, bareInsert_idem x]
  | .bookmarkStart _ _ => by simp only [bareParagraphChild]
  | .hyperlink x => by simp only [bareParagraphChild, bareHyperlink_idem x]
  | .bookmarkEnd _ => by simp only [bareParagraphChild]
  | .commentStart _ x => by simp only [bareParagraphChild, bareComment_idem x]
  | .commentEnd _ => by simp only [bareParagraphChild]
  | .sdt x => by simp only [bareParagraphChild, bareSdt_idem x]
  | .pageNum _ => by simp only [bareParagraphChild]
  | .numPages _ => by simp only [bareParagraphChild]
theorem bareSdtChild_idem : ∀ x : SdtChild, bareSdtChild (bareSdtChild x) = bareSdtChild x
  | .run x => by simp only [bareSdtChild, bareRun_idem x]
  | .paragraph x => by simp only [bareSdtChild, bareParagraph_idem x]
  | .table x => by simp only [bareSdtChild, bareTable_idem x]
  | .bookmarkStart _ _ => by simp only [bareSdtChild]
  | .bookmarkEnd _ => by simp only [bareSdtChild]
  | .commentStart _ x => by simp only [bareSdtChild, bareComment_idem x]
  | .commentEnd _ => by simp only [bareSdtChild]
  | .sdt x => by simp only [bareSdtChild, bareSdt_idem x]
theorem bareCellContent_idem : ∀ x : CellContent, bareCellContent (bareCellContent x) = bareCellContent x
  | .paragraph x => by simp only [bareCellContent, bareParagraph_idem x]
  | .table x => by simp only [bareCellContent, bareTable_idem x]
  | .sdt x => by simp only [bareCellContent, bareSdt_idem x]
  | .toc x => by simp only [bareCellContent, bareToc_idem x]
theorem bareToc_idem : ∀ x : Toc, bareToc (bareToc x) = bareToc x
  | ⟨_, _, _, _, _, _, _, bs, as, _, _⟩ => by simp only [bareToc, bareBlocks_idem bs, bareBlocks_idem as]
end

theorem bareItem_bare (i : Item) : bareItem (bareItem i) = bareItem i := by
  cases i <;> simp only [bareItem, bareParagraph_idem, bareTable_idem, bareCell_idem, bareRun_idem, bareRunChild_idem, bareHyperlink_idem,
    bareSdt_idem, bareToc_idem, bareComment_idem]

theorem bareItem_blank (i : Item) : bareItem (blankItem i) = bareItem i := by
  cases i <;> simp only [bareItem, blankItem, bareParagraph_blank, bareTable_blank, bareCell_blank, bareRun_blank, bareRunChild_blank,
    bareHyperlink_blank, bareSdt_blank, bareToc_blank, bareComment_blank]

end Docx
