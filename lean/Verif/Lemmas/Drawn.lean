import Verif.Lemmas.JsContent

/-!
# The pictures of a document are those drawn in its runs

A walk has two items for a picture: the child of the run and the picture.
-/

namespace Docx.Spec

open Docx

/-- The bytes of the picture there. -/
def imageAt (w : List Place) : Item → List (List UInt8)
  | .picture p => if inPart w then [p.image] else []
  | _ => []

/-- The bytes of the picture drawn there. -/
def drawnAt (w : List Place) : Item → List (List UInt8)
  | .runChild (.picture p) => if inPart w then [p.image] else []
  | _ => []

mutual
theorem walkRun_images : ∀ (x : Run) (w : List Place), pick imageAt (walkRun w x) = pick drawnAt (walkRun w x)
  | ⟨pr, cs⟩, w => by simp only [walkRun, pick_cons, pick_append, imageAt, drawnAt, List.nil_append, walkRunChildren_images cs _, List.append_nil]
theorem walkComment_images : ∀ (x : Comment) (w : List Place), pick imageAt (walkComment w x) = pick drawnAt (walkComment w x)
  | ⟨_, _, _, cs, _⟩, w => by simp only [walkComment, pick_cons, pick_append, imageAt, drawnAt, List.nil_append, walkBlocks_images cs _, List.append_nil]
theorem walkDelete_images : ∀ (x : Delete) (w : List Place), pick imageAt (walkDelete w x) = pick drawnAt (walkDelete w x)
  | ⟨_, _, cs⟩, w => by simp only [walkDelete, pick_cons, pick_append, imageAt, drawnAt, List.nil_append, walkDeleteChildren_images cs _, List.append_nil]
theorem walkInsert_images : ∀ (x : Insert) (w : List Place), pick imageAt (walkInsert w x) = pick drawnAt (walkInsert w x)
  | ⟨_, _, cs⟩, w => by simp only [walkInsert, pick_cons, pick_append, imageAt, drawnAt, List.nil_append, walkInsertChildren_images cs _, List.append_nil]
theorem walkHyperlink_images : ∀ (x : Hyperlink) (w : List Place), pick imageAt (walkHyperlink w x) = pick drawnAt (walkHyperlink w x)
  | ⟨l, y, cs⟩, w => by simp only [walkHyperlink, pick_cons, pick_append, imageAt, drawnAt, List.nil_append, walkParagraphChildren_images cs _, List.append_nil]
theorem walkParagraph_images : ∀ (x : Paragraph) (w : List Place), pick imageAt (walkParagraph w x) = pick drawnAt (walkParagraph w x)
  | ⟨i, cs, pr, n⟩, w => by simp only [walkParagraph, pick_cons, pick_append, imageAt, drawnAt, List.nil_append, walkParagraphChildren_images cs _, List.append_nil]
theorem walkSdt_images : ∀ (x : Sdt) (w : List Place), pick imageAt (walkSdt w x) = pick drawnAt (walkSdt w x)
  | ⟨cs, pr, n⟩, w => by simp only [walkSdt, pick_cons, pick_append, imageAt, drawnAt, List.nil_append, walkSdtChildren_images cs _, List.append_nil]
theorem walkTable_images : ∀ (x : Table) (w : List Place), pick imageAt (walkTable w x) = pick drawnAt (walkTable w x)
  | ⟨cs, g, n, pr⟩, w => by simp only [walkTable, pick_cons, pick_append, imageAt, drawnAt, List.nil_append, walkRows_images cs _, List.append_nil]
theorem walkRow_images : ∀ (x : Row) (w : List Place), pick imageAt (walkRow w x) = pick drawnAt (walkRow w x)
  | ⟨cs, _, _⟩, w => by simp only [walkRow, pick_cons, pick_append, imageAt, drawnAt, List.nil_append, walkCells_images cs _, List.append_nil]
theorem walkCell_images : ∀ (x : Cell) (w : List Place), pick imageAt (walkCell w x) = pick drawnAt (walkCell w x)
  | ⟨cs, pr, n⟩, w => by simp only [walkCell, pick_cons, pick_append, imageAt, drawnAt, List.nil_append, walkCellContents_images cs _, List.append_nil]
theorem walkToc_images : ∀ (x : Toc) (w : List Place), pick imageAt (walkToc w x) = pick drawnAt (walkToc w x)
  | ⟨a, b, c, d, e, f, g, bs, as, j, l⟩, w => by simp only [walkToc, pick_cons, pick_append, imageAt, drawnAt, List.nil_append, walkBlocks_images bs _, walkBlocks_images as _, List.append_nil]
theorem walkRunChildren_images : ∀ (x : List RunChild) (w : List Place), pick imageAt (walkRunChildren w x) = pick drawnAt (walkRunChildren w x)
  | [], _ => rfl
  | c :: cs, w => by simp only [walkRunChildren, pick_append, walkRunChild_images c _, walkRunChildren_images cs _, List.append_nil]
theorem walkBlocks_images : ∀ (x : List Block) (w : List Place), pick imageAt (walkBlocks w x) = pick drawnAt (walkBlocks w x)
  | [], _ => rfl
  | c :: cs, w => by simp only [walkBlocks, pick_append, walkBlock_images c _, walkBlocks_images cs _, List.append_nil]
theorem walkDeleteChildren_images : ∀ (x : List DeleteChild) (w : List Place), pick imageAt (walkDeleteChildren w x) = pick drawnAt (walkDeleteChildren w x)
  | [], _ => rfl
  | c :: cs, w => by simp only [walkDeleteChildren, pick_append, walkDeleteChild_images c _, walkDeleteChildren_images cs _, List.append_nil]
theorem walkInsertChildren_images : ∀ (x : List InsertChild) (w : List Place), pick imageAt (walkInsertChildren w x) = pick drawnAt (walkInsertChildren w x)
  | [], _ => rfl
  | c :: cs, w => by simp only [walkInsertChildren, pick_append, walkInsertChild_images c _, walkInsertChildren_images cs _, List.append_nil]
theorem walkParagraphChildren_images : ∀ (x : List ParagraphChild) (w : List Place), pick imageAt (walkParagraphChildren w x) = pick drawnAt (walkParagraphChildren w x)
  | [], _ => rfl
  | c :: cs, w => by simp only [walkParagraphChildren, pick_append, walkParagraphChild_images c _, walkParagraphChildren_images cs _, List.append_nil]
theorem walkSdtChildren_images : ∀ (x : List SdtChild) (w : List Place), pick imageAt (walkSdtChildren w x) = pick drawnAt (walkSdtChildren w x)
  | [], _ => rfl
  | c :: cs, w => by simp only [walkSdtChildren, pick_append, walkSdtChild_images c _, walkSdtChildren_images cs _, List.append_nil]
theorem walkRows_images : ∀ (x : List Row) (w : List Place), pick imageAt (walkRows w x) = pick drawnAt (walkRows w x)
  | [], _ => rfl
  | c :: cs, w => by simp only [walkRows, pick_append, walkRow_images c _, walkRows_images cs _, List.append_nil]
theorem walkCells_images : ∀ (x : List Cell) (w : List Place), pick imageAt (walkCells w x) = pick drawnAt (walkCells w x)
  | [], _ => rfl
  | c :: cs, w => by simp only [walkCells, pick_append, walkCell_images c _, walkCells_images cs _, List.append_nil]
theorem walkCellContents_images : ∀ (x : List CellContent) (w : List Place), pick imageAt (walkCellContents w x) = pick drawnAt (walkCellContents w x)
  | [], _ => rfl
  | c :: cs, w => by simp only [walkCellContents, pick_append, walkCellContent_images c _, walkCellContents_images cs _, List.append_nil]
theorem walkParagraphs_images : ∀ (x : List Paragraph) (w : List Place), pick imageAt (walkParagraphs w x) = pick drawnAt (walkParagraphs w x)
  | [], _ => rfl
  | c :: cs, w => by simp only [walkParagraphs, pick_append, walkParagraph_images c _, walkParagraphs_images cs _, List.append_nil]
theorem walkRunChild_images : ∀ (x : RunChild) (w : List Place), pick imageAt (walkRunChild w x) = pick drawnAt (walkRunChild w x)
  | .text _, w => by simp only [walkRunChild, pick_cons, pick_nil, imageAt, drawnAt, List.nil_append, List.append_nil]
  | .sym _ _, w => by simp only [walkRunChild, pick_cons, pick_nil, imageAt, drawnAt, List.nil_append, List.append_nil]
  | .deleteText _, w => by simp only [walkRunChild, pick_cons, pick_nil, imageAt, drawnAt, List.nil_append, List.append_nil]
  | .tab, w => by simp only [walkRunChild, pick_cons, pick_nil, imageAt, drawnAt, List.nil_append, List.append_nil]
  | .ptab _, w => by simp only [walkRunChild, pick_cons, pick_nil, imageAt, drawnAt, List.nil_append, List.append_nil]
  | .brk _, w => by simp only [walkRunChild, pick_cons, pick_nil, imageAt, drawnAt, List.nil_append, List.append_nil]
  | .carriageReturn, w => by simp only [walkRunChild, pick_cons, pick_nil, imageAt, drawnAt, List.nil_append, List.append_nil]
  | .picture _, w => by simp only [walkRunChild, pick_cons, pick_nil, imageAt, drawnAt, List.nil_append, List.append_nil]
  | .textBox x, w => by simp only [walkRunChild, pick_cons, imageAt, drawnAt, List.nil_append, walkBlocks_images x _]
  | .emptyDrawing, w => by simp only [walkRunChild, pick_cons, pick_nil, imageAt, drawnAt, List.nil_append, List.append_nil]
  | .shape _, w => by simp only [walkRunChild, pick_cons, pick_nil, imageAt, drawnAt, List.nil_append, List.append_nil]
  | .commentStart _ c, w => by simp only [walkRunChild, pick_cons, imageAt, drawnAt, List.nil_append, walkComment_images c _]
  | .commentEnd _, w => by simp only [walkRunChild, pick_cons, pick_nil, imageAt, drawnAt, List.nil_append, List.append_nil]
  | .fieldChar _ _, w => by simp only [walkRunChild, pick_cons, pick_nil, imageAt, drawnAt, List.nil_append, List.append_nil]
  | .instrText _, w => by simp only [walkRunChild, pick_cons, pick_nil, imageAt, drawnAt, List.nil_append, List.append_nil]
  | .deleteInstrText _, w => by simp only [walkRunChild, pick_cons, pick_nil, imageAt, drawnAt, List.nil_append, List.append_nil]
  | .instrTextString _, w => by simp only [walkRunChild, pick_cons, pick_nil, imageAt, drawnAt, List.nil_append, List.append_nil]
  | .footnoteReference _ _ x, w => by simp only [walkRunChild, pick_cons, imageAt, drawnAt, List.nil_append, walkParagraphs_images x _]
  | .shading _, w => by simp only [walkRunChild, pick_cons, pick_nil, imageAt, drawnAt, List.nil_append, List.append_nil]
theorem walkBlock_images : ∀ (x : Block) (w : List Place), pick imageAt (walkBlock w x) = pick drawnAt (walkBlock w x)
  | .paragraph x, w => by simp only [walkBlock, pick_cons, imageAt, drawnAt, List.nil_append, walkParagraph_images x _]
  | .table x, w => by simp only [walkBlock, pick_cons, imageAt, drawnAt, List.nil_append, walkTable_images x _]
theorem walkDeleteChild_images : ∀ (x : DeleteChild) (w : List Place), pick imageAt (walkDeleteChild w x) = pick drawnAt (walkDeleteChild w x)
  | .run x, w => by simp only [walkDeleteChild, pick_cons, imageAt, drawnAt, List.nil_append, walkRun_images x _]
  | .commentStart _ c, w => by simp only [walkDeleteChild, pick_cons, imageAt, drawnAt, List.nil_append, walkComment_images c _]
  | .commentEnd _, w => by simp only [walkDeleteChild, pick_cons, pick_nil, imageAt, drawnAt, List.nil_append, List.append_nil]
theorem walkInsertChild_images : ∀ (x : InsertChild) (w : List Place), pick imageAt (walkInsertChild w x) = pick drawnAt (walkInsertChild w x)
  | .run x, w => by simp only [walkInsertChild, pick_cons, imageAt, drawnAt, List.nil_append, walkRun_images x _]
  | .delete x, w => by simp only [walkInsertChild, pick_cons, imageAt, drawnAt, List.nil_append, walkDelete_images x _]
  | .commentStart _ c, w => by simp only [walkInsertChild, pick_cons, imageAt, drawnAt, List.nil_append, walkComment_images c _]
  | .commentEnd _, w => by simp only [walkInsertChild, pick_cons, pick_nil, imageAt, drawnAt, List.nil_append, List.append_nil]
theorem walkParagraphChild_images : ∀ (x : ParagraphChild) (w : List Place), pick imageAt (walkParagraphChild w x) = pick drawnAt (walkParagraphChild w x)
  | .run x, w => by simp only [walkParagraphChild, pick_cons, imageAt, drawnAt, List.nil_append, walkRun_images x _]
  | .insert x, w => by simp only [walkParagraphChild, pick_cons, imageAt, drawnAt, List.nil_append, walkInsert_images x _]
  | .delete x, w => by simp only [walkParagraphChild, pick_cons, imageAt, drawnAt, List.nil_append, walkDelete_images x _]
  | .moveFrom x, w => by simp only [walkParagraphChild, pick_cons, imageAt, drawnAt, List.nil_append, walkDelete_images x _]
  | .moveTo x, w => by simp only [walkParagraphChild, pick_cons, imageAt, drawnAt, List.nil_append, walkInsert_images x _]
  | .bookmarkStart _ _, w => by simp only [walkParagraphChild, pick_cons, pick_nil, imageAt, drawnAt, List.nil_append, List.append_nil]
  | .hyperlink x, w => by simp only [walkParagraphChild, pick_cons, imageAt, drawnAt, List.nil_append, walkHyperlink_images x _]
  | .bookmarkEnd _, w => by simp only [walkParagraphChild, pick_cons, pick_nil, imageAt, drawnAt, List.nil_append, List.append_nil]
  | .commentStart _ c, w => by simp only [walkParagraphChild, pick_cons, imageAt, drawnAt, List.nil_append, walkComment_images c _]
  | .commentEnd _, w => by simp only [walkParagraphChild, pick_cons, pick_nil, imageAt, drawnAt, List.nil_append, List.append_nil]
  | .sdt x, w => by simp only [walkParagraphChild, pick_cons, imageAt, drawnAt, List.nil_append, walkSdt_images x _]
  | .pageNum _, w => by simp only [walkParagraphChild, pick_cons, pick_nil, imageAt, drawnAt, List.nil_append, List.append_nil]
  | .numPages _, w => by simp only [walkParagraphChild, pick_cons, pick_nil, imageAt, drawnAt, List.nil_append, List.append_nil]
theorem walkSdtChild_images : ∀ (x : SdtChild) (w : List Place), pick imageAt (walkSdtChild w x) = pick drawnAt (walkSdtChild w x)
  | .run x, w => by simp only [walkSdtChild, pick_cons, imageAt, drawnAt, List.nil_append, walkRun_images x _]
  | .paragraph x, w => by simp only [walkSdtChild, pick_cons, imageAt, drawnAt, List.nil_append, walkParagraph_images x _]
  | .table x, w => by simp only [walkSdtChild, pick_cons, imageAt, drawnAt, List.nil_append, walkTable_images x _]
  | .bookmarkStart _ _, w => by simp only [walkSdtChild, pick_cons, pick_nil, imageAt, drawnAt, List.nil_append, List.append_nil]
  | .bookmarkEnd _, w => by simp only [walkSdtChild, pick_cons, pick_nil, imageAt, drawnAt, List.nil_append, List.append_nil]
  | .commentStart _ c, w => by simp only [walkSdtChild, pick_cons, imageAt, drawnAt, List.nil_append, walkComment_images c _]
  | .commentEnd _, w => by simp only [walkSdtChild, pick_cons, pick_nil, imageAt, drawnAt, List.nil_append, List.append_nil]
  | .sdt x, w => by simp only [walkSdtChild, pick_cons, imageAt, drawnAt, List.nil_append, walkSdt_images x _]
theorem walkCellContent_images : ∀ (x : CellContent) (w : List Place), pick imageAt (walkCellContent w x) = pick drawnAt (walkCellContent w x)
  | .paragraph x, w => by simp only [walkCellContent, pick_cons, imageAt, drawnAt, List.nil_append, walkParagraph_images x _]
  | .table x, w => by simp only [walkCellContent, pick_cons, imageAt, drawnAt, List.nil_append, walkTable_images x _]
  | .sdt x, w => by simp only [walkCellContent, pick_cons, imageAt, drawnAt, List.nil_append, walkSdt_images x _]
  | .toc x, w => by simp only [walkCellContent, pick_cons, imageAt, drawnAt, List.nil_append, walkToc_images x _]
end


theorem walkHeader_images (x : Header) (w : List Place) : pick imageAt (walkHeader w x) = pick drawnAt (walkHeader w x) := by
  simp only [walkHeader, pick_flatMap]
  congr 1
  funext c
  cases c <;> simp only [walkHeaderChild, walkParagraph_images, walkTable_images, walkSdt_images]

theorem walkSectionProperty_images (x : SectionProperty) (w : List Place) :
    pick imageAt (walkSectionProperty w x) = pick drawnAt (walkSectionProperty w x) := by
  simp only [walkSectionProperty, pick_append, pick_flatMap, walkHeader_images]

theorem walkSection_images (x : Section) (w : List Place) : pick imageAt (walkSection w x) = pick drawnAt (walkSection w x) := by
  simp only [walkSection, pick_append, walkSectionProperty_images, pick_flatMap]
  congr 2
  funext c
  cases c <;> simp only [walkSectionChild, walkParagraph_images, walkTable_images, walkSdt_images, walkToc_images,
    walkComment_images, pick_cons, imageAt, drawnAt, pick_nil]

theorem walkDocument_images (d : Document) : pick imageAt (walkDocument d) = pick drawnAt (walkDocument d) := by
  simp only [walkDocument, pick_append, pick_flatMap, walkSectionProperty_images]
  congr 2
  funext c
  cases c <;> simp only [walkDocumentChild, walkParagraph_images, walkTable_images, walkSdt_images, walkToc_images,
    walkComment_images, walkSection_images, pick_cons, imageAt, drawnAt, pick_nil]

end Docx.Spec
