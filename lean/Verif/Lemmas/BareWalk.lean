import Verif.Lemmas.BlankWalk
import Verif.Spec.Bare

/-!
# The walk over a document whose paragraph ids, picture ids and picture bytes are removed
-/

namespace Docx

open Docx.Spec

section
variable {α : Type} {k : List Place → Item → List α} (hk : ∀ w i, k w (bareItem i) = k w i)
include hk

mutual
theorem walkRun_bare : ∀ (x : Run) (w : List Place), pick k (walkRun w (bareRun x)) = pick k (walkRun w x)
  | ⟨pr, cs⟩, w => by
    have h0 := hk w (.run ⟨pr, cs⟩)
    simp only [bareItem, bareRun] at h0
    simp only [walkRun, bareRun, pick_cons, h0, walkRunChildren_bare cs]
theorem walkComment_bare : ∀ (x : Comment) (w : List Place), pick k (walkComment w (bareComment x)) = pick k (walkComment w x)
  | ⟨_, _, _, cs, _⟩, w => by simp only [walkComment, bareComment, walkBlocks_bare cs]
theorem walkDelete_bare : ∀ (x : Delete) (w : List Place), pick k (walkDelete w (bareDelete x)) = pick k (walkDelete w x)
  | ⟨_, _, cs⟩, w => by simp only [walkDelete, bareDelete, walkDeleteChildren_bare cs]
theorem walkInsert_bare : ∀ (x : Insert) (w : List Place), pick k (walkInsert w (bareInsert x)) = pick k (walkInsert w x)
  | ⟨_, _, cs⟩, w => by simp only [walkInsert, bareInsert, walkInsertChildren_bare cs]
theorem walkHyperlink_bare : ∀ (x : Hyperlink) (w : List Place), pick k (walkHyperlink w (bareHyperlink x)) = pick k (walkHyperlink w x)
  | ⟨l, h, cs⟩, w => by
    have h0 := hk w (.hyperlink ⟨l, h, cs⟩)
    simp only [bareItem, bareHyperlink] at h0
    simp only [walkHyperlink, bareHyperlink, pick_cons, h0, walkParagraphChildren_bare cs]
theorem walkParagraph_bare : ∀ (x : Paragraph) (w : List Place), pick k (walkParagraph w (bareParagraph x)) = pick k (walkParagraph w x)
  | ⟨i, cs, pr, n⟩, w => by
    have h0 := hk w (.paragraph ⟨i, cs, pr, n⟩)
    simp only [bareItem, bareParagraph] at h0
    simp only [walkParagraph, bareParagraph, pick_cons, h0, walkParagraphChildren_bare cs]
theorem walkSdt_bare : ∀ (x : Sdt) (w : List Place), pick k (walkSdt w (bareSdt x)) = pick k (walkSdt w x)
  | ⟨cs, pr, n⟩, w => by
    have h0 := hk w (.sdt ⟨cs, pr, n⟩)
    simp only [bareItem, bareSdt] at h0
    simp only [walkSdt, bareSdt, pick_cons, h0, walkSdtChildren_bare cs]
theorem walkTable_bare : ∀ (x : Table) (w : List Place), pick k (walkTable w (bareTable x)) = pick k (walkTable w x)
  | ⟨cs, g, n, pr⟩, w => by
    have h0 := hk w (.table ⟨cs, g, n, pr⟩)
    simp only [bareItem, bareTable] at h0
    simp only [walkTable, bareTable, pick_cons, h0, walkRows_bare cs]
theorem walkRow_bare : ∀ (x : Row) (w : List Place), pick k (walkRow w (bareRow x)) = pick k (walkRow w x)
  | ⟨cs, _, _⟩, w => by simp only [walkRow, bareRow, walkCells_bare cs]
theorem walkCell_bare : ∀ (x : Cell) (w : List Place), pick k (walkCell w (bareCell x)) = pick k (walkCell w x)
  | ⟨cs, pr, n⟩, w => by
    have h0 := hk w (.cell ⟨cs, pr, n⟩)
    simp only [bareItem, bareCell] at h0
    simp only [walkCell, bareCell, pick_cons, h0, walkCellContents_bare cs]
theorem walkRunChildren_bare : ∀ (x : List RunChild) (w : List Place), pick k (walkRunChildren w (bareRunChildren x)) = pick k (walkRunChildren w x)
  | [], _ => rfl
  | c :: cs, w => by simp only [walkRunChildren, bareRunChildren, pick_append, walkRunChild_bare c, walkRunChildren_bare cs]
theorem walkBlocks_bare : ∀ (x : List Block) (w : List Place), pick k (walkBlocks w (bareBlocks x)) = pick k (walkBlocks w x)
  | [], _ => rfl
  | c :: cs, w => by simp only [walkBlocks, bareBlocks, pick_append, walkBlock_bare c, walkBlocks_bare cs]
theorem walkDeleteChildren_bare : ∀ (x : List DeleteChild) (w : List Place), pick k (walkDeleteChildren w (bareDeleteChildren x)) = pick k (walkDeleteChildren w x)
  | [], _ => rfl
  | c :: cs, w => by simp only [walkDeleteChildren, bareDeleteChildren, pick_append, walkDeleteChild_bare c, walkDeleteChildren_bare cs]
theorem walkInsertChildren_bare : ∀ (x : List InsertChild) (w : List Place), pick k (walkInsertChildren w (bareInsertChildren x)) = pick k (walkInsertChildren w x)
  | [], _ => rfl
  | c :: cs, w => by simp only [walkInsertChildren, bareInsertChildren, pick_append, walkInsertChild_bare c, walkInsertChildren_bare cs]
theorem walkParagraphChildren_bare : ∀ (x : List ParagraphChild) (w : List Place), pick k (walkParagraphChildren w (bareParagraphChildren x)) = pick k (walkParagraphChildren w x)
  | [], _ => rfl
  | c :: cs, w => by simp only [walkParagraphChildren, bareParagraphChildren, pick_append, walkParagraphChild_bare c, walkParagraphChildren_bare cs]
theorem walkSdtChildren_bare : ∀ (x : List SdtChild) (w : List Place), pick k (walkSdtChildren w (bareSdtChildren x)) = pick k (walkSdtChildren w x)
  | [], _ => rfl
  | c :: cs, w => by simp only [walkSdtChildren, bareSdtChildren, pick_append, walkSdtChild_bare c, walkSdtChildren_bare cs]
theorem walkRows_bare : ∀ (x : List Row) (w : List Place), pick k (walkRows w (bareRows x)) = pick k (walkRows w x)
  | [], _ => rfl
  | c :: cs, w => by simp only [walkRows, bareRows, pick_append, walkRow_bare c, walkRows_bare cs]
theorem walkCells_bare : ∀ (x : List Cell) (w : List Place), pick k (walkCells w (bareCells x)) = pick k (walkCells w x)
  | [], _ => rfl
  | c :: cs, w => by simp only [walkCells, bareCells, pick_append, walkCell_bare c, walkCells_bare cs]
theorem walkCellContents_bare : ∀ (x : List CellContent) (w : List Place), pick k (walkCellContents w (bareCellContents x)) = pick k (walkCellContents w x)
  | [], _ => rfl
  | c :: cs, w => by simp only [walkCellContents, bareCellContents, pick_append, walkCellContent_bare c, walkCellContents_bare cs]
theorem walkRunChild_bare : ∀ (x : RunChild) (w : List Place), pick k (walkRunChild w (bareRunChild x)) = pick k (walkRunChild w x)
  | .text _, _ => by simp only [bareRunChild]
  | .sym _ _, _ => by simp only [bareRunChild]
  | .deleteText _, _ => by simp only [bareRunChild]
  | .tab, _ => by simp only [bareRunChild]
  | .ptab _, _ => by simp only [bareRunChild]
  | .brk _, _ => by simp only [bareRunChild]
  | .carriageReturn, _ => by simp only [bareRunChild]
  | .picture p, w => by
    have h0 := hk w (.runChild (.picture p))
    have h1 := hk w (.picture p)
    simp only [bareItem, bareRunChild] at h0 h1
    simp only [walkRunChild, bareRunChild, pick_cons, h0, h1]
  | .textBox _, _ => by simp only [bareRunChild]
  | .emptyDrawing, _ => by simp only [bareRunChild]
  | .shape _, _ => by simp only [bareRunChild]
  | .commentStart i c, w => by
    have h0 := hk w (.runChild (.commentStart i c))
    have h1 := hk w (.comment i c)
    simp only [bareItem, bareRunChild] at h0 h1
    simp only [walkRunChild, bareRunChild, pick_cons, h0, h1, walkComment_bare c]
  | .commentEnd _, _ => by simp only [bareRunChild]
  | .fieldChar _ _, _ => by simp only [bareRunChild]
  | .instrText _, _ => by simp only [bareRunChild]
  | .deleteInstrText _, _ => by simp only [bareRunChild]
  | .instrTextString _, _ => by simp only [bareRunChild]
  | .footnoteReference _ _ _, _ => by simp only [bareRunChild]
  | .shading _, _ => by simp only [bareRunChild]
theorem walkBlock_bare : ∀ (x : Block) (w : List Place), pick k (walkBlock w (bareBlock x)) = pick k (walkBlock w x)
  | .paragraph x, w => by simp only [walkBlock, bareBlock, walkParagraph_bare x]
  | .table x, w => by simp only [walkBlock, bareBlock, walkTable_bare x]
theorem walkDeleteChild_bare : ∀ (x : DeleteChild) (w : List Place), pick k (walkDeleteChild w (bareDeleteChild x)) = pick k (walkDeleteChild w x)
  | .run x, w => by simp only [walkDeleteChild, bareDeleteChild, walkRun_bare x]
  | .commentStart i c, w => by
    have h1 := hk w (.comment i c)
    simp only [bareItem] at h1
    simp only [walkDeleteChild, bareDeleteChild, pick_cons, h1, walkComment_bare c]
  | .commentEnd _, _ => by simp only [bareDeleteChild]
theorem walkInsertChild_bare : ∀ (x : InsertChild) (w : List Place), pick k (walkInsertChild w (bareInsertChild x)) = pick k (walkInsertChild w x)
  | .run x, w => by simp only [walkInsertChild, bareInsertChild, walkRun_bare x]
  | .delete x, w => by simp only [walkInsertChild, bareInsertChild, walkDelete_bare x]
  | .commentStart i c, w => by
    have h1 := hk w (.comment i c)
    simp only [bareItem] at h1
    simp only [walkInsertChild, bareInsertChild, pick_cons, h1, walkComment_bare c]
  | .commentEnd _, _ => by simp only [bareInsertChild]
theorem walkParagraphChild_bare : ∀ (x : ParagraphChild) (w : List Place), pick k (walkParagraphChild w (bareParagraphChild x)) = pick k (walkParagraphChild w x)
  | .run x, w => by simp only [walkParagraphChild, bareParagraphChild, walkRun_bare x]
  | .insert x, w => by simp only [walkParagraphChild, bareParagraphChild, walkInsert_bare x]
  | .delete x, w => by simp only [walkParagraphChild, bareParagraphChild, walkDelete_bare x]
  | .moveFrom x, w => by simp only [walkParagraphChild, bareParagraphChild, walkDelete_bare x]
  | .moveTo x, w => by simp only [walkParagraphChild, bareParagraphChild, walkInsert_bare x]
  | .bookmarkStart _ _, _ => by simp only [bareParagraphChild]
  | .hyperlink x, w => by simp only [walkParagraphChild, bareParagraphChild, walkHyperlink_bare x]
  | .bookmarkEnd _, _ => by simp only [bareParagraphChild]
  | .commentStart i c, w => by
    have h1 := hk w (.comment i c)
    simp only [bareItem] at h1
    simp only [walkParagraphChild, bareParagraphChild, pick_cons, h1, walkComment_bare c]
  | .commentEnd _, _ => by simp only [bareParagraphChild]
  | .sdt x, w => by simp only [walkParagraphChild, bareParagraphChild, walkSdt_bare x]
  | .pageNum _, _ => by simp only [bareParagraphChild]
  | .numPages _, _ => by simp only [bareParagraphChild]
theorem walkSdtChild_bare : ∀ (x : SdtChild) (w : List Place), pick k (walkSdtChild w (bareSdtChild x)) = pick k (walkSdtChild w x)
  | .run x, w => by simp only [walkSdtChild, bareSdtChild, walkRun_bare x]
  | .paragraph x, w => by simp only [walkSdtChild, bareSdtChild, walkParagraph_bare x]
  | .table x, w => by simp only [walkSdtChild, bareSdtChild, walkTable_bare x]
  | .bookmarkStart _ _, _ => by simp only [bareSdtChild]
  | .bookmarkEnd _, _ => by simp only [bareSdtChild]
  | .commentStart i c, w => by
    have h1 := hk w (.comment i c)
    simp only [bareItem] at h1
    simp only [walkSdtChild, bareSdtChild, pick_cons, h1, walkComment_bare c]
  | .commentEnd _, _ => by simp only [bareSdtChild]
  | .sdt x, w => by simp only [walkSdtChild, bareSdtChild, walkSdt_bare x]
theorem walkCellContent_bare : ∀ (x : CellContent) (w : List Place), pick k (walkCellContent w (bareCellContent x)) = pick k (walkCellContent w x)
  | .paragraph x, w => by simp only [walkCellContent, bareCellContent, walkParagraph_bare x]
  | .table x, w => by simp only [walkCellContent, bareCellContent, walkTable_bare x]
  | .sdt x, w => by simp only [walkCellContent, bareCellContent, walkSdt_bare x]
  | .toc x, w => by simp only [walkCellContent, bareCellContent, walkToc_bare x]
theorem walkToc_bare : ∀ (x : Toc) (w : List Place), pick k (walkToc w (bareToc x)) = pick k (walkToc w x)
  | ⟨a, b, c, d, e, f, g, bs, as, i, j⟩, w => by
    have h0 := hk w (.toc ⟨a, b, c, d, e, f, g, bs, as, i, j⟩)
    simp only [bareItem, bareToc] at h0
    simp only [walkToc, bareToc, pick_cons, pick_append, h0, walkBlocks_bare bs, walkBlocks_bare as]
end

theorem walkHeader_bare (x : Header) (w : List Place) : pick k (walkHeader w (bareHeader x)) = pick k (walkHeader w x) := by
  simp only [walkHeader, bareHeader, pick_flatMap, List.flatMap_map]
  congr 1
  funext c
  cases c <;> simp only [walkHeaderChild, bareHeaderChild, walkParagraph_bare hk, walkTable_bare hk, walkSdt_bare hk]

theorem walkPart_bare (x : Option (Str × Header)) (w : List Place) :
    ((barePart x).toList.flatMap fun y => pick k (walkHeader w y.2)) = x.toList.flatMap fun y => pick k (walkHeader w y.2) := by
  cases x <;> simp [barePart, walkHeader_bare hk]

theorem walkSectionProperty_bare (x : SectionProperty) (w : List Place) :
    pick k (walkSectionProperty w (bareSectionProperty x)) = pick k (walkSectionProperty w x) := by
  simp only [walkSectionProperty, bareSectionProperty, pick_append, pick_flatMap, flatMap_filterMap_id, walkPart_bare hk]

theorem walkSection_bare (x : Section) (w : List Place) : pick k (walkSection w (bareSection x)) = pick k (walkSection w x) := by
  simp only [walkSection, bareSection, pick_append, walkSectionProperty_bare hk, pick_flatMap, List.flatMap_map]
  congr 1
  congr 1
  funext c
  cases c with
  | commentStart i c =>
    have h1 := hk (.section :: w) (.comment i c)
    simp only [bareItem] at h1
    simp only [walkSectionChild, bareSectionChild, pick_cons, h1, walkComment_bare hk]
  | _ => simp only [walkSectionChild, bareSectionChild, walkParagraph_bare hk, walkTable_bare hk, walkSdt_bare hk,
      walkToc_bare hk]

theorem walkDocument_bare (x : Document) : pick k (walkDocument (bareDocument x)) = pick k (walkDocument x) := by
  simp only [walkDocument, bareDocument, pick_append, walkSectionProperty_bare hk, pick_flatMap, List.flatMap_map]
  congr 1
  congr 1
  funext c
  cases c with
  | commentStart i c =>
    have h1 := hk [.document] (.comment i c)
    simp only [bareItem] at h1
    simp only [walkDocumentChild, bareDocumentChild, pick_cons, h1, walkComment_bare hk]
  | _ => simp only [walkDocumentChild, bareDocumentChild, walkParagraph_bare hk, walkTable_bare hk, walkSdt_bare hk,
      walkToc_bare hk, walkSection_bare hk]

end

end Docx
