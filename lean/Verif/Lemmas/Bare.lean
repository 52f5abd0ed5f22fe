import Verif.Spec.Bare
import Verif.Lemmas.MediaParts
import Verif.Lemmas.ParaIdsStory

/-!
# Packaging keeps a document up to paragraph ids, picture ids and picture bytes
-/

namespace Docx

set_option linter.unusedSimpArgs false
set_option linter.unusedSectionVars false

open Docx.Spec

theorem visitEach_map {σ α β : Type} (f : α → Visit σ α) (k : α → β) (h : ∀ x s, k (f x s).1 = k x) :
    ∀ (l : List α) (s : σ), (visitEach f l s).1.map k = l.map k
  | [], _ => rfl
  | x :: l, s => by simp only [visitEach, List.map_cons, h, visitEach_map f k h l]

mutual
theorem bareRun_blank : ∀ x : Run, bareRun (blankRun x) = bareRun x
  | ⟨_, cs⟩ => by simp only [blankRun, bareRun, bareRunChildren_blank cs]
theorem bareComment_blank : ∀ x : Comment, bareComment (blankComment x) = bareComment x
  | ⟨_, _, _, cs, _⟩ => by simp only [blankComment, bareComment, bareBlocks_blank cs]
theorem bareDelete_blank : ∀ x : Delete, bareDelete (blankDelete x) = bareDelete x
  | ⟨_, _, cs⟩ => by simp only [blankDelete, bareDelete, bareDeleteChildren_blank cs]
theorem bareInsert_blank : ∀ x : Insert, bareInsert (blankInsert x) = bareInsert x
  | ⟨_, _, cs⟩ => by simp only [blankInsert, bareInsert, bareInsertChildren_blank cs]
theorem bareHyperlink_blank : ∀ x : Hyperlink, bareHyperlink (blankHyperlink x) = bareHyperlink x
  | ⟨_, _, cs⟩ => by simp only [blankHyperlink, bareHyperlink, bareParagraphChildren_blank cs]
theorem bareParagraph_blank : ∀ x : Paragraph, bareParagraph (blankParagraph x) = bareParagraph x
  | ⟨_, cs, _, _⟩ => by simp only [blankParagraph, bareParagraph, bareParagraphChildren_blank cs]
theorem bareSdt_blank : ∀ x : Sdt, bareSdt (blankSdt x) = bareSdt x
  | ⟨cs, _, _⟩ => by simp only [blankSdt, bareSdt, bareSdtChildren_blank cs]
theorem bareTable_blank : ∀ x : Table, bareTable (blankTable x) = bareTable x
  | ⟨cs, _, _, _⟩ => by simp only [blankTable, bareTable, bareRows_blank cs]
theorem bareRow_blank : ∀ x : Row, bareRow (blankRow x) = bareRow x
  | ⟨cs, _, _⟩ => by simp only [blankRow, bareRow, bareCells_blank cs]
theorem bareCell_blank : ∀ x : Cell, bareCell (blankCell x) = bareCell x
  | ⟨cs, _, _⟩ => by simp only [blankCell, bareCell, bareCellContents_blank cs]
theorem bareRunChildren_blank : ∀ x : List RunChild, bareRunChildren (blankRunChildren x) = bareRunChildren x
  | [] => rfl
  | c :: cs => by simp only [blankRunChildren, bareRunChildren, bareRunChild_blank c, bareRunChildren_blank cs]
theorem bareBlocks_blank : ∀ x : List Block, bareBlocks (blankBlocks x) = bareBlocks x
  | [] => rfl
  | c :: cs => by simp only [blankBlocks, bareBlocks, bareBlock_blank c, bareBlocks_blank cs]
theorem bareDeleteChildren_blank : ∀ x : List DeleteChild, bareDeleteChildren (blankDeleteChildren x) = bareDeleteChildren x
  | [] => rfl
  | c :: cs => by simp only [blankDeleteChildren, bareDeleteChildren, bareDeleteChild_blank c, bareDeleteChildren_blank cs]
theorem bareInsertChildren_blank : ∀ x : List InsertChild, bareInsertChildren (blankInsertChildren x) = bareInsertChildren x
  | [] => rfl
  | c :: cs => by simp only [blankInsertChildren, bareInsertChildren, bareInsertChild_blank c, bareInsertChildren_blank cs]
theorem bareParagraphChildren_blank : ∀ x : List ParagraphChild, bareParagraphChildren (blankParagraphChildren x) = bareParagraphChildren x
  | [] => rfl
  | c :: cs => by simp only [blankParagraphChildren, bareParagraphChildren, bareParagraphChild_blank c, bareParagraphChildren_blank cs]
theorem bareSdtChildren_blank : ∀ x : List SdtChild, bareSdtChildren (blankSdtChildren x) = bareSdtChildren x
  | [] => rfl
  | c :: cs => by simp only [blankSdtChildren, bareSdtChildren, bareSdtChild_blank c, bareSdtChildren_blank cs]
theorem bareRows_blank : ∀ x : List Row, bareRows (blankRows x) = bareRows x
  | [] => rfl
  | c :: cs => by simp only [blankRows, bareRows, bareRow_blank c, bareRows_blank cs]
theorem bareCells_blank : ∀ x : List Cell, bareCells (blankCells x) = bareCells x
  | [] => rfl
  | c :: cs => by simp only [blankCells, bareCells, bareCell_blank c, bareCells_blank cs]
theorem bareCellContents_blank : ∀ x : List CellContent, bareCellContents (blankCellContents x) = bareCellContents x
  | [] => rfl
  | c :: cs => by simp only [blankCellContents, bareCellContents, bareCellContent_blank c, bareCellContents_blank cs]
theorem bareRunChild_blank : ∀ x : RunChild, bareRunChild (blankRunChild x) = bareRunChild x
  | .text _ => by simp only [blankRunChild]
  | .sym _ _ => by simp only [blankRunChild]
  | .deleteText _ => by simp only [blankRunChild]
  | .tab => by simp only [blankRunChild]
  | .ptab _ => by simp only [blankRunChild]
  | .brk _ => by simp only [blankRunChild]
  | .carriageReturn => by simp only [blankRunChild]
  | .picture _ => by simp only [blankRunChild]
  | .textBox _ => by simp only [blankRunChild]
  | .emptyDrawing => by simp only [blankRunChild]
  | .shape _ => by simp only [blankRunChild]
  | .commentStart _ x => by simp only [blankRunChild, bareRunChild, bareComment_blank x]
  | .commentEnd _ => by simp only [blankRunChild]
  | .fieldChar _ _ => by simp only [blankRunChild]
  | .instrText _ => by simp only [blankRunChild]
  | .deleteInstrText _ => by simp only [blankRunChild]
  | .instrTextString _ => by simp only [blankRunChild]
  | .footnoteReference _ _ _ => by simp only [blankRunChild]
  | .shading _ => by simp only [blankRunChild]
theorem bareBlock_blank : ∀ x : Block, bareBlock (blankBlock x) = bareBlock x
  | .paragraph x => by simp only [blankBlock, bareBlock, bareParagraph_blank x]
  | .table x => by simp only [blankBlock, bareBlock, bareTable_blank x]
theorem bareDeleteChild_blank : ∀ x : DeleteChild, bareDeleteChild (blankDeleteChild x) = bareDeleteChild x
  | .run x => by simp only [blankDeleteChild, bareDeleteChild, bareRun_blank x]
  | .commentStart _ x => by simp only [blankDeleteChild, bareDeleteChild, bareComment_blank x]
  | .commentEnd _ => by simp only [blankDeleteChild]
theorem bareInsertChild_blank : ∀ x : InsertChild, bareInsertChild (blankInsertChild x) = bareInsertChild x
  | .run x => by simp only [blankInsertChild, bareInsertChild, bareRun_blank x]
  | .delete x => by simp only [blankInsertChild, bareInsertChild, bareDelete_blank x]
  | .commentStart _ x => by simp only [blankInsertChild, bareInsertChild, bareComment_blank x]
  | .commentEnd _ => by simp only [blankInsertChild]
theorem bareParagraphChild_blank : ∀ x : ParagraphChild, bareParagraphChild (blankParagraphChild x) = bareParagraphChild x
  | .run x => by simp only [blankParagraphChild, bareParagraphChild, bareRun_blank x]
  | .insert x => by simp only [blankParagraphChild, bareParagraphChild, bareInsert_blank x]
  | .delete x => by simp only [blankParagraphChild, bareParagraphChild, bareDelete_blank x]
  | .moveFrom x => by simp only [blankParagraphChild, bareParagraphChild, bareDelete_blank x]
  | .moveTo x => by simp only [blankParagraphChild, bareParagraphChild, bareInsert_blank x]
  | .bookmarkStart _ _ => by simp only [blankParagraphChild]
  | .hyperlink x => by simp only [blankParagraphChild, bareParagraphChild, bareHyperlink_blank x]
  | .bookmarkEnd _ => by simp only [blankParagraphChild]
  | .commentStart _ x => by simp only [blankParagraphChild, bareParagraphChild, bareComment_blank x]
  | .commentEnd _ => by simp only [blankParagraphChild]
  | .sdt x => by simp only [blankParagraphChild, bareParagraphChild, bareSdt_blank x]
  | .pageNum _ => by simp only [blankParagraphChild]
  | .numPages _ => by simp only [blankParagraphChild]
theorem bareSdtChild_blank : ∀ x : SdtChild, bareSdtChild (blankSdtChild x) = bareSdtChild x
  | .run x => by simp only [blankSdtChild, bareSdtChild, bareRun_blank x]
  | .paragraph x => by simp only [blankSdtChild, bareSdtChild, bareParagraph_blank x]
  | .table x => by simp only [blankSdtChild, bareSdtChild, bareTable_blank x]
  | .bookmarkStart _ _ => by simp only [blankSdtChild]
  | .bookmarkEnd _ => by simp only [blankSdtChild]
  | .commentStart _ x => by simp only [blankSdtChild, bareSdtChild, bareComment_blank x]
  | .commentEnd _ => by simp only [blankSdtChild]
  | .sdt x => by simp only [blankSdtChild, bareSdtChild, bareSdt_blank x]
theorem bareCellContent_blank : ∀ x : CellContent, bareCellContent (blankCellContent x) = bareCellContent x
  | .paragraph x => by simp only [blankCellContent, bareCellContent, bareParagraph_blank x]
  | .table x => by simp only [blankCellContent, bareCellContent, bareTable_blank x]
  | .sdt x => by simp only [blankCellContent, bareCellContent, bareSdt_blank x]
  | .toc x => by simp only [blankCellContent, bareCellContent, bareToc_blank x]
theorem bareToc_blank : ∀ x : Toc, bareToc (blankToc x) = bareToc x
  | ⟨_, _, _, _, _, _, _, bs, as, _, _⟩ => by simp only [blankToc, bareToc, bareBlocks_blank bs, bareBlocks_blank as]
end

theorem bareHeader_blank (x : Header) : bareHeader (blankHeader x) = bareHeader x := by
  simp only [bareHeader, blankHeader, List.map_map, Header.mk.injEq, true_and, and_true]
  refine List.map_congr_left fun c _ => ?_
  cases c <;> simp only [Function.comp, blankHeaderChild, bareHeaderChild, bareParagraph_blank, bareTable_blank, bareSdt_blank]

theorem barePart_blank (x : Option (Str × Header)) : barePart (blankPart x) = barePart x := by
  cases x <;> simp [barePart, blankPart, bareHeader_blank]

theorem bareSectionProperty_blank (x : SectionProperty) : bareSectionProperty (blankSectionProperty x) = bareSectionProperty x := by
  simp only [bareSectionProperty, blankSectionProperty, barePart_blank]

theorem bareSection_blank (x : Section) : bareSection (blankSection x) = bareSection x := by
  simp only [bareSection, blankSection, List.map_map, bareSectionProperty_blank, Section.mk.injEq, true_and, and_true]
  refine List.map_congr_left fun c _ => ?_
  cases c <;> simp only [Function.comp, blankSectionChild, bareSectionChild, bareParagraph_blank, bareTable_blank, bareSdt_blank,
    bareToc_blank, bareComment_blank]

theorem bareDocument_blank (x : Document) : bareDocument (blankDocument x) = bareDocument x := by
  simp only [bareDocument, blankDocument, List.map_map, bareSectionProperty_blank, Document.mk.injEq, true_and, and_true]
  refine List.map_congr_left fun c _ => ?_
  cases c <;> simp only [Function.comp, blankDocumentChild, bareDocumentChild, bareParagraph_blank, bareTable_blank, bareSdt_blank,
    bareToc_blank, bareComment_blank, bareSection_blank]

section
variable {σ : Type} {v : Visitor σ}
  (hv : ∀ p s, { (v.picture p s).1 with id := [], image := [] } = { p with id := [], image := [] })
include hv

mutual
theorem bareRun_visit : ∀ (x : Run) (s : σ), bareRun (visitRun v x s).1 = bareRun x
  | ⟨_, cs⟩, s => by simp only [visitRun, bareRun, bareRunChildren_visit cs]
theorem bareDelete_visit : ∀ (x : Delete) (s : σ), bareDelete (visitDelete v x s).1 = bareDelete x
  | ⟨_, _, cs⟩, s => by simp only [visitDelete, bareDelete, bareDeleteChildren_visit cs]
theorem bareInsert_visit : ∀ (x : Insert) (s : σ), bareInsert (visitInsert v x s).1 = bareInsert x
  | ⟨_, _, cs⟩, s => by simp only [visitInsert, bareInsert, bareInsertChildren_visit cs]
theorem bareHyperlink_visit : ∀ (x : Hyperlink) (s : σ), bareHyperlink (visitHyperlink v x s).1 = bareHyperlink x
  | ⟨_, _, cs⟩, s => by simp only [visitHyperlink, bareHyperlink, bareParagraphChildren_visit cs]
theorem bareParagraph_visit : ∀ (x : Paragraph) (s : σ), bareParagraph (visitParagraph v x s).1 = bareParagraph x
  | ⟨_, cs, _, _⟩, s => by simp only [visitParagraph, bareParagraph, bareParagraphChildren_visit cs]
theorem bareSdt_visit : ∀ (x : Sdt) (s : σ), bareSdt (visitSdt v x s).1 = bareSdt x
  | ⟨cs, _, _⟩, s => by simp only [visitSdt, bareSdt, bareSdtChildren_visit cs]
theorem bareTable_visit : ∀ (x : Table) (s : σ), bareTable (visitTable v x s).1 = bareTable x
  | ⟨cs, _, _, _⟩, s => by simp only [visitTable, bareTable, bareRows_visit cs]
theorem bareRow_visit : ∀ (x : Row) (s : σ), bareRow (visitRow v x s).1 = bareRow x
  | ⟨cs, _, _⟩, s => by simp only [visitRow, bareRow, bareCells_visit cs]
theorem bareCell_visit : ∀ (x : Cell) (s : σ), bareCell (visitCell v x s).1 = bareCell x
  | ⟨cs, _, _⟩, s => by simp only [visitCell, bareCell, bareCellContents_visit cs]
theorem bareRunChildren_visit : ∀ (x : List RunChild) (s : σ), bareRunChildren (visitRunChildren v x s).1 = bareRunChildren x
  | [], _ => rfl
  | c :: cs, s => by simp only [visitRunChildren, bareRunChildren, bareRunChild_visit c, bareRunChildren_visit cs]
theorem bareBlocks_visit : ∀ (x : List Block) (s : σ), bareBlocks (visitBlocks v x s).1 = bareBlocks x
  | [], _ => rfl
  | c :: cs, s => by simp only [visitBlocks, bareBlocks, bareBlock_visit c, bareBlocks_visit cs]
theorem bareDeleteChildren_visit : ∀ (x : List DeleteChild) (s : σ), bareDeleteChildren (visitDeleteChildren v x s).1 = bareDeleteChildren x
  | [], _ => rfl
  | c :: cs, s => by simp only [visitDeleteChildren, bareDeleteChildren, bareDeleteChild_visit c, bareDeleteChildren_visit cs]
theorem bareInsertChildren_visit : ∀ (x : List InsertChild) (s : σ), bareInsertChildren (visitInsertChildren v x s).1 = bareInsertChildren x
  | [], _ => rfl
  | c :: cs, s => by simp only [visitInsertChildren, bareInsertChildren, bareInsertChild_visit c, bareInsertChildren_visit cs]
theorem bareParagraphChildren_visit : ∀ (x : List ParagraphChild) (s : σ), bareParagraphChildren (visitParagraphChildren v x s).1 = bareParagraphChildren x
  | [], _ => rfl
  | c :: cs, s => by simp only [visitParagraphChildren, bareParagraphChildren, bareParagraphChild_visit c, bareParagraphChildren_visit cs]
theorem bareSdtChildren_visit : ∀ (x : List SdtChild) (s : σ), bareSdtChildren (visitSdtChildren v x s).1 = bareSdtChildren x
  | [], _ => rfl
  | c :: cs, s => by simp only [visitSdtChildren, bareSdtChildren, bareSdtChild_visit c, bareSdtChildren_visit cs]
theorem bareRows_visit : ∀ (x : List Row) (s : σ), bareRows (visitRows v x s).1 = bareRows x
  | [], _ => rfl
  | c :: cs, s => by simp only [visitRows, bareRows, bareRow_visit c, bareRows_visit cs]
theorem bareCells_visit : ∀ (x : List Cell) (s : σ), bareCells (visitCells v x s).1 = bareCells x
  | [], _ => rfl
  | c :: cs, s => by simp only [visitCells, bareCells, bareCell_visit c, bareCells_visit cs]
theorem bareCellContents_visit : ∀ (x : List CellContent) (s : σ), bareCellContents (visitCellContents v x s).1 = bareCellContents x
  | [], _ => rfl
  | c :: cs, s => by simp only [visitCellContents, bareCellContents, bareCellContent_visit c, bareCellContents_visit cs]
theorem bareRunChild_visit : ∀ (x : RunChild) (s : σ), bareRunChild (visitRunChild v x s).1 = bareRunChild x
  | .text _, s => by simp only [visitRunChild]
  | .sym _ _, s => by simp only [visitRunChild]
  | .deleteText _, s => by simp only [visitRunChild]
  | .tab, s => by simp only [visitRunChild]
  | .ptab _, s => by simp only [visitRunChild]
  | .brk _, s => by simp only [visitRunChild]
  | .carriageReturn, s => by simp only [visitRunChild]
  | .picture _, s => by simp only [visitRunChild, bareRunChild, hv]
  | .textBox _, s => by simp only [visitRunChild]
  | .emptyDrawing, s => by simp only [visitRunChild]
  | .shape _, s => by simp only [visitRunChild]
  | .commentStart _ _, s => by simp only [visitRunChild]
  | .commentEnd _, s => by simp only [visitRunChild]
  | .fieldChar _ _, s => by simp only [visitRunChild]
  | .instrText _, s => by simp only [visitRunChild]
  | .deleteInstrText _, s => by simp only [visitRunChild]
  | .instrTextString _, s => by simp only [visitRunChild]
  | .footnoteReference _ _ _, s => by simp only [visitRunChild]
  | .shading _, s => by simp only [visitRunChild]
theorem bareBlock_visit : ∀ (x : Block) (s : σ), bareBlock (visitBlock v x s).1 = bareBlock x
  | .paragraph x, s => by simp only [visitBlock, bareBlock, bareParagraph_visit x]
  | .table x, s => by simp only [visitBlock, bareBlock, bareTable_visit x]
theorem bareDeleteChild_visit : ∀ (x : DeleteChild) (s : σ), bareDeleteChild (visitDeleteChild v x s).1 = bareDeleteChild x
  | .run x, s => by simp only [visitDeleteChild, bareDeleteChild, bareRun_visit x]
  | .commentStart _ _, s => by simp only [visitDeleteChild]
  | .commentEnd _, s => by simp only [visitDeleteChild]
theorem bareInsertChild_visit : ∀ (x : InsertChild) (s : σ), bareInsertChild (visitInsertChild v x s).1 = bareInsertChild x
  | .run x, s => by simp only [visitInsertChild, bareInsertChild, bareRun_visit x]
  | .delete x, s => by simp only [visitInsertChild, bareInsertChild, bareDelete_visit x]
  | .commentStart _ _, s => by simp only [visitInsertChild]
  | .commentEnd _, s => by simp only [visitInsertChild]
theorem bareParagraphChild_visit : ∀ (x : ParagraphChild) (s : σ), bareParagraphChild (visitParagraphChild v x s).1 = bareParagraphChild x
  | .run x, s => by simp only [visitParagraphChild, bareParagraphChild, bareRun_visit x]
  | .insert x, s => by simp only [visitParagraphChild, bareParagraphChild, bareInsert_visit x]
  | .delete x, s => by simp only [visitParagraphChild, bareParagraphChild, bareDelete_visit x]
  | .moveFrom x, s => by simp only [visitParagraphChild, bareParagraphChild, bareDelete_visit x]
  | .moveTo x, s => by simp only [visitParagraphChild, bareParagraphChild, bareInsert_visit x]
  | .bookmarkStart _ _, s => by simp only [visitParagraphChild]
  | .hyperlink x, s => by simp only [visitParagraphChild, bareParagraphChild, bareHyperlink_visit x]
  | .bookmarkEnd _, s => by simp only [visitParagraphChild]
  | .commentStart _ _, s => by simp only [visitParagraphChild]
  | .commentEnd _, s => by simp only [visitParagraphChild]
  | .sdt x, s => by simp only [visitParagraphChild, bareParagraphChild, bareSdt_visit x]
  | .pageNum _, s => by simp only [visitParagraphChild]
  | .numPages _, s => by simp only [visitParagraphChild]
theorem bareSdtChild_visit : ∀ (x : SdtChild) (s : σ), bareSdtChild (visitSdtChild v x s).1 = bareSdtChild x
  | .run x, s => by simp only [visitSdtChild, bareSdtChild, bareRun_visit x]
  | .paragraph x, s => by simp only [visitSdtChild, bareSdtChild, bareParagraph_visit x]
  | .table x, s => by simp only [visitSdtChild, bareSdtChild, bareTable_visit x]
  | .bookmarkStart _ _, s => by simp only [visitSdtChild]
  | .bookmarkEnd _, s => by simp only [visitSdtChild]
  | .commentStart _ _, s => by simp only [visitSdtChild]
  | .commentEnd _, s => by simp only [visitSdtChild]
  | .sdt x, s => by simp only [visitSdtChild, bareSdtChild, bareSdt_visit x]
theorem bareCellContent_visit : ∀ (x : CellContent) (s : σ), bareCellContent (visitCellContent v x s).1 = bareCellContent x
  | .paragraph x, s => by simp only [visitCellContent, bareCellContent, bareParagraph_visit x]
  | .table x, s => by simp only [visitCellContent, bareCellContent, bareTable_visit x]
  | .sdt x, s => by simp only [visitCellContent, bareCellContent, bareSdt_visit x]
  | .toc x, s => by simp only [visitCellContent, bareCellContent, bareToc_visit x]
theorem bareToc_visit : ∀ (x : Toc) (s : σ), bareToc (visitToc v x s).1 = bareToc x
  | ⟨_, _, _, _, _, _, _, bs, as, _, _⟩, s => by simp only [visitToc, bareToc, bareBlocks_visit bs, bareBlocks_visit as]
end

theorem bareHeader_visit (x : Header) (s : σ) : bareHeader (visitHeader v x s).1 = bareHeader x := by
  simp only [bareHeader, visitHeader, Header.mk.injEq, true_and, and_true]
  refine visitEach_map _ _ (fun c s => ?_) _ _
  cases c <;> simp only [visitHeaderChild, bareHeaderChild, bareParagraph_visit hv, bareTable_visit hv, bareSdt_visit hv]

theorem bareSection_visit (x : Section) (s : σ) : bareSection (visitSection v x s).1 = bareSection x := by
  simp only [bareSection, visitSection, Section.mk.injEq, true_and, and_true]
  refine visitEach_map _ _ (fun c s => ?_) _ _
  cases c <;> simp only [visitSectionChild, bareSectionChild, bareParagraph_visit hv, bareTable_visit hv, bareSdt_visit hv,
    bareToc_visit hv]

theorem bareDocument_visit (x : Document) (s : σ) : bareDocument (visitDocument v x s).1 = bareDocument x := by
  simp only [bareDocument, visitDocument, Document.mk.injEq, true_and, and_true]
  refine visitEach_map _ _ (fun c s => ?_) _ _
  cases c <;> simp only [visitDocumentChild, bareDocumentChild, bareParagraph_visit hv, bareTable_visit hv, bareSdt_visit hv,
    bareToc_visit hv, bareSection_visit hv]

end

theorem barePart_visit {σ : Type} {f : Header → Visit σ Header} (hf : ∀ h s, bareHeader (f h s).1 = bareHeader h)
    (x : Option (Str × Header)) (s : σ) : barePart (visitPart f x s).1 = barePart x := by
  rcases x with _ | ⟨i, h⟩ <;> simp [barePart, visitPart, hf]

theorem bareHeaders_visit {σ : Type} {f : Header → Visit σ Header} (hf : ∀ h s, bareHeader (f h s).1 = bareHeader h)
    (x : SectionProperty) (s : σ) : bareSectionProperty (visitHeadersOfProperty f x s).1 = bareSectionProperty x := by
  simp only [bareSectionProperty, visitHeadersOfProperty, barePart_visit hf]

theorem bareFooters_visit {σ : Type} {f : Header → Visit σ Header} (hf : ∀ h s, bareHeader (f h s).1 = bareHeader h)
    (x : SectionProperty) (s : σ) : bareSectionProperty (visitFootersOfProperty f x s).1 = bareSectionProperty x := by
  simp only [bareSectionProperty, visitFootersOfProperty, barePart_visit hf]

theorem bareParts_visit {σ : Type} {f : SectionProperty → Visit σ SectionProperty}
    (hf : ∀ h s, bareSectionProperty (f h s).1 = bareSectionProperty h) (x : Document) (s : σ) :
    bareDocument (visitParts f x s).1 = bareDocument x := by
  simp only [bareDocument, visitParts, hf, Document.mk.injEq, true_and, and_true]
  refine visitEach_map _ _ (fun c s => ?_) _ _
  cases c <;> simp only [visitSectionProperties, bareDocumentChild, bareSection, hf]

theorem collector_bare (crc : Bytes → Nat) (p : Pic) (c : Collector) :
    { ((Collector.visitor crc).picture p c).1 with id := [], image := [] } = { p with id := [], image := [] } := by
  simp only [Collector.visitor, Collector.visitPicture]
  split <;> rfl

theorem collectHeaderImages_bare (crc : Bytes → Nat) (pfx : Str) (h : Header) (s) :
    bareHeader (collectHeaderImages crc pfx h s).1 = bareHeader h := by
  simp only [collectHeaderImages, collectHeaderPart]
  exact bareHeader_visit (collector_bare crc) _ _

/-- Collecting the images changes picture ids and bytes only. -/
theorem collectImages_bare (crc : Bytes → Nat) (d : Document) :
    bareDocument (collectImages crc d).document = bareDocument d := by
  simp only [collectImages]
  rw [bareParts_visit (bareFooters_visit (collectHeaderImages_bare crc _)),
    bareParts_visit (bareHeaders_visit (collectHeaderImages_bare crc _)), collectDocumentPart]
  exact bareDocument_visit (collector_bare crc) _ _

end Docx
