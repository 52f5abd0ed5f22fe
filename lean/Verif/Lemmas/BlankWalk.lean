import Verif.Spec.Pictures
import Verif.Spec.BlankIds

/-!
# The walk over a document whose paragraph ids are removed
-/

namespace Docx

open Docx.Spec

/-- What `k` says about the items of a walk, in order. -/
def pick {α : Type} (k : List Place → Item → List α) (l : Walk) : List α := l.flatMap fun x => k x.1 x.2

theorem pick_cons {α : Type} (k : List Place → Item → List α) (w : List Place) (i : Item) (l : Walk) :
    pick k ((w, i) :: l) = k w i ++ pick k l := by simp [pick]

theorem pick_append {α : Type} (k : List Place → Item → List α) (a b : Walk) :
    pick k (a ++ b) = pick k a ++ pick k b := by simp [pick]

theorem pick_flatMap {α β : Type} (k : List Place → Item → List α) (l : List β) (f : β → Walk) :
    pick k (l.flatMap f) = l.flatMap fun x => pick k (f x) := by
  induction l with
  | nil => rfl
  | cons x l ih => simp [pick_append, ih]

theorem flatMap_filterMap_id {β γ : Type} (a b c : Option β) (f : β → List γ) :
    ([a, b, c].filterMap id).flatMap f = a.toList.flatMap f ++ b.toList.flatMap f ++ c.toList.flatMap f := by
  cases a <;> cases b <;> cases c <;> simp

/-- An item without paragraph ids. -/
def blankItem : Item → Item
  | .paragraph p => .paragraph (blankParagraph p)
  | .table t => .table (blankTable t)
  | .cell c => .cell (blankCell c)
  | .run r => .run (blankRun r)
  | .runChild c => .runChild (blankRunChild c)
  | .hyperlink h => .hyperlink (blankHyperlink h)
  | .sdt s => .sdt (blankSdt s)
  | .toc t => .toc (blankToc t)
  | .comment i c => .comment i (blankComment c)
  | .footnote i ps => .footnote i ps
  | .picture p => .picture p

section
variable {α : Type} {k : List Place → Item → List α} (hk : ∀ w i, k w (blankItem i) = k w i)
include hk

mutual
theorem walkRun_blank : ∀ (x : Run) (w : List Place), pick k (walkRun w (blankRun x)) = pick k (walkRun w x)
  | ⟨pr, cs⟩, w => by
    have h0 := hk w (.run ⟨pr, cs⟩)
    simp only [blankItem, blankRun] at h0
    simp only [walkRun, blankRun, pick_cons, h0, walkRunChildren_blank cs]
theorem walkComment_blank : ∀ (x : Comment) (w : List Place), pick k (walkComment w (blankComment x)) = pick k (walkComment w x)
  | ⟨_, _, _, cs, _⟩, w => by simp only [walkComment, blankComment, walkBlocks_blank cs]
theorem walkDelete_blank : ∀ (x : Delete) (w : List Place), pick k (walkDelete w (blankDelete x)) = pick k (walkDelete w x)
  | ⟨_, _, cs⟩, w => by simp only [walkDelete, blankDelete, walkDeleteChildren_blank cs]
theorem walkInsert_blank : ∀ (x : Insert) (w : List Place), pick k (walkInsert w (blankInsert x)) = pick k (walkInsert w x)
  | ⟨_, _, cs⟩, w => by simp only [walkInsert, blankInsert, walkInsertChildren_blank cs]
theorem walkHyperlink_blank : ∀ (x : Hyperlink) (w : List Place), pick k (walkHyperlink w (blankHyperlink x)) = pick k (walkHyperlink w x)
  | ⟨l, h, cs⟩, w => by
    have h0 := hk w (.hyperlink ⟨l, h, cs⟩)
    simp only [blankItem, blankHyperlink] at h0
    simp only [walkHyperlink, blankHyperlink, pick_cons, h0, walkParagraphChildren_blank cs]
theorem walkParagraph_blank : ∀ (x : Paragraph) (w : List Place), pick k (walkParagraph w (blankParagraph x)) = pick k (walkParagraph w x)
  | ⟨i, cs, pr, n⟩, w => by
    have h0 := hk w (.paragraph ⟨i, cs, pr, n⟩)
    simp only [blankItem, blankParagraph] at h0
    simp only [walkParagraph, blankParagraph, pick_cons, h0, walkParagraphChildren_blank cs]
theorem walkSdt_blank : ∀ (x : Sdt) (w : List Place), pick k (walkSdt w (blankSdt x)) = pick k (walkSdt w x)
  | ⟨cs, pr, n⟩, w => by
    have h0 := hk w (.sdt ⟨cs, pr, n⟩)
    simp only [blankItem, blankSdt] at h0
    simp only [walkSdt, blankSdt, pick_cons, h0, walkSdtChildren_blank cs]
theorem walkTable_blank : ∀ (x : Table) (w : List Place), pick k (walkTable w (blankTable x)) = pick k (walkTable w x)
  | ⟨cs, g, n, pr⟩, w => by
    have h0 := hk w (.table ⟨cs, g, n, pr⟩)
    simp only [blankItem, blankTable] at h0
    simp only [walkTable, blankTable, pick_cons, h0, walkRows_blank cs]
theorem walkRow_blank : ∀ (x : Row) (w : List Place), pick k (walkRow w (blankRow x)) = pick k (walkRow w x)
  | ⟨cs, _, _⟩, w => by simp only [walkRow, blankRow, walkCells_blank cs]
theorem walkCell_blank : ∀ (x : Cell) (w : List Place), pick k (walkCell w (blankCell x)) = pick k (walkCell w x)
  | ⟨cs, pr, n⟩, w => by
    have h0 := hk w (.cell ⟨cs, pr, n⟩)
    simp only [blankItem, blankCell] at h0
    simp only [walkCell, blankCell, pick_cons, h0, walkCellContents_blank cs]
theorem walkRunChildren_blank : ∀ (x : List RunChild) (w : List Place), pick k (walkRunChildren w (blankRunChildren x)) = pick k (walkRunChildren w x)
  | [], _ => rfl
  | c :: cs, w => by simp only [walkRunChildren, blankRunChildren, pick_append, walkRunChild_blank c, walkRunChildren_blank cs]
theorem walkBlocks_blank : ∀ (x : List Block) (w : List Place), pick k (walkBlocks w (blankBlocks x)) = pick k (walkBlocks w x)
  | [], _ => rfl
  | c :: cs, w => by simp only [walkBlocks, blankBlocks, pick_append, walkBlock_blank c, walkBlocks_blank cs]
theorem walkDeleteChildren_blank : ∀ (x : List DeleteChild) (w : List Place), pick k (walkDeleteChildren w (blankDeleteChildren x)) = pick k (walkDeleteChildren w x)
  | [], _ => rfl
  | c :: cs, w => by simp only [walkDeleteChildren, blankDeleteChildren, pick_append, walkDeleteChild_blank c, walkDeleteChildren_blank cs]
theorem walkInsertChildren_blank : ∀ (x : List InsertChild) (w : List Place), pick k (walkInsertChildren w (blankInsertChildren x)) = pick k (walkInsertChildren w x)
  | [], _ => rfl
  | c :: cs, w => by simp only [walkInsertChildren, blankInsertChildren, pick_append, walkInsertChild_blank c, walkInsertChildren_blank cs]
theorem walkParagraphChildren_blank : ∀ (x : List ParagraphChild) (w : List Place), pick k (walkParagraphChildren w (blankParagraphChildren x)) = pick k (walkParagraphChildren w x)
  | [], _ => rfl
  | c :: cs, w => by simp only [walkParagraphChildren, blankParagraphChildren, pick_append, walkParagraphChild_blank c, walkParagraphChildren_blank cs]
theorem walkSdtChildren_blank : ∀ (x : List SdtChild) (w : List Place), pick k (walkSdtChildren w (blankSdtChildren x)) = pick k (walkSdtChildren w x)
  | [], _ => rfl
  | c :: cs, w => by simp only [walkSdtChildren, blankSdtChildren, pick_append, walkSdtChild_blank c, walkSdtChildren_blank cs]
theorem walkRows_blank : ∀ (x : List Row) (w : List Place), pick k (walkRows w (blankRows x)) = pick k (walkRows w x)
  | [], _ => rfl
  | c :: cs, w => by simp only [walkRows, blankRows, pick_append, walkRow_blank c, walkRows_blank cs]
theorem walkCells_blank : ∀ (x : List Cell) (w : List Place), pick k (walkCells w (blankCells x)) = pick k (walkCells w x)
  | [], _ => rfl
  | c :: cs, w => by simp only [walkCells, blankCells, pick_append, walkCell_blank c, walkCells_blank cs]
theorem walkCellContents_blank : ∀ (x : List CellContent) (w : List Place), pick k (walkCellContents w (blankCellContents x)) = pick k (walkCellContents w x)
  | [], _ => rfl
  | c :: cs, w => by simp only [walkCellContents, blankCellContents, pick_append, walkCellContent_blank c, walkCellContents_blank cs]
theorem walkRunChild_blank : ∀ (x : RunChild) (w : List Place), pick k (walkRunChild w (blankRunChild x)) = pick k (walkRunChild w x)
  | .text _, _ => by simp only [blankRunChild]
  | .sym _ _, _ => by simp only [blankRunChild]
  | .deleteText _, _ => by simp only [blankRunChild]
  | .tab, _ => by simp only [blankRunChild]
  | .ptab _, _ => by simp only [blankRunChild]
  | .brk _, _ => by simp only [blankRunChild]
  | .carriageReturn, _ => by simp only [blankRunChild]
  | .picture _, _ => by simp only [blankRunChild]
  | .textBox _, _ => by simp only [blankRunChild]
  | .emptyDrawing, _ => by simp only [blankRunChild]
  | .shape _, _ => by simp only [blankRunChild]
  | .commentStart i c, w => by
    have h0 := hk w (.runChild (.commentStart i c))
    have h1 := hk w (.comment i c)
    simp only [blankItem, blankRunChild] at h0 h1
    simp only [walkRunChild, blankRunChild, pick_cons, h0, h1, walkComment_blank c]
  | .commentEnd _, _ => by simp only [blankRunChild]
  | .fieldChar _ _, _ => by simp only [blankRunChild]
  | .instrText _, _ => by simp only [blankRunChild]
  | .deleteInstrText _, _ => by simp only [blankRunChild]
  | .instrTextString _, _ => by simp only [blankRunChild]
  | .footnoteReference _ _ _, _ => by simp only [blankRunChild]
  | .shading _, _ => by simp only [blankRunChild]
theorem walkBlock_blank : ∀ (x : Block) (w : List Place), pick k (walkBlock w (blankBlock x)) = pick k (walkBlock w x)
  | .paragraph x, w => by simp only [walkBlock, blankBlock, walkParagraph_blank x]
  | .table x, w => by simp only [walkBlock, blankBlock, walkTable_blank x]
theorem walkDeleteChild_blank : ∀ (x : DeleteChild) (w : List Place), pick k (walkDeleteChild w (blankDeleteChild x)) = pick k (walkDeleteChild w x)
  | .run x, w => by simp only [walkDeleteChild, blankDeleteChild, walkRun_blank x]
  | .commentStart i c, w => by
    have h1 := hk w (.comment i c)
    simp only [blankItem] at h1
    simp only [walkDeleteChild, blankDeleteChild, pick_cons, h1, walkComment_blank c]
  | .commentEnd _, _ => by simp only [blankDeleteChild]
theorem walkInsertChild_blank : ∀ (x : InsertChild) (w : List Place), pick k (walkInsertChild w (blankInsertChild x)) = pick k (walkInsertChild w x)
  | .run x, w => by simp only [walkInsertChild, blankInsertChild, walkRun_blank x]
  | .delete x, w => by simp only [walkInsertChild, blankInsertChild, walkDelete_blank x]
  | .commentStart i c, w => by
    have h1 := hk w (.comment i c)
    simp only [blankItem] at h1
    simp only [walkInsertChild, blankInsertChild, pick_cons, h1, walkComment_blank c]
  | .commentEnd _, _ => by simp only [blankInsertChild]
theorem walkParagraphChild_blank : ∀ (x : ParagraphChild) (w : List Place), pick k (walkParagraphChild w (blankParagraphChild x)) = pick k (walkParagraphChild w x)
  | .run x, w => by simp only [walkParagraphChild, blankParagraphChild, walkRun_blank x]
  | .insert x, w => by simp only [walkParagraphChild, blankParagraphChild, walkInsert_blank x]
  | .delete x, w => by simp only [walkParagraphChild, blankParagraphChild, walkDelete_blank x]
  | .moveFrom x, w => by simp only [walkParagraphChild, blankParagraphChild, walkDelete_blank x]
  | .moveTo x, w => by simp only [walkParagraphChild, blankParagraphChild, walkInsert_blank x]
  | .bookmarkStart _ _, _ => by simp only [blankParagraphChild]
  | .hyperlink x, w => by simp only [walkParagraphChild, blankParagraphChild, walkHyperlink_blank x]
  | .bookmarkEnd _, _ => by simp only [blankParagraphChild]
  | .commentStart i c, w => by
    have h1 := hk w (.comment i c)
    simp only [blankItem] at h1
    simp only [walkParagraphChild, blankParagraphChild, pick_cons, h1, walkComment_blank c]
  | .commentEnd _, _ => by simp only [blankParagraphChild]
  | .sdt x, w => by simp only [walkParagraphChild, blankParagraphChild, walkSdt_blank x]
  | .pageNum _, _ => by simp only [blankParagraphChild]
  | .numPages _, _ => by simp only [blankParagraphChild]
theorem walkSdtChild_blank : ∀ (x : SdtChild) (w : List Place), pick k (walkSdtChild w (blankSdtChild x)) = pick k (walkSdtChild w x)
  | .run x, w => by simp only [walkSdtChild, blankSdtChild, walkRun_blank x]
  | .paragraph x, w => by simp only [walkSdtChild, blankSdtChild, walkParagraph_blank x]
  | .table x, w => by simp only [walkSdtChild, blankSdtChild, walkTable_blank x]
  | .bookmarkStart _ _, _ => by simp only [blankSdtChild]
  | .bookmarkEnd _, _ => by simp only [blankSdtChild]
  | .commentStart i c, w => by
    have h1 := hk w (.comment i c)
    simp only [blankItem] at h1
    simp only [walkSdtChild, blankSdtChild, pick_cons, h1, walkComment_blank c]
  | .commentEnd _, _ => by simp only [blankSdtChild]
  | .sdt x, w => by simp only [walkSdtChild, blankSdtChild, walkSdt_blank x]
theorem walkCellContent_blank : ∀ (x : CellContent) (w : List Place), pick k (walkCellContent w (blankCellContent x)) = pick k (walkCellContent w x)
  | .paragraph x, w => by simp only [walkCellContent, blankCellContent, walkParagraph_blank x]
  | .table x, w => by simp only [walkCellContent, blankCellContent, walkTable_blank x]
  | .sdt x, w => by simp only [walkCellContent, blankCellContent, walkSdt_blank x]
  | .toc x, w => by simp only [walkCellContent, blankCellContent, walkToc_blank x]
theorem walkToc_blank : ∀ (x : Toc) (w : List Place), pick k (walkToc w (blankToc x)) = pick k (walkToc w x)
  | ⟨a, b, c, d, e, f, g, bs, as, i, j⟩, w => by
    have h0 := hk w (.toc ⟨a, b, c, d, e, f, g, bs, as, i, j⟩)
    simp only [blankItem, blankToc] at h0
    simp only [walkToc, blankToc, pick_cons, pick_append, h0, walkBlocks_blank bs, walkBlocks_blank as]
end

theorem walkHeader_blank (x : Header) (w : List Place) : pick k (walkHeader w (blankHeader x)) = pick k (walkHeader w x) := by
  simp only [walkHeader, blankHeader, pick_flatMap, List.flatMap_map]
  congr 1
  funext c
  cases c <;> simp only [walkHeaderChild, blankHeaderChild, walkParagraph_blank hk, walkTable_blank hk, walkSdt_blank hk]

theorem walkPart_blank (x : Option (Str × Header)) (w : List Place) :
    ((blankPart x).toList.flatMap fun y => pick k (walkHeader w y.2)) = x.toList.flatMap fun y => pick k (walkHeader w y.2) := by
  cases x <;> simp [blankPart, walkHeader_blank hk]

theorem walkSectionProperty_blank (x : SectionProperty) (w : List Place) :
    pick k (walkSectionProperty w (blankSectionProperty x)) = pick k (walkSectionProperty w x) := by
  simp only [walkSectionProperty, blankSectionProperty, pick_append, pick_flatMap, flatMap_filterMap_id, walkPart_blank hk]

theorem walkSection_blank (x : Section) (w : List Place) : pick k (walkSection w (blankSection x)) = pick k (walkSection w x) := by
  simp only [walkSection, blankSection, pick_append, walkSectionProperty_blank hk, pick_flatMap, List.flatMap_map]
  congr 1
  congr 1
  funext c
  cases c with
  | commentStart i c =>
    have h1 := hk (.section :: w) (.comment i c)
    simp only [blankItem] at h1
    simp only [walkSectionChild, blankSectionChild, pick_cons, h1, walkComment_blank hk]
  | _ => simp only [walkSectionChild, blankSectionChild, walkParagraph_blank hk, walkTable_blank hk, walkSdt_blank hk,
      walkToc_blank hk]

theorem walkDocument_blank (x : Document) : pick k (walkDocument (blankDocument x)) = pick k (walkDocument x) := by
  simp only [walkDocument, blankDocument, pick_append, walkSectionProperty_blank hk, pick_flatMap, List.flatMap_map]
  congr 1
  congr 1
  funext c
  cases c with
  | commentStart i c =>
    have h1 := hk [.document] (.comment i c)
    simp only [blankItem] at h1
    simp only [walkDocumentChild, blankDocumentChild, pick_cons, h1, walkComment_blank hk]
  | _ => simp only [walkDocumentChild, blankDocumentChild, walkParagraph_blank hk, walkTable_blank hk, walkSdt_blank hk,
      walkToc_blank hk, walkSection_blank hk]

end

end Docx
