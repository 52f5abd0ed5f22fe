import Verif.Model.ParaIds
import Verif.Spec.BlankIds
import Verif.Spec.ParaIds

/-! Lemmas for the paragraph id theorems: every traversal is a map over the list of visited ids. -/

set_option linter.unusedSimpArgs false
namespace Docx
open Docx.Spec

/-- The refresh on a plain list of ids. -/
def refreshIds (dup : List Str) : List Str → IdState → List Str × IdState
  | [], s => ([], s)
  | i :: is, s =>
    let e := ensureUniqueParagraphId dup i s
    let r := refreshIds dup is e.2
    (e.1 :: r.1, r.2)

theorem refreshIds_append (dup : List Str) : ∀ (a b : List Str) (s : IdState),
    refreshIds dup (a ++ b) s =
      ((refreshIds dup a s).1 ++ (refreshIds dup b (refreshIds dup a s).2).1,
       (refreshIds dup b (refreshIds dup a s).2).2)
  | [], b, s => rfl
  | i :: a, b, s => by simp [refreshIds, refreshIds_append dup a b]

mutual

theorem refreshRun_ids (dup : List Str) : ∀ (x : Run) (s : IdState), refreshIds dup (collectRun x) s = (collectRun (refreshRun dup x s).1, (refreshRun dup x s).2)
  | ⟨_, cs⟩, st => by simp [collectRun, refreshRun, refreshIds, refreshRunChildren_ids dup cs]
theorem refreshComment_ids (dup : List Str) : ∀ (x : Comment) (s : IdState), refreshIds dup (collectComment x) s = (collectComment (refreshComment dup x s).1, (refreshComment dup x s).2)
  | ⟨_, _, _, cs, _⟩, st => by simp [collectComment, refreshComment, refreshIds, refreshBlocks_ids dup cs]
theorem refreshDelete_ids (dup : List Str) : ∀ (x : Delete) (s : IdState), refreshIds dup (collectDelete x) s = (collectDelete (refreshDelete dup x s).1, (refreshDelete dup x s).2)
  | ⟨_, _, cs⟩, st => by simp [collectDelete, refreshDelete, refreshIds, refreshDeleteChildren_ids dup cs]
theorem refreshInsert_ids (dup : List Str) : ∀ (x : Insert) (s : IdState), refreshIds dup (collectInsert x) s = (collectInsert (refreshInsert dup x s).1, (refreshInsert dup x s).2)
  | ⟨_, _, cs⟩, st => by simp [collectInsert, refreshInsert, refreshIds, refreshInsertChildren_ids dup cs]
theorem refreshHyperlink_ids (dup : List Str) : ∀ (x : Hyperlink) (s : IdState), refreshIds dup (collectHyperlink x) s = (collectHyperlink (refreshHyperlink dup x s).1, (refreshHyperlink dup x s).2)
  | ⟨_, _, cs⟩, st => by simp [collectHyperlink, refreshHyperlink, refreshIds, refreshParagraphChildren_ids dup cs]
theorem refreshParagraph_ids (dup : List Str) : ∀ (x : Paragraph) (s : IdState), refreshIds dup (collectParagraph x) s = (collectParagraph (refreshParagraph dup x s).1, (refreshParagraph dup x s).2)
  | ⟨_, cs, _, _⟩, st => by simp [collectParagraph, refreshParagraph, refreshIds, refreshParagraphChildren_ids dup cs]
theorem refreshSdt_ids (dup : List Str) : ∀ (x : Sdt) (s : IdState), refreshIds dup (collectSdt x) s = (collectSdt (refreshSdt dup x s).1, (refreshSdt dup x s).2)
  | ⟨cs, _, _⟩, st => by simp [collectSdt, refreshSdt, refreshIds, refreshSdtChildren_ids dup cs]
theorem refreshTable_ids (dup : List Str) : ∀ (x : Table) (s : IdState), refreshIds dup (collectTable x) s = (collectTable (refreshTable dup x s).1, (refreshTable dup x s).2)
  | ⟨cs, _, _, _⟩, st => by simp [collectTable, refreshTable, refreshIds, refreshRows_ids dup cs]
theorem refreshRow_ids (dup : List Str) : ∀ (x : Row) (s : IdState), refreshIds dup (collectRow x) s = (collectRow (refreshRow dup x s).1, (refreshRow dup x s).2)
  | ⟨cs, _, _⟩, st => by simp [collectRow, refreshRow, refreshIds, refreshCells_ids dup cs]
theorem refreshCell_ids (dup : List Str) : ∀ (x : Cell) (s : IdState), refreshIds dup (collectCell x) s = (collectCell (refreshCell dup x s).1, (refreshCell dup x s).2)
  | ⟨cs, _, _⟩, st => by simp [collectCell, refreshCell, refreshIds, refreshCellContents_ids dup cs]
theorem refreshRunChildren_ids (dup : List Str) : ∀ (x : List RunChild) (s : IdState), refreshIds dup (collectRunChildren x) s = (collectRunChildren (refreshRunChildren dup x s).1, (refreshRunChildren dup x s).2)
  | [], st => by simp [collectRunChildren, refreshRunChildren, refreshIds]
  | c :: cs, st => by simp [collectRunChildren, refreshRunChildren, refreshIds_append, refreshRunChild_ids dup c, refreshRunChildren_ids dup cs]
theorem refreshBlocks_ids (dup : List Str) : ∀ (x : List Block) (s : IdState), refreshIds dup (collectBlocks x) s = (collectBlocks (refreshBlocks dup x s).1, (refreshBlocks dup x s).2)
  | [], st => by simp [collectBlocks, refreshBlocks, refreshIds]
  | c :: cs, st => by simp [collectBlocks, refreshBlocks, refreshIds_append, refreshBlock_ids dup c, refreshBlocks_ids dup cs]
theorem refreshDeleteChildren_ids (dup : List Str) : ∀ (x : List DeleteChild) (s : IdState), refreshIds dup (collectDeleteChildren x) s = (collectDeleteChildren (refreshDeleteChildren dup x s).1, (refreshDeleteChildren dup x s).2)
  | [], st => by simp [collectDeleteChildren, refreshDeleteChildren, refreshIds]
  | c :: cs, st => by simp [collectDeleteChildren, refreshDeleteChildren, refreshIds_append, refreshDeleteChild_ids dup c, refreshDeleteChildren_ids dup cs]
theorem refreshInsertChildren_ids (dup : List Str) : ∀ (x : List InsertChild) (s : IdState), refreshIds dup (collectInsertChildren x) s = (collectInsertChildren (refreshInsertChildren dup x s).1, (refreshInsertChildren dup x s).2)
  | [], st => by simp [collectInsertChildren, refreshInsertChildren, refreshIds]
  | c :: cs, st => by simp [collectInsertChildren, refreshInsertChildren, refreshIds_append, refreshInsertChild_ids dup c, refreshInsertChildren_ids dup cs]
theorem refreshParagraphChildren_ids (dup : List Str) : ∀ (x : List ParagraphChild) (s : IdState), refreshIds dup (collectParagraphChildren x) s = (collectParagraphChildren (refreshParagraphChildren dup x s).1, (refreshParagraphChildren dup x s).2)
  | [], st => by simp [collectParagraphChildren, refreshParagraphChildren, refreshIds]
  | c :: cs, st => by simp [collectParagraphChildren, refreshParagraphChildren, refreshIds_append, refreshParagraphChild_ids dup c, refreshParagraphChildren_ids dup cs]
theorem refreshSdtChildren_ids (dup : List Str) : ∀ (x : List SdtChild) (s : IdState), refreshIds dup (collectSdtChildren x) s = (collectSdtChildren (refreshSdtChildren dup x s).1, (refreshSdtChildren dup x s).2)
  | [], st => by simp [collectSdtChildren, refreshSdtChildren, refreshIds]
  | c :: cs, st => by simp [collectSdtChildren, refreshSdtChildren, refreshIds_append, refreshSdtChild_ids dup c, refreshSdtChildren_ids dup cs]
theorem refreshRows_ids (dup : List Str) : ∀ (x : List Row) (s : IdState), refreshIds dup (collectRows x) s = (collectRows (refreshRows dup x s).1, (refreshRows dup x s).2)
  | [], st => by simp [collectRows, refreshRows, refreshIds]
  | c :: cs, st => by simp [collectRows, refreshRows, refreshIds_append, refreshRow_ids dup c, refreshRows_ids dup cs]
theorem refreshCells_ids (dup : List Str) : ∀ (x : List Cell) (s : IdState), refreshIds dup (collectCells x) s = (collectCells (refreshCells dup x s).1, (refreshCells dup x s).2)
  | [], st => by simp [collectCells, refreshCells, refreshIds]
  | c :: cs, st => by simp [collectCells, refreshCells, refreshIds_append, refreshCell_ids dup c, refreshCells_ids dup cs]
theorem refreshCellContents_ids (dup : List Str) : ∀ (x : List CellContent) (s : IdState), refreshIds dup (collectCellContents x) s = (collectCellContents (refreshCellContents dup x s).1, (refreshCellContents dup x s).2)
  | [], st => by simp [collectCellContents, refreshCellContents, refreshIds]
  | c :: cs, st => by simp [collectCellContents, refreshCellContents, refreshIds_append, refreshCellContent_ids dup c, refreshCellContents_ids dup cs]
theorem refreshRunChild_ids (dup : List Str) : ∀ (x : RunChild) (s : IdState), refreshIds dup (collectRunChild x) s = (collectRunChild (refreshRunChild dup x s).1, (refreshRunChild dup x s).2)
  | .text _, st => by simp [collectRunChild, refreshRunChild, refreshIds]
  | .sym _ _, st => by simp [collectRunChild, refreshRunChild, refreshIds]
  | .deleteText _, st => by simp [collectRunChild, refreshRunChild, refreshIds]
  | .tab, st => by simp [collectRunChild, refreshRunChild, refreshIds]
  | .ptab _, st => by simp [collectRunChild, refreshRunChild, refreshIds]
  | .brk _, st => by simp [collectRunChild, refreshRunChild, refreshIds]
  | .carriageReturn, st => by simp [collectRunChild, refreshRunChild, refreshIds]
  | .picture _, st => by simp [collectRunChild, refreshRunChild, refreshIds]
  | .textBox bs, st => by simp [collectRunChild, refreshRunChild, refreshIds]
  | .emptyDrawing, st => by simp [collectRunChild, refreshRunChild, refreshIds]
  | .shape _, st => by simp [collectRunChild, refreshRunChild, refreshIds]
  | .commentStart _ c, st => by simp [collectRunChild, refreshRunChild, refreshIds, refreshComment_ids dup c]
  | .commentEnd _, st => by simp [collectRunChild, refreshRunChild, refreshIds]
  | .fieldChar _ _, st => by simp [collectRunChild, refreshRunChild, refreshIds]
  | .instrText _, st => by simp [collectRunChild, refreshRunChild, refreshIds]
  | .deleteInstrText _, st => by simp [collectRunChild, refreshRunChild, refreshIds]
  | .instrTextString _, st => by simp [collectRunChild, refreshRunChild, refreshIds]
  | .footnoteReference _ _ ps, st => by simp [collectRunChild, refreshRunChild, refreshIds]
  | .shading _, st => by simp [collectRunChild, refreshRunChild, refreshIds]
theorem refreshBlock_ids (dup : List Str) : ∀ (x : Block) (s : IdState), refreshIds dup (collectBlock x) s = (collectBlock (refreshBlock dup x s).1, (refreshBlock dup x s).2)
  | .paragraph p, st => by simp [collectBlock, refreshBlock, refreshIds, refreshParagraph_ids dup p]
  | .table t, st => by simp [collectBlock, refreshBlock, refreshIds, refreshTable_ids dup t]
theorem refreshDeleteChild_ids (dup : List Str) : ∀ (x : DeleteChild) (s : IdState), refreshIds dup (collectDeleteChild x) s = (collectDeleteChild (refreshDeleteChild dup x s).1, (refreshDeleteChild dup x s).2)
  | .run r, st => by simp [collectDeleteChild, refreshDeleteChild, refreshIds, refreshRun_ids dup r]
  | .commentStart _ c, st => by simp [collectDeleteChild, refreshDeleteChild, refreshIds, refreshComment_ids dup c]
  | .commentEnd _, st => by simp [collectDeleteChild, refreshDeleteChild, refreshIds]
theorem refreshInsertChild_ids (dup : List Str) : ∀ (x : InsertChild) (s : IdState), refreshIds dup (collectInsertChild x) s = (collectInsertChild (refreshInsertChild dup x s).1, (refreshInsertChild dup x s).2)
  | .run r, st => by simp [collectInsertChild, refreshInsertChild, refreshIds, refreshRun_ids dup r]
  | .delete d, st => by simp [collectInsertChild, refreshInsertChild, refreshIds, refreshDelete_ids dup d]
  | .commentStart _ c, st => by simp [collectInsertChild, refreshInsertChild, refreshIds, refreshComment_ids dup c]
  | .commentEnd _, st => by simp [collectInsertChild, refreshInsertChild, refreshIds]
theorem refreshParagraphChild_ids (dup : List Str) : ∀ (x : ParagraphChild) (s : IdState), refreshIds dup (collectParagraphChild x) s = (collectParagraphChild (refreshParagraphChild dup x s).1, (refreshParagraphChild dup x s).2)
  | .run r, st => by simp [collectParagraphChild, refreshParagraphChild, refreshIds, refreshRun_ids dup r]
  | .insert i, st => by simp [collectParagraphChild, refreshParagraphChild, refreshIds, refreshInsert_ids dup i]
  | .delete d, st => by simp [collectParagraphChild, refreshParagraphChild, refreshIds, refreshDelete_ids dup d]
  | .moveFrom d, st => by simp [collectParagraphChild, refreshParagraphChild, refreshIds, refreshDelete_ids dup d]
  | .moveTo i, st => by simp [collectParagraphChild, refreshParagraphChild, refreshIds, refreshInsert_ids dup i]
  | .bookmarkStart _ _, st => by simp [collectParagraphChild, refreshParagraphChild, refreshIds]
  | .hyperlink h, st => by simp [collectParagraphChild, refreshParagraphChild, refreshIds, refreshHyperlink_ids dup h]
  | .bookmarkEnd _, st => by simp [collectParagraphChild, refreshParagraphChild, refreshIds]
  | .commentStart _ c, st => by simp [collectParagraphChild, refreshParagraphChild, refreshIds, refreshComment_ids dup c]
  | .commentEnd _, st => by simp [collectParagraphChild, refreshParagraphChild, refreshIds]
  | .sdt s, st => by simp [collectParagraphChild, refreshParagraphChild, refreshIds, refreshSdt_ids dup s]
  | .pageNum _, st => by simp [collectParagraphChild, refreshParagraphChild, refreshIds]
  | .numPages _, st => by simp [collectParagraphChild, refreshParagraphChild, refreshIds]
theorem refreshSdtChild_ids (dup : List Str) : ∀ (x : SdtChild) (s : IdState), refreshIds dup (collectSdtChild x) s = (collectSdtChild (refreshSdtChild dup x s).1, (refreshSdtChild dup x s).2)
  | .run r, st => by simp [collectSdtChild, refreshSdtChild, refreshIds, refreshRun_ids dup r]
  | .paragraph p, st => by simp [collectSdtChild, refreshSdtChild, refreshIds, refreshParagraph_ids dup p]
  | .table t, st => by simp [collectSdtChild, refreshSdtChild, refreshIds, refreshTable_ids dup t]
  | .bookmarkStart _ _, st => by simp [collectSdtChild, refreshSdtChild, refreshIds]
  | .bookmarkEnd _, st => by simp [collectSdtChild, refreshSdtChild, refreshIds]
  | .commentStart _ c, st => by simp [collectSdtChild, refreshSdtChild, refreshIds, refreshComment_ids dup c]
  | .commentEnd _, st => by simp [collectSdtChild, refreshSdtChild, refreshIds]
  | .sdt s, st => by simp [collectSdtChild, refreshSdtChild, refreshIds, refreshSdt_ids dup s]
theorem refreshCellContent_ids (dup : List Str) : ∀ (x : CellContent) (s : IdState), refreshIds dup (collectCellContent x) s = (collectCellContent (refreshCellContent dup x s).1, (refreshCellContent dup x s).2)
  | .paragraph p, st => by simp [collectCellContent, refreshCellContent, refreshIds, refreshParagraph_ids dup p]
  | .table t, st => by simp [collectCellContent, refreshCellContent, refreshIds, refreshTable_ids dup t]
  | .sdt s, st => by simp [collectCellContent, refreshCellContent, refreshIds, refreshSdt_ids dup s]
  | .toc t, st => by simp [collectCellContent, refreshCellContent, refreshIds, refreshToc_ids dup t]
theorem refreshToc_ids (dup : List Str) : ∀ (x : Toc) (s : IdState), refreshIds dup (collectToc x) s = (collectToc (refreshToc dup x s).1, (refreshToc dup x s).2)
  | ⟨_, _, _, _, _, _, _, bs, as, _, _⟩, st => by simp [collectToc, refreshToc, refreshIds_append, refreshBlocks_ids dup bs, refreshBlocks_ids dup as]

end

@[simp] theorem inBody_cons (p : Place) (w : List Place) :
    inBody (p :: w) = (p != .footnote && p != .textBox && inBody w) := by
  simp [inBody, bne]
  cases p <;> simp [Bool.and_comm, Bool.and_left_comm, decide_not]

@[simp] theorem bodyIds_nil : bodyIds [] = [] := rfl
@[simp] theorem bodyIds_append (a b : Walk) : bodyIds (a ++ b) = bodyIds a ++ bodyIds b := by
  simp [bodyIds, Walk.within]
@[simp] theorem bodyIds_cons (w : List Place) (i : Item) (l : Walk) :
    bodyIds ((w, i) :: l) = (if inBody w then i.paraId?.toList else []) ++ bodyIds l := by
  cases h : inBody w <;> cases h' : i.paraId? <;> simp [bodyIds, Walk.within, h, h']

mutual

theorem walkRun_ids (w : List Place) : ∀ (x : Run), bodyIds (walkRun w x) = if inBody w then collectRun x else []
  | ⟨_, cs⟩ => by cases hb : inBody w <;> simp [walkRun, collectRun, walkRunChildren_ids (.run :: w) cs, hb, Item.paraId?]
theorem walkComment_ids (w : List Place) : ∀ (x : Comment), bodyIds (walkComment w x) = if inBody w then collectComment x else []
  | ⟨_, _, _, cs, _⟩ => by cases hb : inBody w <;> simp [walkComment, collectComment, walkBlocks_ids w cs, hb, Item.paraId?]
theorem walkDelete_ids (w : List Place) : ∀ (x : Delete), bodyIds (walkDelete w x) = if inBody w then collectDelete x else []
  | ⟨_, _, cs⟩ => by cases hb : inBody w <;> simp [walkDelete, collectDelete, walkDeleteChildren_ids w cs, hb, Item.paraId?]
theorem walkInsert_ids (w : List Place) : ∀ (x : Insert), bodyIds (walkInsert w x) = if inBody w then collectInsert x else []
  | ⟨_, _, cs⟩ => by cases hb : inBody w <;> simp [walkInsert, collectInsert, walkInsertChildren_ids w cs, hb, Item.paraId?]
theorem walkHyperlink_ids (w : List Place) : ∀ (x : Hyperlink), bodyIds (walkHyperlink w x) = if inBody w then collectHyperlink x else []
  | ⟨_, _, cs⟩ => by cases hb : inBody w <;> simp [walkHyperlink, collectHyperlink, walkParagraphChildren_ids (.hyperlink :: w) cs, hb, Item.paraId?]
theorem walkParagraph_ids (w : List Place) : ∀ (x : Paragraph), bodyIds (walkParagraph w x) = if inBody w then collectParagraph x else []
  | ⟨_, cs, _, _⟩ => by cases hb : inBody w <;> simp [walkParagraph, collectParagraph, walkParagraphChildren_ids (.paragraph :: w) cs, hb, Item.paraId?]
theorem walkSdt_ids (w : List Place) : ∀ (x : Sdt), bodyIds (walkSdt w x) = if inBody w then collectSdt x else []
  | ⟨cs, _, _⟩ => by cases hb : inBody w <;> simp [walkSdt, collectSdt, walkSdtChildren_ids (.sdt :: w) cs, hb, Item.paraId?]
theorem walkTable_ids (w : List Place) : ∀ (x : Table), bodyIds (walkTable w x) = if inBody w then collectTable x else []
  | ⟨cs, _, _, _⟩ => by cases hb : inBody w <;> simp [walkTable, collectTable, walkRows_ids w cs, hb, Item.paraId?]
theorem walkRow_ids (w : List Place) : ∀ (x : Row), bodyIds (walkRow w x) = if inBody w then collectRow x else []
  | ⟨cs, _, _⟩ => by cases hb : inBody w <;> simp [walkRow, collectRow, walkCells_ids w cs, hb, Item.paraId?]
theorem walkCell_ids (w : List Place) : ∀ (x : Cell), bodyIds (walkCell w x) = if inBody w then collectCell x else []
  | ⟨cs, _, _⟩ => by cases hb : inBody w <;> simp [walkCell, collectCell, walkCellContents_ids (.cell :: w) cs, hb, Item.paraId?]
theorem walkRunChildren_ids (w : List Place) : ∀ (x : List RunChild), bodyIds (walkRunChildren w x) = if inBody w then collectRunChildren x else []
  | [] => by simp [walkRunChildren, collectRunChildren]
  | c :: cs => by cases hb : inBody w <;> simp [walkRunChildren, collectRunChildren, walkRunChild_ids w c, walkRunChildren_ids w cs, hb, Item.paraId?]
theorem walkBlocks_ids (w : List Place) : ∀ (x : List Block), bodyIds (walkBlocks w x) = if inBody w then collectBlocks x else []
  | [] => by simp [walkBlocks, collectBlocks]
  | c :: cs => by cases hb : inBody w <;> simp [walkBlocks, collectBlocks, walkBlock_ids w c, walkBlocks_ids w cs, hb, Item.paraId?]
theorem walkDeleteChildren_ids (w : List Place) : ∀ (x : List DeleteChild), bodyIds (walkDeleteChildren w x) = if inBody w then collectDeleteChildren x else []
  | [] => by simp [walkDeleteChildren, collectDeleteChildren]
  | c :: cs => by cases hb : inBody w <;> simp [walkDeleteChildren, collectDeleteChildren, walkDeleteChild_ids w c, walkDeleteChildren_ids w cs, hb, Item.paraId?]
theorem walkInsertChildren_ids (w : List Place) : ∀ (x : List InsertChild), bodyIds (walkInsertChildren w x) = if inBody w then collectInsertChildren x else []
  | [] => by simp [walkInsertChildren, collectInsertChildren]
  | c :: cs => by cases hb : inBody w <;> simp [walkInsertChildren, collectInsertChildren, walkInsertChild_ids w c, walkInsertChildren_ids w cs, hb, Item.paraId?]
theorem walkParagraphChildren_ids (w : List Place) : ∀ (x : List ParagraphChild), bodyIds (walkParagraphChildren w x) = if inBody w then collectParagraphChildren x else []
  | [] => by simp [walkParagraphChildren, collectParagraphChildren]
  | c :: cs => by cases hb : inBody w <;> simp [walkParagraphChildren, collectParagraphChildren, walkParagraphChild_ids w c, walkParagraphChildren_ids w cs, hb, Item.paraId?]
theorem walkSdtChildren_ids (w : List Place) : ∀ (x : List SdtChild), bodyIds (walkSdtChildren w x) = if inBody w then collectSdtChildren x else []
  | [] => by simp [walkSdtChildren, collectSdtChildren]
  | c :: cs => by cases hb : inBody w <;> simp [walkSdtChildren, collectSdtChildren, walkSdtChild_ids w c, walkSdtChildren_ids w cs, hb, Item.paraId?]
theorem walkRows_ids (w : List Place) : ∀ (x : List Row), bodyIds (walkRows w x) = if inBody w then collectRows x else []
  | [] => by simp [walkRows, collectRows]
  | c :: cs => by cases hb : inBody w <;> simp [walkRows, collectRows, walkRow_ids w c, walkRows_ids w cs, hb, Item.paraId?]
theorem walkCells_ids (w : List Place) : ∀ (x : List Cell), bodyIds (walkCells w x) = if inBody w then collectCells x else []
  | [] => by simp [walkCells, collectCells]
  | c :: cs => by cases hb : inBody w <;> simp [walkCells, collectCells, walkCell_ids w c, walkCells_ids w cs, hb, Item.paraId?]
theorem walkCellContents_ids (w : List Place) : ∀ (x : List CellContent), bodyIds (walkCellContents w x) = if inBody w then collectCellContents x else []
  | [] => by simp [walkCellContents, collectCellContents]
  | c :: cs => by cases hb : inBody w <;> simp [walkCellContents, collectCellContents, walkCellContent_ids w c, walkCellContents_ids w cs, hb, Item.paraId?]
theorem walkParagraphs_ids (w : List Place) : ∀ (x : List Paragraph), bodyIds (walkParagraphs w x) = if inBody w then x.flatMap collectParagraph else []
  | [] => by simp [walkParagraphs]
  | c :: cs => by cases hb : inBody w <;> simp [walkParagraphs, walkParagraph_ids w c, walkParagraphs_ids w cs, hb, Item.paraId?]
theorem walkRunChild_ids (w : List Place) : ∀ (x : RunChild), bodyIds (walkRunChild w x) = if inBody w then collectRunChild x else []
  | .text _ => by cases hb : inBody w <;> simp [walkRunChild, collectRunChild, hb, Item.paraId?]
  | .sym _ _ => by cases hb : inBody w <;> simp [walkRunChild, collectRunChild, hb, Item.paraId?]
  | .deleteText _ => by cases hb : inBody w <;> simp [walkRunChild, collectRunChild, hb, Item.paraId?]
  | .tab => by cases hb : inBody w <;> simp [walkRunChild, collectRunChild, hb, Item.paraId?]
  | .ptab _ => by cases hb : inBody w <;> simp [walkRunChild, collectRunChild, hb, Item.paraId?]
  | .brk _ => by cases hb : inBody w <;> simp [walkRunChild, collectRunChild, hb, Item.paraId?]
  | .carriageReturn => by cases hb : inBody w <;> simp [walkRunChild, collectRunChild, hb, Item.paraId?]
  | .picture _ => by cases hb : inBody w <;> simp [walkRunChild, collectRunChild, hb, Item.paraId?]
  | .textBox bs => by cases hb : inBody w <;> simp [walkRunChild, collectRunChild, walkBlocks_ids (.textBox :: w) bs, hb, Item.paraId?]
  | .emptyDrawing => by cases hb : inBody w <;> simp [walkRunChild, collectRunChild, hb, Item.paraId?]
  | .shape _ => by cases hb : inBody w <;> simp [walkRunChild, collectRunChild, hb, Item.paraId?]
  | .commentStart _ c => by cases hb : inBody w <;> simp [walkRunChild, collectRunChild, walkComment_ids (.comment :: w) c, hb, Item.paraId?]
  | .commentEnd _ => by cases hb : inBody w <;> simp [walkRunChild, collectRunChild, hb, Item.paraId?]
  | .fieldChar _ _ => by cases hb : inBody w <;> simp [walkRunChild, collectRunChild, hb, Item.paraId?]
  | .instrText _ => by cases hb : inBody w <;> simp [walkRunChild, collectRunChild, hb, Item.paraId?]
  | .deleteInstrText _ => by cases hb : inBody w <;> simp [walkRunChild, collectRunChild, hb, Item.paraId?]
  | .instrTextString _ => by cases hb : inBody w <;> simp [walkRunChild, collectRunChild, hb, Item.paraId?]
  | .footnoteReference _ _ ps => by cases hb : inBody w <;> simp [walkRunChild, collectRunChild, walkParagraphs_ids (.footnote :: w) ps, hb, Item.paraId?]
  | .shading _ => by cases hb : inBody w <;> simp [walkRunChild, collectRunChild, hb, Item.paraId?]
theorem walkBlock_ids (w : List Place) : ∀ (x : Block), bodyIds (walkBlock w x) = if inBody w then collectBlock x else []
  | .paragraph p => by cases hb : inBody w <;> simp [walkBlock, collectBlock, walkParagraph_ids w p, hb, Item.paraId?]
  | .table t => by cases hb : inBody w <;> simp [walkBlock, collectBlock, walkTable_ids w t, hb, Item.paraId?]
theorem walkDeleteChild_ids (w : List Place) : ∀ (x : DeleteChild), bodyIds (walkDeleteChild w x) = if inBody w then collectDeleteChild x else []
  | .run r => by cases hb : inBody w <;> simp [walkDeleteChild, collectDeleteChild, walkRun_ids w r, hb, Item.paraId?]
  | .commentStart _ c => by cases hb : inBody w <;> simp [walkDeleteChild, collectDeleteChild, walkComment_ids (.comment :: w) c, hb, Item.paraId?]
  | .commentEnd _ => by cases hb : inBody w <;> simp [walkDeleteChild, collectDeleteChild, hb, Item.paraId?]
theorem walkInsertChild_ids (w : List Place) : ∀ (x : InsertChild), bodyIds (walkInsertChild w x) = if inBody w then collectInsertChild x else []
  | .run r => by cases hb : inBody w <;> simp [walkInsertChild, collectInsertChild, walkRun_ids w r, hb, Item.paraId?]
  | .delete d => by cases hb : inBody w <;> simp [walkInsertChild, collectInsertChild, walkDelete_ids (.delete :: w) d, hb, Item.paraId?]
  | .commentStart _ c => by cases hb : inBody w <;> simp [walkInsertChild, collectInsertChild, walkComment_ids (.comment :: w) c, hb, Item.paraId?]
  | .commentEnd _ => by cases hb : inBody w <;> simp [walkInsertChild, collectInsertChild, hb, Item.paraId?]
theorem walkParagraphChild_ids (w : List Place) : ∀ (x : ParagraphChild), bodyIds (walkParagraphChild w x) = if inBody w then collectParagraphChild x else []
  | .run r => by cases hb : inBody w <;> simp [walkParagraphChild, collectParagraphChild, walkRun_ids w r, hb, Item.paraId?]
  | .insert i => by cases hb : inBody w <;> simp [walkParagraphChild, collectParagraphChild, walkInsert_ids (.insert :: w) i, hb, Item.paraId?]
  | .delete d => by cases hb : inBody w <;> simp [walkParagraphChild, collectParagraphChild, walkDelete_ids (.delete :: w) d, hb, Item.paraId?]
  | .moveFrom d => by cases hb : inBody w <;> simp [walkParagraphChild, collectParagraphChild, walkDelete_ids (.moveFrom :: w) d, hb, Item.paraId?]
  | .moveTo i => by cases hb : inBody w <;> simp [walkParagraphChild, collectParagraphChild, walkInsert_ids (.moveTo :: w) i, hb, Item.paraId?]
  | .bookmarkStart _ _ => by cases hb : inBody w <;> simp [walkParagraphChild, collectParagraphChild, hb, Item.paraId?]
  | .hyperlink h => by cases hb : inBody w <;> simp [walkParagraphChild, collectParagraphChild, walkHyperlink_ids w h, hb, Item.paraId?]
  | .bookmarkEnd _ => by cases hb : inBody w <;> simp [walkParagraphChild, collectParagraphChild, hb, Item.paraId?]
  | .commentStart _ c => by cases hb : inBody w <;> simp [walkParagraphChild, collectParagraphChild, walkComment_ids (.comment :: w) c, hb, Item.paraId?]
  | .commentEnd _ => by cases hb : inBody w <;> simp [walkParagraphChild, collectParagraphChild, hb, Item.paraId?]
  | .sdt s => by cases hb : inBody w <;> simp [walkParagraphChild, collectParagraphChild, walkSdt_ids w s, hb, Item.paraId?]
  | .pageNum _ => by cases hb : inBody w <;> simp [walkParagraphChild, collectParagraphChild, hb, Item.paraId?]
  | .numPages _ => by cases hb : inBody w <;> simp [walkParagraphChild, collectParagraphChild, hb, Item.paraId?]
theorem walkSdtChild_ids (w : List Place) : ∀ (x : SdtChild), bodyIds (walkSdtChild w x) = if inBody w then collectSdtChild x else []
  | .run r => by cases hb : inBody w <;> simp [walkSdtChild, collectSdtChild, walkRun_ids w r, hb, Item.paraId?]
  | .paragraph p => by cases hb : inBody w <;> simp [walkSdtChild, collectSdtChild, walkParagraph_ids w p, hb, Item.paraId?]
  | .table t => by cases hb : inBody w <;> simp [walkSdtChild, collectSdtChild, walkTable_ids w t, hb, Item.paraId?]
  | .bookmarkStart _ _ => by cases hb : inBody w <;> simp [walkSdtChild, collectSdtChild, hb, Item.paraId?]
  | .bookmarkEnd _ => by cases hb : inBody w <;> simp [walkSdtChild, collectSdtChild, hb, Item.paraId?]
  | .commentStart _ c => by cases hb : inBody w <;> simp [walkSdtChild, collectSdtChild, walkComment_ids (.comment :: w) c, hb, Item.paraId?]
  | .commentEnd _ => by cases hb : inBody w <;> simp [walkSdtChild, collectSdtChild, hb, Item.paraId?]
  | .sdt s => by cases hb : inBody w <;> simp [walkSdtChild, collectSdtChild, walkSdt_ids w s, hb, Item.paraId?]
theorem walkCellContent_ids (w : List Place) : ∀ (x : CellContent), bodyIds (walkCellContent w x) = if inBody w then collectCellContent x else []
  | .paragraph p => by cases hb : inBody w <;> simp [walkCellContent, collectCellContent, walkParagraph_ids w p, hb, Item.paraId?]
  | .table t => by cases hb : inBody w <;> simp [walkCellContent, collectCellContent, walkTable_ids w t, hb, Item.paraId?]
  | .sdt s => by cases hb : inBody w <;> simp [walkCellContent, collectCellContent, walkSdt_ids w s, hb, Item.paraId?]
  | .toc t => by cases hb : inBody w <;> simp [walkCellContent, collectCellContent, walkToc_ids w t, hb, Item.paraId?]
theorem walkToc_ids (w : List Place) : ∀ (x : Toc), bodyIds (walkToc w x) = if inBody w then collectToc x else []
  | ⟨_, _, _, _, _, _, _, bs, as, _, _⟩ => by cases hb : inBody w <;> simp [walkToc, collectToc, walkBlocks_ids (.tocBefore :: w) bs, walkBlocks_ids (.tocAfter :: w) as, hb, Item.paraId?]

end

mutual

theorem blankRun_refresh (dup : List Str) : ∀ (x : Run) (s : IdState), blankRun (refreshRun dup x s).1 = blankRun x
  | ⟨_, cs⟩, st => by simp [blankRun, refreshRun, blankRunChildren_refresh dup cs]
theorem blankComment_refresh (dup : List Str) : ∀ (x : Comment) (s : IdState), blankComment (refreshComment dup x s).1 = blankComment x
  | ⟨_, _, _, cs, _⟩, st => by simp [blankComment, refreshComment, blankBlocks_refresh dup cs]
theorem blankDelete_refresh (dup : List Str) : ∀ (x : Delete) (s : IdState), blankDelete (refreshDelete dup x s).1 = blankDelete x
  | ⟨_, _, cs⟩, st => by simp [blankDelete, refreshDelete, blankDeleteChildren_refresh dup cs]
theorem blankInsert_refresh (dup : List Str) : ∀ (x : Insert) (s : IdState), blankInsert (refreshInsert dup x s).1 = blankInsert x
  | ⟨_, _, cs⟩, st => by simp [blankInsert, refreshInsert, blankInsertChildren_refresh dup cs]
theorem blankHyperlink_refresh (dup : List Str) : ∀ (x : Hyperlink) (s : IdState), blankHyperlink (refreshHyperlink dup x s).1 = blankHyperlink x
  | ⟨_, _, cs⟩, st => by simp [blankHyperlink, refreshHyperlink, blankParagraphChildren_refresh dup cs]
theorem blankParagraph_refresh (dup : List Str) : ∀ (x : Paragraph) (s : IdState), blankParagraph (refreshParagraph dup x s).1 = blankParagraph x
  | ⟨_, cs, _, _⟩, st => by simp [blankParagraph, refreshParagraph, blankParagraphChildren_refresh dup cs]
theorem blankSdt_refresh (dup : List Str) : ∀ (x : Sdt) (s : IdState), blankSdt (refreshSdt dup x s).1 = blankSdt x
  | ⟨cs, _, _⟩, st => by simp [blankSdt, refreshSdt, blankSdtChildren_refresh dup cs]
theorem blankTable_refresh (dup : List Str) : ∀ (x : Table) (s : IdState), blankTable (refreshTable dup x s).1 = blankTable x
  | ⟨cs, _, _, _⟩, st => by simp [blankTable, refreshTable, blankRows_refresh dup cs]
theorem blankRow_refresh (dup : List Str) : ∀ (x : Row) (s : IdState), blankRow (refreshRow dup x s).1 = blankRow x
  | ⟨cs, _, _⟩, st => by simp [blankRow, refreshRow, blankCells_refresh dup cs]
theorem blankCell_refresh (dup : List Str) : ∀ (x : Cell) (s : IdState), blankCell (refreshCell dup x s).1 = blankCell x
  | ⟨cs, _, _⟩, st => by simp [blankCell, refreshCell, blankCellContents_refresh dup cs]
theorem blankRunChildren_refresh (dup : List Str) : ∀ (x : List RunChild) (s : IdState), blankRunChildren (refreshRunChildren dup x s).1 = blankRunChildren x
  | [], st => by simp [blankRunChildren, refreshRunChildren]
  | c :: cs, st => by simp [blankRunChildren, refreshRunChildren, blankRunChild_refresh dup c, blankRunChildren_refresh dup cs]
theorem blankBlocks_refresh (dup : List Str) : ∀ (x : List Block) (s : IdState), blankBlocks (refreshBlocks dup x s).1 = blankBlocks x
  | [], st => by simp [blankBlocks, refreshBlocks]
  | c :: cs, st => by simp [blankBlocks, refreshBlocks, blankBlock_refresh dup c, blankBlocks_refresh dup cs]
theorem blankDeleteChildren_refresh (dup : List Str) : ∀ (x : List DeleteChild) (s : IdState), blankDeleteChildren (refreshDeleteChildren dup x s).1 = blankDeleteChildren x
  | [], st => by simp [blankDeleteChildren, refreshDeleteChildren]
  | c :: cs, st => by simp [blankDeleteChildren, refreshDeleteChildren, blankDeleteChild_refresh dup c, blankDeleteChildren_refresh dup cs]
theorem blankInsertChildren_refresh (dup : List Str) : ∀ (x : List InsertChild) (s : IdState), blankInsertChildren (refreshInsertChildren dup x s).1 = blankInsertChildren x
  | [], st => by simp [blankInsertChildren, refreshInsertChildren]
  | c :: cs, st => by simp [blankInsertChildren, refreshInsertChildren, blankInsertChild_refresh dup c, blankInsertChildren_refresh dup cs]
theorem blankParagraphChildren_refresh (dup : List Str) : ∀ (x : List ParagraphChild) (s : IdState), blankParagraphChildren (refreshParagraphChildren dup x s).1 = blankParagraphChildren x
  | [], st => by simp [blankParagraphChildren, refreshParagraphChildren]
  | c :: cs, st => by simp [blankParagraphChildren, refreshParagraphChildren, blankParagraphChild_refresh dup c, blankParagraphChildren_refresh dup cs]
theorem blankSdtChildren_refresh (dup : List Str) : ∀ (x : List SdtChild) (s : IdState), blankSdtChildren (refreshSdtChildren dup x s).1 = blankSdtChildren x
  | [], st => by simp [blankSdtChildren, refreshSdtChildren]
  | c :: cs, st => by simp [blankSdtChildren, refreshSdtChildren, blankSdtChild_refresh dup c, blankSdtChildren_refresh dup cs]
theorem blankRows_refresh (dup : List Str) : ∀ (x : List Row) (s : IdState), blankRows (refreshRows dup x s).1 = blankRows x
  | [], st => by simp [blankRows, refreshRows]
  | c :: cs, st => by simp [blankRows, refreshRows, blankRow_refresh dup c, blankRows_refresh dup cs]
theorem blankCells_refresh (dup : List Str) : ∀ (x : List Cell) (s : IdState), blankCells (refreshCells dup x s).1 = blankCells x
  | [], st => by simp [blankCells, refreshCells]
  | c :: cs, st => by simp [blankCells, refreshCells, blankCell_refresh dup c, blankCells_refresh dup cs]
theorem blankCellContents_refresh (dup : List Str) : ∀ (x : List CellContent) (s : IdState), blankCellContents (refreshCellContents dup x s).1 = blankCellContents x
  | [], st => by simp [blankCellContents, refreshCellContents]
  | c :: cs, st => by simp [blankCellContents, refreshCellContents, blankCellContent_refresh dup c, blankCellContents_refresh dup cs]
theorem blankRunChild_refresh (dup : List Str) : ∀ (x : RunChild) (s : IdState), blankRunChild (refreshRunChild dup x s).1 = blankRunChild x
  | .text _, st => by simp [blankRunChild, refreshRunChild]
  | .sym _ _, st => by simp [blankRunChild, refreshRunChild]
  | .deleteText _, st => by simp [blankRunChild, refreshRunChild]
  | .tab, st => by simp [blankRunChild, refreshRunChild]
  | .ptab _, st => by simp [blankRunChild, refreshRunChild]
  | .brk _, st => by simp [blankRunChild, refreshRunChild]
  | .carriageReturn, st => by simp [blankRunChild, refreshRunChild]
  | .picture _, st => by simp [blankRunChild, refreshRunChild]
  | .textBox bs, st => by simp [blankRunChild, refreshRunChild]
  | .emptyDrawing, st => by simp [blankRunChild, refreshRunChild]
  | .shape _, st => by simp [blankRunChild, refreshRunChild]
  | .commentStart _ c, st => by simp [blankRunChild, refreshRunChild, blankComment_refresh dup c]
  | .commentEnd _, st => by simp [blankRunChild, refreshRunChild]
  | .fieldChar _ _, st => by simp [blankRunChild, refreshRunChild]
  | .instrText _, st => by simp [blankRunChild, refreshRunChild]
  | .deleteInstrText _, st => by simp [blankRunChild, refreshRunChild]
  | .instrTextString _, st => by simp [blankRunChild, refreshRunChild]
  | .footnoteReference _ _ ps, st => by simp [blankRunChild, refreshRunChild]
  | .shading _, st => by simp [blankRunChild, refreshRunChild]
theorem blankBlock_refresh (dup : List Str) : ∀ (x : Block) (s : IdState), blankBlock (refreshBlock dup x s).1 = blankBlock x
  | .paragraph p, st => by simp [blankBlock, refreshBlock, blankParagraph_refresh dup p]
  | .table t, st => by simp [blankBlock, refreshBlock, blankTable_refresh dup t]
theorem blankDeleteChild_refresh (dup : List Str) : ∀ (x : DeleteChild) (s : IdState), blankDeleteChild (refreshDeleteChild dup x s).1 = blankDeleteChild x
  | .run r, st => by simp [blankDeleteChild, refreshDeleteChild, blankRun_refresh dup r]
  | .commentStart _ c, st => by simp [blankDeleteChild, refreshDeleteChild, blankComment_refresh dup c]
  | .commentEnd _, st => by simp [blankDeleteChild, refreshDeleteChild]
theorem blankInsertChild_refresh (dup : List Str) : ∀ (x : InsertChild) (s : IdState), blankInsertChild (refreshInsertChild dup x s).1 = blankInsertChild x
  | .run r, st => by simp [blankInsertChild, refreshInsertChild, blankRun_refresh dup r]
  | .delete d, st => by simp [blankInsertChild, refreshInsertChild, blankDelete_refresh dup d]
  | .commentStart _ c, st => by simp [blankInsertChild, refreshInsertChild, blankComment_refresh dup c]
  | .commentEnd _, st => by simp [blankInsertChild, refreshInsertChild]
theorem blankParagraphChild_refresh (dup : List Str) : ∀ (x : ParagraphChild) (s : IdState), blankParagraphChild (refreshParagraphChild dup x s).1 = blankParagraphChild x
  | .run r, st => by simp [blankParagraphChild, refreshParagraphChild, blankRun_refresh dup r]
  | .insert i, st => by simp [blankParagraphChild, refreshParagraphChild, blankInsert_refresh dup i]
  | .delete d, st => by simp [blankParagraphChild, refreshParagraphChild, blankDelete_refresh dup d]
  | .moveFrom d, st => by simp [blankParagraphChild, refreshParagraphChild, blankDelete_refresh dup d]
  | .moveTo i, st => by simp [blankParagraphChild, refreshParagraphChild, blankInsert_refresh dup i]
  | .bookmarkStart _ _, st => by simp [blankParagraphChild, refreshParagraphChild]
  | .hyperlink h, st => by simp [blankParagraphChild, refreshParagraphChild, blankHyperlink_refresh dup h]
  | .bookmarkEnd _, st => by simp [blankParagraphChild, refreshParagraphChild]
  | .commentStart _ c, st => by simp [blankParagraphChild, refreshParagraphChild, blankComment_refresh dup c]
  | .commentEnd _, st => by simp [blankParagraphChild, refreshParagraphChild]
  | .sdt s, st => by simp [blankParagraphChild, refreshParagraphChild, blankSdt_refresh dup s]
  | .pageNum _, st => by simp [blankParagraphChild, refreshParagraphChild]
  | .numPages _, st => by simp [blankParagraphChild, refreshParagraphChild]
theorem blankSdtChild_refresh (dup : List Str) : ∀ (x : SdtChild) (s : IdState), blankSdtChild (refreshSdtChild dup x s).1 = blankSdtChild x
  | .run r, st => by simp [blankSdtChild, refreshSdtChild, blankRun_refresh dup r]
  | .paragraph p, st => by simp [blankSdtChild, refreshSdtChild, blankParagraph_refresh dup p]
  | .table t, st => by simp [blankSdtChild, refreshSdtChild, blankTable_refresh dup t]
  | .bookmarkStart _ _, st => by simp [blankSdtChild, refreshSdtChild]
  | .bookmarkEnd _, st => by simp [blankSdtChild, refreshSdtChild]
  | .commentStart _ c, st => by simp [blankSdtChild, refreshSdtChild, blankComment_refresh dup c]
  | .commentEnd _, st => by simp [blankSdtChild, refreshSdtChild]
  | .sdt s, st => by simp [blankSdtChild, refreshSdtChild, blankSdt_refresh dup s]
theorem blankCellContent_refresh (dup : List Str) : ∀ (x : CellContent) (s : IdState), blankCellContent (refreshCellContent dup x s).1 = blankCellContent x
  | .paragraph p, st => by simp [blankCellContent, refreshCellContent, blankParagraph_refresh dup p]
  | .table t, st => by simp [blankCellContent, refreshCellContent, blankTable_refresh dup t]
  | .sdt s, st => by simp [blankCellContent, refreshCellContent, blankSdt_refresh dup s]
  | .toc t, st => by simp [blankCellContent, refreshCellContent, blankToc_refresh dup t]
theorem blankToc_refresh (dup : List Str) : ∀ (x : Toc) (s : IdState), blankToc (refreshToc dup x s).1 = blankToc x
  | ⟨_, _, _, _, _, _, _, bs, as, _, _⟩, st => by simp [blankToc, refreshToc, blankBlocks_refresh dup bs, blankBlocks_refresh dup as]

end

end Docx

