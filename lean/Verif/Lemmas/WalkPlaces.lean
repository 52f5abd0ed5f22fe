import Verif.Lemmas.BlankWalk

/-!
# Two facts about walks

What a walk lists does not depend on where it starts, and it lists the content of every comment and footnote it lists.
-/

namespace Docx

open Docx.Spec

section
variable {α : Type} {f : Item → List α}

mutual
theorem walkRun_place : ∀ (x : Run) (w w' : List Place), pick (fun _ => f) (walkRun w x) = pick (fun _ => f) (walkRun w' x)
  | ⟨pr, cs⟩, w, w' => by
    simp only [walkRun, pick_cons]
    rw [walkRunChildren_place cs _ _]
theorem walkComment_place : ∀ (x : Comment) (w w' : List Place), pick (fun _ => f) (walkComment w x) = pick (fun _ => f) (walkComment w' x)
  | ⟨_, _, _, cs, _⟩, w, w' => by
    simp only [walkComment, pick_cons]
    rw [walkBlocks_place cs _ _]
theorem walkDelete_place : ∀ (x : Delete) (w w' : List Place), pick (fun _ => f) (walkDelete w x) = pick (fun _ => f) (walkDelete w' x)
  | ⟨_, _, cs⟩, w, w' => by
    simp only [walkDelete, pick_cons]
    rw [walkDeleteChildren_place cs _ _]
theorem walkInsert_place : ∀ (x : Insert) (w w' : List Place), pick (fun _ => f) (walkInsert w x) = pick (fun _ => f) (walkInsert w' x)
  | ⟨_, _, cs⟩, w, w' => by
    simp only [walkInsert, pick_cons]
    rw [walkInsertChildren_place cs _ _]
theorem walkHyperlink_place : ∀ (x : Hyperlink) (w w' : List Place), pick (fun _ => f) (walkHyperlink w x) = pick (fun _ => f) (walkHyperlink w' x)
  | ⟨l, h, cs⟩, w, w' => by
    simp only [walkHyperlink, pick_cons]
    rw [walkParagraphChildren_place cs _ _]
theorem walkParagraph_place : ∀ (x : Paragraph) (w w' : List Place), pick (fun _ => f) (walkParagraph w x) = pick (fun _ => f) (walkParagraph w' x)
  | ⟨i, cs, pr, n⟩, w, w' => by
    simp only [walkParagraph, pick_cons]
    rw [walkParagraphChildren_place cs _ _]
theorem walkSdt_place : ∀ (x : Sdt) (w w' : List Place), pick (fun _ => f) (walkSdt w x) = pick (fun _ => f) (walkSdt w' x)
  | ⟨cs, pr, n⟩, w, w' => by
    simp only [walkSdt, pick_cons]
    rw [walkSdtChildren_place cs _ _]
theorem walkTable_place : ∀ (x : Table) (w w' : List Place), pick (fun _ => f) (walkTable w x) = pick (fun _ => f) (walkTable w' x)
  | ⟨cs, g, n, pr⟩, w, w' => by
    simp only [walkTable, pick_cons]
    rw [walkRows_place cs _ _]
theorem walkRow_place : ∀ (x : Row) (w w' : List Place), pick (fun _ => f) (walkRow w x) = pick (fun _ => f) (walkRow w' x)
  | ⟨cs, _, _⟩, w, w' => by
    simp only [walkRow, pick_cons]
    rw [walkCells_place cs _ _]
theorem walkCell_place : ∀ (x : Cell) (w w' : List Place), pick (fun _ => f) (walkCell w x) = pick (fun _ => f) (walkCell w' x)
  | ⟨cs, pr, n⟩, w, w' => by
    simp only [walkCell, pick_cons]
    rw [walkCellContents_place cs _ _]
theorem walkRunChildren_place : ∀ (x : List RunChild) (w w' : List Place), pick (fun _ => f) (walkRunChildren w x) = pick (fun _ => f) (walkRunChildren w' x)
  | [], _, _ => rfl
  | c :: cs, w, w' => by
    simp only [walkRunChildren, pick_append]
    rw [walkRunChild_place c _ w', walkRunChildren_place cs _ w']
theorem walkBlocks_place : ∀ (x : List Block) (w w' : List Place), pick (fun _ => f) (walkBlocks w x) = pick (fun _ => f) (walkBlocks w' x)
  | [], _, _ => rfl
  | c :: cs, w, w' => by
    simp only [walkBlocks, pick_append]
    rw [walkBlock_place c _ w', walkBlocks_place cs _ w']
theorem walkDeleteChildren_place : ∀ (x : List DeleteChild) (w w' : List Place), pick (fun _ => f) (walkDeleteChildren w x) = pick (fun _ => f) (walkDeleteChildren w' x)
  | [], _, _ => rfl
  | c :: cs, w, w' => by
    simp only [walkDeleteChildren, pick_append]
    rw [walkDeleteChild_place c _ w', walkDeleteChildren_place cs _ w']
theorem walkInsertChildren_place : ∀ (x : List InsertChild) (w w' : List Place), pick (fun _ => f) (walkInsertChildren w x) = pick (fun _ => f) (walkInsertChildren w' x)
  | [], _, _ => rfl
  | c :: cs, w, w' => by
    simp only [walkInsertChildren, pick_append]
    rw [walkInsertChild_place c _ w', walkInsertChildren_place cs _ w']
theorem walkParagraphChildren_place : ∀ (x : List ParagraphChild) (w w' : List Place), pick (fun _ => f) (walkParagraphChildren w x) = pick (fun _ => f) (walkParagraphChildren w' x)
  | [], _, _ => rfl
  | c :: cs, w, w' => by
    simp only [walkParagraphChildren, pick_append]
    rw [walkParagraphChild_place c _ w', walkParagraphChildren_place cs _ w']
theorem walkSdtChildren_place : ∀ (x : List SdtChild) (w w' : List Place), pick (fun _ => f) (walkSdtChildren w x) = pick (fun _ => f) (walkSdtChildren w' x)
  | [], _, _ => rfl
  | c :: cs, w, w' => by
    simp only [walkSdtChildren, pick_append]
    rw [walkSdtChild_place c _ w', walkSdtChildren_place cs _ w']
theorem walkRows_place : ∀ (x : List Row) (w w' : List Place), pick (fun _ => f) (walkRows w x) = pick (fun _ => f) (walkRows w' x)
  | [], _, _ => rfl
  | c :: cs, w, w' => by
    simp only [walkRows, pick_append]
    rw [walkRow_place c _ w', walkRows_place cs _ w']
theorem walkCells_place : ∀ (x : List Cell) (w w' : List Place), pick (fun _ => f) (walkCells w x) = pick (fun _ => f) (walkCells w' x)
  | [], _, _ => rfl
  | c :: cs, w, w' => by
    simp only [walkCells, pick_append]
    rw [walkCell_place c _ w', walkCells_place cs _ w']
theorem walkCellContents_place : ∀ (x : List CellContent) (w w' : List Place), pick (fun _ => f) (walkCellContents w x) = pick (fun _ => f) (walkCellContents w' x)
  | [], _, _ => rfl
  | c :: cs, w, w' => by
    simp only [walkCellContents, pick_append]
    rw [walkCellContent_place c _ w', walkCellContents_place cs _ w']
theorem walkParagraphs_place : ∀ (x : List Paragraph) (w w' : List Place), pick (fun _ => f) (walkParagraphs w x) = pick (fun _ => f) (walkParagraphs w' x)
  | [], _, _ => rfl
  | c :: cs, w, w' => by
    simp only [walkParagraphs, pick_append]
    rw [walkParagraph_place c _ w', walkParagraphs_place cs _ w']
theorem walkRunChild_place : ∀ (x : RunChild) (w w' : List Place), pick (fun _ => f) (walkRunChild w x) = pick (fun _ => f) (walkRunChild w' x)
  | .text _, _, _ => by simp only [walkRunChild, pick_cons]
  | .sym _ _, _, _ => by simp only [walkRunChild, pick_cons]
  | .deleteText _, _, _ => by simp only [walkRunChild, pick_cons]
  | .tab, _, _ => by simp only [walkRunChild, pick_cons]
  | .ptab _, _, _ => by simp only [walkRunChild, pick_cons]
  | .brk _, _, _ => by simp only [walkRunChild, pick_cons]
  | .carriageReturn, _, _ => by simp only [walkRunChild, pick_cons]
  | .emptyDrawing, _, _ => by simp only [walkRunChild, pick_cons]
  | .shape _, _, _ => by simp only [walkRunChild, pick_cons]
  | .commentEnd _, _, _ => by simp only [walkRunChild, pick_cons]
  | .fieldChar _ _, _, _ => by simp only [walkRunChild, pick_cons]
  | .instrText _, _, _ => by simp only [walkRunChild, pick_cons]
  | .deleteInstrText _, _, _ => by simp only [walkRunChild, pick_cons]
  | .instrTextString _, _, _ => by simp only [walkRunChild, pick_cons]
  | .shading _, _, _ => by simp only [walkRunChild, pick_cons]
  | .picture _, _, _ => by simp only [walkRunChild, pick_cons]
  | .textBox bs, w, w' => by
    simp only [walkRunChild, pick_cons]
    rw [walkBlocks_place bs _ _]
  | .commentStart i c, w, w' => by
    simp only [walkRunChild, pick_cons]
    rw [walkComment_place c _ _]
  | .footnoteReference i s ps, w, w' => by
    simp only [walkRunChild, pick_cons]
    rw [walkParagraphs_place ps _ _]
theorem walkBlock_place : ∀ (x : Block) (w w' : List Place), pick (fun _ => f) (walkBlock w x) = pick (fun _ => f) (walkBlock w' x)
  | .paragraph x, w, w' => by
    simp only [walkBlock]
    rw [walkParagraph_place x _ _]
  | .table x, w, w' => by
    simp only [walkBlock]
    rw [walkTable_place x _ _]
theorem walkDeleteChild_place : ∀ (x : DeleteChild) (w w' : List Place), pick (fun _ => f) (walkDeleteChild w x) = pick (fun _ => f) (walkDeleteChild w' x)
  | .run x, w, w' => by
    simp only [walkDeleteChild]
    rw [walkRun_place x _ _]
  | .commentStart i c, w, w' => by
    simp only [walkDeleteChild, pick_cons]
    rw [walkComment_place c _ _]
  | .commentEnd _, _, _ => rfl
theorem walkInsertChild_place : ∀ (x : InsertChild) (w w' : List Place), pick (fun _ => f) (walkInsertChild w x) = pick (fun _ => f) (walkInsertChild w' x)
  | .run x, w, w' => by
    simp only [walkInsertChild]
    rw [walkRun_place x _ _]
  | .delete x, w, w' => by
    simp only [walkInsertChild]
    rw [walkDelete_place x _ _]
  | .commentStart i c, w, w' => by
    simp only [walkInsertChild, pick_cons]
    rw [walkComment_place c _ _]
  | .commentEnd _, _, _ => rfl
theorem walkParagraphChild_place : ∀ (x : ParagraphChild) (w w' : List Place), pick (fun _ => f) (walkParagraphChild w x) = pick (fun _ => f) (walkParagraphChild w' x)
  | .run x, w, w' => by
    simp only [walkParagraphChild]
    rw [walkRun_place x _ _]
  | .insert x, w, w' => by
    simp only [walkParagraphChild]
    rw [walkInsert_place x _ _]
  | .delete x, w, w' => by
    simp only [walkParagraphChild]
    rw [walkDelete_place x _ _]
  | .moveFrom x, w, w' => by
    simp only [walkParagraphChild]
    rw [walkDelete_place x _ _]
  | .moveTo x, w, w' => by
    simp only [walkParagraphChild]
    rw [walkInsert_place x _ _]
  | .bookmarkStart _ _, _, _ => rfl
  | .hyperlink x, w, w' => by
    simp only [walkParagraphChild]
    rw [walkHyperlink_place x _ _]
  | .bookmarkEnd _, _, _ => rfl
  | .commentStart i c, w, w' => by
    simp only [walkParagraphChild, pick_cons]
    rw [walkComment_place c _ _]
  | .commentEnd _, _, _ => rfl
  | .sdt x, w, w' => by
    simp only [walkParagraphChild]
    rw [walkSdt_place x _ _]
  | .pageNum _, _, _ => rfl
  | .numPages _, _, _ => rfl
theorem walkSdtChild_place : ∀ (x : SdtChild) (w w' : List Place), pick (fun _ => f) (walkSdtChild w x) = pick (fun _ => f) (walkSdtChild w' x)
  | .run x, w, w' => by
    simp only [walkSdtChild]
    rw [walkRun_place x _ _]
  | .paragraph x, w, w' => by
    simp only [walkSdtChild]
    rw [walkParagraph_place x _ _]
  | .table x, w, w' => by
    simp only [walkSdtChild]
    rw [walkTable_place x _ _]
  | .bookmarkStart _ _, _, _ => rfl
  | .bookmarkEnd _, _, _ => rfl
  | .commentStart i c, w, w' => by
    simp only [walkSdtChild, pick_cons]
    rw [walkComment_place c _ _]
  | .commentEnd _, _, _ => rfl
  | .sdt x, w, w' => by
    simp only [walkSdtChild]
    rw [walkSdt_place x _ _]
theorem walkCellContent_place : ∀ (x : CellContent) (w w' : List Place), pick (fun _ => f) (walkCellContent w x) = pick (fun _ => f) (walkCellContent w' x)
  | .paragraph x, w, w' => by
    simp only [walkCellContent]
    rw [walkParagraph_place x _ _]
  | .table x, w, w' => by
    simp only [walkCellContent]
    rw [walkTable_place x _ _]
  | .sdt x, w, w' => by
    simp only [walkCellContent]
    rw [walkSdt_place x _ _]
  | .toc x, w, w' => by
    simp only [walkCellContent]
    rw [walkToc_place x _ _]
theorem walkToc_place : ∀ (x : Toc) (w w' : List Place), pick (fun _ => f) (walkToc w x) = pick (fun _ => f) (walkToc w' x)
  | ⟨a, b, c, d, e, f, g, bs, as, i, j⟩, w, w' => by
    simp only [walkToc, pick_cons, pick_append]
    rw [walkBlocks_place bs _ (.tocBefore :: w'), walkBlocks_place as _ (.tocAfter :: w')]
end

theorem walkHeader_place (x : Header) (w w' : List Place) :
    pick (fun _ => f) (walkHeader w x) = pick (fun _ => f) (walkHeader w' x) := by
  simp only [walkHeader, pick_flatMap]
  congr 1
  funext c
  cases c <;> simp only [walkHeaderChild]
  · rw [walkParagraph_place]
  · rw [walkTable_place]
  · rw [walkSdt_place]

end

/-- The walk over what is attached to an item. -/
def attached (w : List Place) : Item → Walk
  | .comment _ c => walkComment (.comment :: w) c
  | .footnote _ ps => walkParagraphs (.footnote :: w) ps
  | _ => []

/-- A walk that lists what is attached to its items. -/
def Closed (l : Walk) : Prop := ∀ x ∈ l, ∀ y ∈ attached x.1 x.2, y ∈ l

theorem closed_nil : Closed [] := fun x hx => by cases hx

theorem closed_cons {w : List Place} {i : Item} {l : Walk} (h : attached w i = []) (hl : Closed l) : Closed ((w, i) :: l) := by
  intro x hx y hy
  rcases List.mem_cons.1 hx with rfl | hx
  · rw [h] at hy; cases hy
  · exact List.mem_cons_of_mem _ (hl x hx y hy)

theorem closed_sub {w : List Place} {i : Item} (h : Closed (attached w i)) : Closed ((w, i) :: attached w i) := by
  intro x hx y hy
  rcases List.mem_cons.1 hx with rfl | hx
  · exact List.mem_cons_of_mem _ hy
  · exact List.mem_cons_of_mem _ (h x hx y hy)

theorem closed_append {a b : Walk} (ha : Closed a) (hb : Closed b) : Closed (a ++ b) := by
  intro x hx y hy
  rcases List.mem_append.1 hx with hx | hx
  · exact List.mem_append_left _ (ha x hx y hy)
  · exact List.mem_append_right _ (hb x hx y hy)

theorem closed_flatMap {α : Type} {l : List α} {f : α → Walk} (h : ∀ a ∈ l, Closed (f a)) : Closed (l.flatMap f) := by
  intro x hx y hy
  obtain ⟨a, ha, hx⟩ := List.mem_flatMap.1 hx
  exact List.mem_flatMap.2 ⟨a, ha, h a ha x hx y hy⟩

mutual
theorem walkRun_closed : ∀ (x : Run) (w : List Place), Closed (walkRun w x)
  | ⟨pr, cs⟩, w => by
    simp only [walkRun]
    exact closed_cons rfl (walkRunChildren_closed cs _)
theorem walkComment_closed : ∀ (x : Comment) (w : List Place), Closed (walkComment w x)
  | ⟨_, _, _, cs, _⟩, w => by
    simp only [walkComment]
    exact walkBlocks_closed cs _
theorem walkDelete_closed : ∀ (x : Delete) (w : List Place), Closed (walkDelete w x)
  | ⟨_, _, cs⟩, w => by
    simp only [walkDelete]
    exact walkDeleteChildren_closed cs _
theorem walkInsert_closed : ∀ (x : Insert) (w : List Place), Closed (walkInsert w x)
  | ⟨_, _, cs⟩, w => by
    simp only [walkInsert]
    exact walkInsertChildren_closed cs _
theorem walkHyperlink_closed : ∀ (x : Hyperlink) (w : List Place), Closed (walkHyperlink w x)
  | ⟨l, h, cs⟩, w => by
    simp only [walkHyperlink]
    exact closed_cons rfl (walkParagraphChildren_closed cs _)
theorem walkParagraph_closed : ∀ (x : Paragraph) (w : List Place), Closed (walkParagraph w x)
  | ⟨i, cs, pr, n⟩, w => by
    simp only [walkParagraph]
    exact closed_cons rfl (walkParagraphChildren_closed cs _)
theorem walkSdt_closed : ∀ (x : Sdt) (w : List Place), Closed (walkSdt w x)
  | ⟨cs, pr, n⟩, w => by
    simp only [walkSdt]
    exact closed_cons rfl (walkSdtChildren_closed cs _)
theorem walkTable_closed : ∀ (x : Table) (w : List Place), Closed (walkTable w x)
  | ⟨cs, g, n, pr⟩, w => by
    simp only [walkTable]
    exact closed_cons rfl (walkRows_closed cs _)
theorem walkRow_closed : ∀ (x : Row) (w : List Place), Closed (walkRow w x)
  | ⟨cs, _, _⟩, w => by
    simp only [walkRow]
    exact walkCells_closed cs _
theorem walkCell_closed : ∀ (x : Cell) (w : List Place), Closed (walkCell w x)
  | ⟨cs, pr, n⟩, w => by
    simp only [walkCell]
    exact closed_cons rfl (walkCellContents_closed cs _)
theorem walkRunChildren_closed : ∀ (x : List RunChild) (w : List Place), Closed (walkRunChildren w x)
  | [], _ => closed_nil
  | c :: cs, w => by
    simp only [walkRunChildren]
    exact closed_append (walkRunChild_closed c _) (walkRunChildren_closed cs _)
theorem walkBlocks_closed : ∀ (x : List Block) (w : List Place), Closed (walkBlocks w x)
  | [], _ => closed_nil
  | c :: cs, w => by
    simp only [walkBlocks]
    exact closed_append (walkBlock_closed c _) (walkBlocks_closed cs _)
theorem walkDeleteChildren_closed : ∀ (x : List DeleteChild) (w : List Place), Closed (walkDeleteChildren w x)
  | [], _ => closed_nil
  | c :: cs, w => by
    simp only [walkDeleteChildren]
    exact closed_append (walkDeleteChild_closed c _) (walkDeleteChildren_closed cs _)
theorem walkInsertChildren_closed : ∀ (x : List InsertChild) (w : List Place), Closed (walkInsertChildren w x)
  | [], _ => closed_nil
  | c :: cs, w => by
    simp only [walkInsertChildren]
    exact closed_append (walkInsertChild_closed c _) (walkInsertChildren_closed cs _)
theorem walkParagraphChildren_closed : ∀ (x : List ParagraphChild) (w : List Place), Closed (walkParagraphChildren w x)
  | [], _ => closed_nil
  | c :: cs, w => by
    simp only [walkParagraphChildren]
    exact closed_append (walkParagraphChild_closed c _) (walkParagraphChildren_closed cs _)
theorem walkSdtChildren_closed : ∀ (x : List SdtChild) (w : List Place), Closed (walkSdtChildren w x)
  | [], _ => closed_nil
  | c :: cs, w => by
    simp only [walkSdtChildren]
    exact closed_append (walkSdtChild_closed c _) (walkSdtChildren_closed cs _)
theorem walkRows_closed : ∀ (x : List Row) (w : List Place), Closed (walkRows w x)
  | [], _ => closed_nil
  | c :: cs, w => by
    simp only [walkRows]
    exact closed_append (walkRow_closed c _) (walkRows_closed cs _)
theorem walkCells_closed : ∀ (x : List Cell) (w : List Place), Closed (walkCells w x)
  | [], _ => closed_nil
  | c :: cs, w => by
    simp only [walkCells]
    exact closed_append (walkCell_closed c _) (walkCells_closed cs _)
theorem walkCellContents_closed : ∀ (x : List CellContent) (w : List Place), Closed (walkCellContents w x)
  | [], _ => closed_nil
  | c :: cs, w => by
    simp only [walkCellContents]
    exact closed_append (walkCellContent_closed c _) (walkCellContents_closed cs _)
theorem walkParagraphs_closed : ∀ (x : List Paragraph) (w : List Place), Closed (walkParagraphs w x)
  | [], _ => closed_nil
  | c :: cs, w => by
    simp only [walkParagraphs]
    exact closed_append (walkParagraph_closed c _) (walkParagraphs_closed cs _)
theorem walkRunChild_closed : ∀ (x : RunChild) (w : List Place), Closed (walkRunChild w x)
  | .text _, _ => closed_cons rfl closed_nil
  | .sym _ _, _ => closed_cons rfl closed_nil
  | .deleteText _, _ => closed_cons rfl closed_nil
  | .tab, _ => closed_cons rfl closed_nil
  | .ptab _, _ => closed_cons rfl closed_nil
  | .brk _, _ => closed_cons rfl closed_nil
  | .carriageReturn, _ => closed_cons rfl closed_nil
  | .emptyDrawing, _ => closed_cons rfl closed_nil
  | .shape _, _ => closed_cons rfl closed_nil
  | .commentEnd _, _ => closed_cons rfl closed_nil
  | .fieldChar _ _, _ => closed_cons rfl closed_nil
  | .instrText _, _ => closed_cons rfl closed_nil
  | .deleteInstrText _, _ => closed_cons rfl closed_nil
  | .instrTextString _, _ => closed_cons rfl closed_nil
  | .shading _, _ => closed_cons rfl closed_nil
  | .picture _, _ => closed_cons rfl (closed_cons rfl closed_nil)
  | .textBox bs, w => by
    simp only [walkRunChild]
    exact closed_cons rfl (walkBlocks_closed bs _)
  | .commentStart i c, w => by
    simp only [walkRunChild]
    exact closed_cons rfl (closed_sub (walkComment_closed c _))
  | .footnoteReference i s ps, w => by
    simp only [walkRunChild]
    exact closed_cons rfl (closed_sub (i := .footnote i ps) (walkParagraphs_closed ps _))
theorem walkBlock_closed : ∀ (x : Block) (w : List Place), Closed (walkBlock w x)
  | .paragraph x, w => by
    simp only [walkBlock]
    exact walkParagraph_closed x _
  | .table x, w => by
    simp only [walkBlock]
    exact walkTable_closed x _
theorem walkDeleteChild_closed : ∀ (x : DeleteChild) (w : List Place), Closed (walkDeleteChild w x)
  | .run x, w => by
    simp only [walkDeleteChild]
    exact walkRun_closed x _
  | .commentStart i c, w => by
    simp only [walkDeleteChild]
    exact closed_sub (walkComment_closed c _)
  | .commentEnd _, _ => closed_nil
theorem walkInsertChild_closed : ∀ (x : InsertChild) (w : List Place), Closed (walkInsertChild w x)
  | .run x, w => by
    simp only [walkInsertChild]
    exact walkRun_closed x _
  | .delete x, w => by
    simp only [walkInsertChild]
    exact walkDelete_closed x _
  | .commentStart i c, w => by
    simp only [walkInsertChild]
    exact closed_sub (walkComment_closed c _)
  | .commentEnd _, _ => closed_nil
theorem walkParagraphChild_closed : ∀ (x : ParagraphChild) (w : List Place), Closed (walkParagraphChild w x)
  | .run x, w => by
    simp only [walkParagraphChild]
    exact walkRun_closed x _
  | .insert x, w => by
    simp only [walkParagraphChild]
    exact walkInsert_closed x _
  | .delete x, w => by
    simp only [walkParagraphChild]
    exact walkDelete_closed x _
  | .moveFrom x, w => by
    simp only [walkParagraphChild]
    exact walkDelete_closed x _
  | .moveTo x, w => by
    simp only [walkParagraphChild]
    exact walkInsert_closed x _
  | .bookmarkStart _ _, _ => closed_nil
  | .hyperlink x, w => by
    simp only [walkParagraphChild]
    exact walkHyperlink_closed x _
  | .bookmarkEnd _, _ => closed_nil
  | .commentStart i c, w => by
    simp only [walkParagraphChild]
    exact closed_sub (walkComment_closed c _)
  | .commentEnd _, _ => closed_nil
  | .sdt x, w => by
    simp only [walkParagraphChild]
    exact walkSdt_closed x _
  | .pageNum _, _ => closed_nil
  | .numPages _, _ => closed_nil
theorem walkSdtChild_closed : ∀ (x : SdtChild) (w : List Place), Closed (walkSdtChild w x)
  | .run x, w => by
    simp only [walkSdtChild]
    exact walkRun_closed x _
  | .paragraph x, w => by
    simp only [walkSdtChild]
    exact walkParagraph_closed x _
  | .table x, w => by
    simp only [walkSdtChild]
    exact walkTable_closed x _
  | .bookmarkStart _ _, _ => closed_nil
  | .bookmarkEnd _, _ => closed_nil
  | .commentStart i c, w => by
    simp only [walkSdtChild]
    exact closed_sub (walkComment_closed c _)
  | .commentEnd _, _ => closed_nil
  | .sdt x, w => by
    simp only [walkSdtChild]
    exact walkSdt_closed x _
theorem walkCellContent_closed : ∀ (x : CellContent) (w : List Place), Closed (walkCellContent w x)
  | .paragraph x, w => by
    simp only [walkCellContent]
    exact walkParagraph_closed x _
  | .table x, w => by
    simp only [walkCellContent]
    exact walkTable_closed x _
  | .sdt x, w => by
    simp only [walkCellContent]
    exact walkSdt_closed x _
  | .toc x, w => by
    simp only [walkCellContent]
    exact walkToc_closed x _
theorem walkToc_closed : ∀ (x : Toc) (w : List Place), Closed (walkToc w x)
  | ⟨a, b, c, d, e, f, g, bs, as, i, j⟩, w => by
    simp only [walkToc]
    exact closed_cons rfl (closed_append (walkBlocks_closed bs _) (walkBlocks_closed as _))
end

theorem walkHeader_closed (x : Header) (w : List Place) : Closed (walkHeader w x) := by
  refine closed_flatMap fun c _ => ?_
  cases c with
  | paragraph x => exact walkParagraph_closed x _
  | table x => exact walkTable_closed x _
  | sdt x => exact walkSdt_closed x _

theorem walkSectionProperty_closed (x : SectionProperty) (w : List Place) : Closed (walkSectionProperty w x) :=
  closed_append (closed_flatMap fun _ _ => walkHeader_closed _ _) (closed_flatMap fun _ _ => walkHeader_closed _ _)

theorem walkSection_closed (x : Section) (w : List Place) : Closed (walkSection w x) := by
  refine closed_append (closed_flatMap fun c _ => ?_) (walkSectionProperty_closed _ _)
  cases c with
  | paragraph x => exact walkParagraph_closed x _
  | table x => exact walkTable_closed x _
  | commentStart i c => exact closed_sub (i := .comment i c) (walkComment_closed c _)
  | sdt x => exact walkSdt_closed x _
  | toc x => exact walkToc_closed x _
  | _ => exact closed_nil

theorem walkDocument_closed (x : Document) : Closed (walkDocument x) := by
  refine closed_append (closed_flatMap fun c _ => ?_) (walkSectionProperty_closed _ _)
  cases c with
  | paragraph x => exact walkParagraph_closed x _
  | table x => exact walkTable_closed x _
  | commentStart i c => exact closed_sub (i := .comment i c) (walkComment_closed c _)
  | sdt x => exact walkSdt_closed x _
  | toc x => exact walkToc_closed x _
  | «section» x => exact walkSection_closed x _
  | _ => exact closed_nil

end Docx
