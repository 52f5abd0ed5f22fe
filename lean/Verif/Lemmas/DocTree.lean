import Verif.Model.DocTree
import Verif.Spec.Pictures

/-! Lemmas about the document traversal: it is a map over the list of the visited items. -/

set_option linter.unusedSimpArgs false
namespace Docx
open Docx.Spec

/-- Every item of a walk that starts inside `w` is inside `w`. -/
def Under (w : List Place) (l : Walk) : Prop := ∀ y ∈ l, w <:+ y.1

theorem Under.tail {p : Place} {w : List Place} {l : Walk} (h : Under (p :: w) l) : Under w l :=
  fun y hy => (List.suffix_cons p w).trans (h y hy)

theorem Under.cons (w : List Place) (i : Item) {l : Walk} (h : Under w l) : Under w ((w, i) :: l) := by
  intro y hy
  rcases List.mem_cons.mp hy with rfl | hy
  · exact List.suffix_refl _
  · exact h y hy

theorem Under.append {w : List Place} {a b : Walk} (ha : Under w a) (hb : Under w b) :
    Under w (a ++ b) := by
  intro y hy
  rcases List.mem_append.mp hy with hy | hy
  · exact ha y hy
  · exact hb y hy

mutual

theorem walkRun_under : ∀ (x : Run) (w : List Place), Under w (walkRun w x)
  | ⟨_, cs⟩, w => by simpa only [walkRun] using Under.cons w _ (Under.tail (walkRunChildren_under cs (.run :: w)))
theorem walkComment_under : ∀ (x : Comment) (w : List Place), Under w (walkComment w x)
  | ⟨_, _, _, cs, _⟩, w => by simpa only [walkComment] using walkBlocks_under cs w
theorem walkDelete_under : ∀ (x : Delete) (w : List Place), Under w (walkDelete w x)
  | ⟨_, _, cs⟩, w => by simpa only [walkDelete] using walkDeleteChildren_under cs w
theorem walkInsert_under : ∀ (x : Insert) (w : List Place), Under w (walkInsert w x)
  | ⟨_, _, cs⟩, w => by simpa only [walkInsert] using walkInsertChildren_under cs w
theorem walkHyperlink_under : ∀ (x : Hyperlink) (w : List Place), Under w (walkHyperlink w x)
  | ⟨_, _, cs⟩, w => by simpa only [walkHyperlink] using Under.cons w _ (Under.tail (walkParagraphChildren_under cs (.hyperlink :: w)))
theorem walkParagraph_under : ∀ (x : Paragraph) (w : List Place), Under w (walkParagraph w x)
  | ⟨_, cs, _, _⟩, w => by simpa only [walkParagraph] using Under.cons w _ (Under.tail (walkParagraphChildren_under cs (.paragraph :: w)))
theorem walkSdt_under : ∀ (x : Sdt) (w : List Place), Under w (walkSdt w x)
  | ⟨cs, _, _⟩, w => by simpa only [walkSdt] using Under.cons w _ (Under.tail (walkSdtChildren_under cs (.sdt :: w)))
theorem walkTable_under : ∀ (x : Table) (w : List Place), Under w (walkTable w x)
  | ⟨cs, _, _, _⟩, w => by simpa only [walkTable] using Under.cons w _ (walkRows_under cs w)
theorem walkRow_under : ∀ (x : Row) (w : List Place), Under w (walkRow w x)
  | ⟨cs, _, _⟩, w => by simpa only [walkRow] using walkCells_under cs w
theorem walkCell_under : ∀ (x : Cell) (w : List Place), Under w (walkCell w x)
  | ⟨cs, _, _⟩, w => by simpa only [walkCell] using Under.cons w _ (Under.tail (walkCellContents_under cs (.cell :: w)))
theorem walkRunChildren_under : ∀ (x : List RunChild) (w : List Place), Under w (walkRunChildren w x)
  | [], w => by simp [walkRunChildren, Under]
  | c :: cs, w => by simpa only [walkRunChildren] using Under.append (walkRunChild_under c w) (walkRunChildren_under cs w)
theorem walkBlocks_under : ∀ (x : List Block) (w : List Place), Under w (walkBlocks w x)
  | [], w => by simp [walkBlocks, Under]
  | c :: cs, w => by simpa only [walkBlocks] using Under.append (walkBlock_under c w) (walkBlocks_under cs w)
theorem walkDeleteChildren_under : ∀ (x : List DeleteChild) (w : List Place), Under w (walkDeleteChildren w x)
  | [], w => by simp [walkDeleteChildren, Under]
  | c :: cs, w => by simpa only [walkDeleteChildren] using Under.append (walkDeleteChild_under c w) (walkDeleteChildren_under cs w)
theorem walkInsertChildren_under : ∀ (x : List InsertChild) (w : List Place), Under w (walkInsertChildren w x)
  | [], w => by simp [walkInsertChildren, Under]
  | c :: cs, w => by simpa only [walkInsertChildren] using Under.append (walkInsertChild_under c w) (walkInsertChildren_under cs w)
theorem walkParagraphChildren_under : ∀ (x : List ParagraphChild) (w : List Place), Under w (walkParagraphChildren w x)
  | [], w => by simp [walkParagraphChildren, Under]
  | c :: cs, w => by simpa only [walkParagraphChildren] using Under.append (walkParagraphChild_under c w) (walkParagraphChildren_under cs w)
theorem walkSdtChildren_under : ∀ (x : List SdtChild) (w : List Place), Under w (walkSdtChildren w x)
  | [], w => by simp [walkSdtChildren, Under]
  | c :: cs, w => by simpa only [walkSdtChildren] using Under.append (walkSdtChild_under c w) (walkSdtChildren_under cs w)
theorem walkRows_under : ∀ (x : List Row) (w : List Place), Under w (walkRows w x)
  | [], w => by simp [walkRows, Under]
  | c :: cs, w => by simpa only [walkRows] using Under.append (walkRow_under c w) (walkRows_under cs w)
theorem walkCells_under : ∀ (x : List Cell) (w : List Place), Under w (walkCells w x)
  | [], w => by simp [walkCells, Under]
  | c :: cs, w => by simpa only [walkCells] using Under.append (walkCell_under c w) (walkCells_under cs w)
theorem walkCellContents_under : ∀ (x : List CellContent) (w : List Place), Under w (walkCellContents w x)
  | [], w => by simp [walkCellContents, Under]
  | c :: cs, w => by simpa only [walkCellContents] using Under.append (walkCellContent_under c w) (walkCellContents_under cs w)
theorem walkParagraphs_under : ∀ (x : List Paragraph) (w : List Place), Under w (walkParagraphs w x)
  | [], w => by simp [walkParagraphs, Under]
  | c :: cs, w => by simpa only [walkParagraphs] using Under.append (walkParagraph_under c w) (walkParagraphs_under cs w)
theorem walkRunChild_under : ∀ (x : RunChild) (w : List Place), Under w (walkRunChild w x)
  | .text _, w => by simp [walkRunChild, Under]
  | .sym _ _, w => by simp [walkRunChild, Under]
  | .deleteText _, w => by simp [walkRunChild, Under]
  | .tab, w => by simp [walkRunChild, Under]
  | .ptab _, w => by simp [walkRunChild, Under]
  | .brk _, w => by simp [walkRunChild, Under]
  | .carriageReturn, w => by simp [walkRunChild, Under]
  | .picture _, w => by simp [walkRunChild, Under]
  | .textBox bs, w => by simpa only [walkRunChild] using Under.cons w _ (Under.tail (walkBlocks_under bs (.textBox :: w)))
  | .emptyDrawing, w => by simp [walkRunChild, Under]
  | .shape _, w => by simp [walkRunChild, Under]
  | .commentStart _ c, w => by simpa only [walkRunChild] using Under.cons w _ (Under.cons w _ (Under.tail (walkComment_under c (.comment :: w))))
  | .commentEnd _, w => by simp [walkRunChild, Under]
  | .fieldChar _ _, w => by simp [walkRunChild, Under]
  | .instrText _, w => by simp [walkRunChild, Under]
  | .deleteInstrText _, w => by simp [walkRunChild, Under]
  | .instrTextString _, w => by simp [walkRunChild, Under]
  | .footnoteReference _ _ ps, w => by simpa only [walkRunChild] using Under.cons w _ (Under.cons w _ (Under.tail (walkParagraphs_under ps (.footnote :: w))))
  | .shading _, w => by simp [walkRunChild, Under]
theorem walkBlock_under : ∀ (x : Block) (w : List Place), Under w (walkBlock w x)
  | .paragraph p, w => by simpa only [walkBlock] using walkParagraph_under p w
  | .table t, w => by simpa only [walkBlock] using walkTable_under t w
theorem walkDeleteChild_under : ∀ (x : DeleteChild) (w : List Place), Under w (walkDeleteChild w x)
  | .run r, w => by simpa only [walkDeleteChild] using walkRun_under r w
  | .commentStart _ c, w => by simpa only [walkDeleteChild] using Under.cons w _ (Under.tail (walkComment_under c (.comment :: w)))
  | .commentEnd _, w => by simp [walkDeleteChild, Under]
theorem walkInsertChild_under : ∀ (x : InsertChild) (w : List Place), Under w (walkInsertChild w x)
  | .run r, w => by simpa only [walkInsertChild] using walkRun_under r w
  | .delete d, w => by simpa only [walkInsertChild] using Under.tail (walkDelete_under d (.delete :: w))
  | .commentStart _ c, w => by simpa only [walkInsertChild] using Under.cons w _ (Under.tail (walkComment_under c (.comment :: w)))
  | .commentEnd _, w => by simp [walkInsertChild, Under]
theorem walkParagraphChild_under : ∀ (x : ParagraphChild) (w : List Place), Under w (walkParagraphChild w x)
  | .run r, w => by simpa only [walkParagraphChild] using walkRun_under r w
  | .insert i, w => by simpa only [walkParagraphChild] using Under.tail (walkInsert_under i (.insert :: w))
  | .delete d, w => by simpa only [walkParagraphChild] using Under.tail (walkDelete_under d (.delete :: w))
  | .moveFrom d, w => by simpa only [walkParagraphChild] using Under.tail (walkDelete_under d (.moveFrom :: w))
  | .moveTo i, w => by simpa only [walkParagraphChild] using Under.tail (walkInsert_under i (.moveTo :: w))
  | .bookmarkStart _ _, w => by simp [walkParagraphChild, Under]
  | .hyperlink h, w => by simpa only [walkParagraphChild] using walkHyperlink_under h w
  | .bookmarkEnd _, w => by simp [walkParagraphChild, Under]
  | .commentStart _ c, w => by simpa only [walkParagraphChild] using Under.cons w _ (Under.tail (walkComment_under c (.comment :: w)))
  | .commentEnd _, w => by simp [walkParagraphChild, Under]
  | .sdt s, w => by simpa only [walkParagraphChild] using walkSdt_under s w
  | .pageNum _, w => by simp [walkParagraphChild, Under]
  | .numPages _, w => by simp [walkParagraphChild, Under]
theorem walkSdtChild_under : ∀ (x : SdtChild) (w : List Place), Under w (walkSdtChild w x)
  | .run r, w => by simpa only [walkSdtChild] using walkRun_under r w
  | .paragraph p, w => by simpa only [walkSdtChild] using walkParagraph_under p w
  | .table t, w => by simpa only [walkSdtChild] using walkTable_under t w
  | .bookmarkStart _ _, w => by simp [walkSdtChild, Under]
  | .bookmarkEnd _, w => by simp [walkSdtChild, Under]
  | .commentStart _ c, w => by simpa only [walkSdtChild] using Under.cons w _ (Under.tail (walkComment_under c (.comment :: w)))
  | .commentEnd _, w => by simp [walkSdtChild, Under]
  | .sdt s, w => by simpa only [walkSdtChild] using walkSdt_under s w
theorem walkCellContent_under : ∀ (x : CellContent) (w : List Place), Under w (walkCellContent w x)
  | .paragraph p, w => by simpa only [walkCellContent] using walkParagraph_under p w
  | .table t, w => by simpa only [walkCellContent] using walkTable_under t w
  | .sdt s, w => by simpa only [walkCellContent] using walkSdt_under s w
  | .toc t, w => by simpa only [walkCellContent] using walkToc_under t w
theorem walkToc_under : ∀ (x : Toc) (w : List Place), Under w (walkToc w x)
  | ⟨_, _, _, _, _, _, _, bs, as, _, _⟩, w => by simpa only [walkToc] using Under.cons w _ (Under.append (Under.tail (walkBlocks_under bs (.tocBefore :: w))) (Under.tail (walkBlocks_under as (.tocAfter :: w))))

end

/-- What the two visitors of the code base look at. -/
inductive Visited where
  | pic (p : Pic)
  | fn (f : Footnote)

def Spec.Item.visited? : Item → Option Visited
  | .picture p => some (.pic p)
  | .footnote i ps => some (.fn ⟨i, ps⟩)
  | _ => none

/-- The visited items of a walk. -/
def visited (l : Walk) : List Visited := (l.within inPart).filterMap Item.visited?

theorem visited_nil : visited [] = [] := rfl

theorem visited_cons (w : List Place) (i : Item) (l : Walk) :
    visited ((w, i) :: l) = (if inPart w then i.visited?.toList else []) ++ visited l := by
  unfold visited Walk.within
  cases h : inPart w <;> simp [h, List.filterMap_cons]
  cases i.visited? <;> simp

theorem visited_append (a b : Walk) : visited (a ++ b) = visited a ++ visited b := by
  simp [visited, Walk.within]

theorem inPart_cons (p : Place) (w : List Place) :
    inPart (p :: w) = (decide (p ≠ .comment ∧ p ≠ .footnote ∧ p ≠ .textBox ∧ p ≠ .header ∧ p ≠ .footer)
      && inPart w) := by
  unfold inPart
  cases p <;> simp

theorem inPart_suffix {v w : List Place} (h : v <:+ w) (hw : inPart w = true) : inPart v = true := by
  unfold inPart at *
  simp only [Bool.and_eq_true, decide_eq_true_eq] at *
  obtain ⟨⟨⟨⟨a, b⟩, c⟩, d⟩, e⟩ := hw
  exact ⟨⟨⟨⟨fun x => a (h.mem x), fun x => b (h.mem x)⟩, fun x => c (h.mem x)⟩, fun x => d (h.mem x)⟩,
    fun x => e (h.mem x)⟩

theorem visited_of_under {w : List Place} {l : Walk} (h : Under w l) (hw : inPart w = false) :
    visited l = [] := by
  unfold visited Walk.within
  have : l.filter (fun x => inPart x.1) = [] := by
    rw [List.filter_eq_nil_iff]
    intro y hy hk
    have := inPart_suffix (h y hy) hk
    simp [hw] at this
  simp [this]

theorem visited_walkComment (c : Comment) (w : List Place) : visited (walkComment (.comment :: w) c) = [] :=
  visited_of_under (walkComment_under c _) (by simp [inPart_cons])

theorem visited_walkBlocks_textBox (c : List Block) (w : List Place) :
    visited (walkBlocks (.textBox :: w) c) = [] :=
  visited_of_under (walkBlocks_under c _) (by simp [inPart_cons])

theorem visited_walkParagraphs_footnote (c : List Paragraph) (w : List Place) :
    visited (walkParagraphs (.footnote :: w) c) = [] :=
  visited_of_under (walkParagraphs_under c _) (by simp [inPart_cons])

/-- A visitor run over a plain list of items. -/
def visitItems {σ : Type} (v : Visitor σ) : List Visited → σ → List Visited × σ
  | [], s => ([], s)
  | .pic p :: l, s =>
    let a := v.picture p s
    let b := visitItems v l a.2
    (.pic a.1 :: b.1, b.2)
  | .fn f :: l, s =>
    let b := visitItems v l (v.footnote f s)
    (.fn f :: b.1, b.2)

theorem visitItems_append {σ : Type} (v : Visitor σ) : ∀ (a b : List Visited) (s : σ),
    visitItems v (a ++ b) s =
      ((visitItems v a s).1 ++ (visitItems v b (visitItems v a s).2).1,
        (visitItems v b (visitItems v a s).2).2)
  | [], b, s => by simp [visitItems]
  | .pic p :: a, b, s => by simp [visitItems, visitItems_append v a b]
  | .fn f :: a, b, s => by simp [visitItems, visitItems_append v a b]

mutual

theorem visitRun_walk {σ : Type} (v : Visitor σ) : ∀ (x : Run) (w : List Place) (s : σ), inPart w = true →
    visitItems v (visited (walkRun w x)) s = (visited (walkRun w (visitRun v x s).1), (visitRun v x s).2)
  | ⟨_, cs⟩, w, st, hb => by simp [visited_cons, visited_append, visited_nil, visitItems, visitItems_append, Item.visited?, hb, inPart_cons, walkRun, visitRun, visitRunChildren_walk v cs (.run :: w) st (by simp [inPart_cons, hb])]
theorem visitDelete_walk {σ : Type} (v : Visitor σ) : ∀ (x : Delete) (w : List Place) (s : σ), inPart w = true →
    visitItems v (visited (walkDelete w x)) s = (visited (walkDelete w (visitDelete v x s).1), (visitDelete v x s).2)
  | ⟨_, _, cs⟩, w, st, hb => by simp [visited_cons, visited_append, visited_nil, visitItems, visitItems_append, Item.visited?, hb, inPart_cons, walkDelete, visitDelete, visitDeleteChildren_walk v cs w st (by simp [inPart_cons, hb])]
theorem visitInsert_walk {σ : Type} (v : Visitor σ) : ∀ (x : Insert) (w : List Place) (s : σ), inPart w = true →
    visitItems v (visited (walkInsert w x)) s = (visited (walkInsert w (visitInsert v x s).1), (visitInsert v x s).2)
  | ⟨_, _, cs⟩, w, st, hb => by simp [visited_cons, visited_append, visited_nil, visitItems, visitItems_append, Item.visited?, hb, inPart_cons, walkInsert, visitInsert, visitInsertChildren_walk v cs w st (by simp [inPart_cons, hb])]
theorem visitHyperlink_walk {σ : Type} (v : Visitor σ) : ∀ (x : Hyperlink) (w : List Place) (s : σ), inPart w = true →
    visitItems v (visited (walkHyperlink w x)) s = (visited (walkHyperlink w (visitHyperlink v x s).1), (visitHyperlink v x s).2)
  | ⟨_, _, cs⟩, w, st, hb => by simp [visited_cons, visited_append, visited_nil, visitItems, visitItems_append, Item.visited?, hb, inPart_cons, walkHyperlink, visitHyperlink, visitParagraphChildren_walk v cs (.hyperlink :: w) st (by simp [inPart_cons, hb])]
theorem visitParagraph_walk {σ : Type} (v : Visitor σ) : ∀ (x : Paragraph) (w : List Place) (s : σ), inPart w = true →
    visitItems v (visited (walkParagraph w x)) s = (visited (walkParagraph w (visitParagraph v x s).1), (visitParagraph v x s).2)
  | ⟨_, cs, _, _⟩, w, st, hb => by simp [visited_cons, visited_append, visited_nil, visitItems, visitItems_append, Item.visited?, hb, inPart_cons, walkParagraph, visitParagraph, visitParagraphChildren_walk v cs (.paragraph :: w) st (by simp [inPart_cons, hb])]
theorem visitSdt_walk {σ : Type} (v : Visitor σ) : ∀ (x : Sdt) (w : List Place) (s : σ), inPart w = true →
    visitItems v (visited (walkSdt w x)) s = (visited (walkSdt w (visitSdt v x s).1), (visitSdt v x s).2)
  | ⟨cs, _, _⟩, w, st, hb => by simp [visited_cons, visited_append, visited_nil, visitItems, visitItems_append, Item.visited?, hb, inPart_cons, walkSdt, visitSdt, visitSdtChildren_walk v cs (.sdt :: w) st (by simp [inPart_cons, hb])]
theorem visitTable_walk {σ : Type} (v : Visitor σ) : ∀ (x : Table) (w : List Place) (s : σ), inPart w = true →
    visitItems v (visited (walkTable w x)) s = (visited (walkTable w (visitTable v x s).1), (visitTable v x s).2)
  | ⟨cs, _, _, _⟩, w, st, hb => by simp [visited_cons, visited_append, visited_nil, visitItems, visitItems_append, Item.visited?, hb, inPart_cons, walkTable, visitTable, visitRows_walk v cs w st (by simp [inPart_cons, hb])]
theorem visitRow_walk {σ : Type} (v : Visitor σ) : ∀ (x : Row) (w : List Place) (s : σ), inPart w = true →
    visitItems v (visited (walkRow w x)) s = (visited (walkRow w (visitRow v x s).1), (visitRow v x s).2)
  | ⟨cs, _, _⟩, w, st, hb => by simp [visited_cons, visited_append, visited_nil, visitItems, visitItems_append, Item.visited?, hb, inPart_cons, walkRow, visitRow, visitCells_walk v cs w st (by simp [inPart_cons, hb])]
theorem visitCell_walk {σ : Type} (v : Visitor σ) : ∀ (x : Cell) (w : List Place) (s : σ), inPart w = true →
    visitItems v (visited (walkCell w x)) s = (visited (walkCell w (visitCell v x s).1), (visitCell v x s).2)
  | ⟨cs, _, _⟩, w, st, hb => by simp [visited_cons, visited_append, visited_nil, visitItems, visitItems_append, Item.visited?, hb, inPart_cons, walkCell, visitCell, visitCellContents_walk v cs (.cell :: w) st (by simp [inPart_cons, hb])]
theorem visitRunChildren_walk {σ : Type} (v : Visitor σ) : ∀ (x : List RunChild) (w : List Place) (s : σ), inPart w = true →
    visitItems v (visited (walkRunChildren w x)) s = (visited (walkRunChildren w (visitRunChildren v x s).1), (visitRunChildren v x s).2)
  | [], w, st, hb => by simp [visited_cons, visited_append, visited_nil, visitItems, visitItems_append, Item.visited?, hb, inPart_cons, walkRunChildren, visitRunChildren]
  | c :: cs, w, st, hb => by simp [visited_cons, visited_append, visited_nil, visitItems, visitItems_append, Item.visited?, hb, inPart_cons, walkRunChildren, visitRunChildren, visitRunChild_walk v c w st hb, visitRunChildren_walk v cs w _ hb]
theorem visitBlocks_walk {σ : Type} (v : Visitor σ) : ∀ (x : List Block) (w : List Place) (s : σ), inPart w = true →
    visitItems v (visited (walkBlocks w x)) s = (visited (walkBlocks w (visitBlocks v x s).1), (visitBlocks v x s).2)
  | [], w, st, hb => by simp [visited_cons, visited_append, visited_nil, visitItems, visitItems_append, Item.visited?, hb, inPart_cons, walkBlocks, visitBlocks]
  | c :: cs, w, st, hb => by simp [visited_cons, visited_append, visited_nil, visitItems, visitItems_append, Item.visited?, hb, inPart_cons, walkBlocks, visitBlocks, visitBlock_walk v c w st hb, visitBlocks_walk v cs w _ hb]
theorem visitDeleteChildren_walk {σ : Type} (v : Visitor σ) : ∀ (x : List DeleteChild) (w : List Place) (s : σ), inPart w = true →
    visitItems v (visited (walkDeleteChildren w x)) s = (visited (walkDeleteChildren w (visitDeleteChildren v x s).1), (visitDeleteChildren v x s).2)
  | [], w, st, hb => by simp [visited_cons, visited_append, visited_nil, visitItems, visitItems_append, Item.visited?, hb, inPart_cons, walkDeleteChildren, visitDeleteChildren]
  | c :: cs, w, st, hb => by simp [visited_cons, visited_append, visited_nil, visitItems, visitItems_append, Item.visited?, hb, inPart_cons, walkDeleteChildren, visitDeleteChildren, visitDeleteChild_walk v c w st hb, visitDeleteChildren_walk v cs w _ hb]
theorem visitInsertChildren_walk {σ : Type} (v : Visitor σ) : ∀ (x : List InsertChild) (w : List Place) (s : σ), inPart w = true →
    visitItems v (visited (walkInsertChildren w x)) s = (visited (walkInsertChildren w (visitInsertChildren v x s).1), (visitInsertChildren v x s).2)
  | [], w, st, hb => by simp [visited_cons, visited_append, visited_nil, visitItems, visitItems_append, Item.visited?, hb, inPart_cons, walkInsertChildren, visitInsertChildren]
  | c :: cs, w, st, hb => by simp [visited_cons, visited_append, visited_nil, visitItems, visitItems_append, Item.visited?, hb, inPart_cons, walkInsertChildren, visitInsertChildren, visitInsertChild_walk v c w st hb, visitInsertChildren_walk v cs w _ hb]
theorem visitParagraphChildren_walk {σ : Type} (v : Visitor σ) : ∀ (x : List ParagraphChild) (w : List Place) (s : σ), inPart w = true →
    visitItems v (visited (walkParagraphChildren w x)) s = (visited (walkParagraphChildren w (visitParagraphChildren v x s).1), (visitParagraphChildren v x s).2)
  | [], w, st, hb => by simp [visited_cons, visited_append, visited_nil, visitItems, visitItems_append, Item.visited?, hb, inPart_cons, walkParagraphChildren, visitParagraphChildren]
  | c :: cs, w, st, hb => by simp [visited_cons, visited_append, visited_nil, visitItems, visitItems_append, Item.visited?, hb, inPart_cons, walkParagraphChildren, visitParagraphChildren, visitParagraphChild_walk v c w st hb, visitParagraphChildren_walk v cs w _ hb]
theorem visitSdtChildren_walk {σ : Type} (v : Visitor σ) : ∀ (x : List SdtChild) (w : List Place) (s : σ), inPart w = true →
    visitItems v (visited (walkSdtChildren w x)) s = (visited (walkSdtChildren w (visitSdtChildren v x s).1), (visitSdtChildren v x s).2)
  | [], w, st, hb => by simp [visited_cons, visited_append, visited_nil, visitItems, visitItems_append, Item.visited?, hb, inPart_cons, walkSdtChildren, visitSdtChildren]
  | c :: cs, w, st, hb => by simp [visited_cons, visited_append, visited_nil, visitItems, visitItems_append, Item.visited?, hb, inPart_cons, walkSdtChildren, visitSdtChildren, visitSdtChild_walk v c w st hb, visitSdtChildren_walk v cs w _ hb]
theorem visitRows_walk {σ : Type} (v : Visitor σ) : ∀ (x : List Row) (w : List Place) (s : σ), inPart w = true →
    visitItems v (visited (walkRows w x)) s = (visited (walkRows w (visitRows v x s).1), (visitRows v x s).2)
  | [], w, st, hb => by simp [visited_cons, visited_append, visited_nil, visitItems, visitItems_append, Item.visited?, hb, inPart_cons, walkRows, visitRows]
  | c :: cs, w, st, hb => by simp [visited_cons, visited_append, visited_nil, visitItems, visitItems_append, Item.visited?, hb, inPart_cons, walkRows, visitRows, visitRow_walk v c w st hb, visitRows_walk v cs w _ hb]
theorem visitCells_walk {σ : Type} (v : Visitor σ) : ∀ (x : List Cell) (w : List Place) (s : σ), inPart w = true →
    visitItems v (visited (walkCells w x)) s = (visited (walkCells w (visitCells v x s).1), (visitCells v x s).2)
  | [], w, st, hb => by simp [visited_cons, visited_append, visited_nil, visitItems, visitItems_append, Item.visited?, hb, inPart_cons, walkCells, visitCells]
  | c :: cs, w, st, hb => by simp [visited_cons, visited_append, visited_nil, visitItems, visitItems_append, Item.visited?, hb, inPart_cons, walkCells, visitCells, visitCell_walk v c w st hb, visitCells_walk v cs w _ hb]
theorem visitCellContents_walk {σ : Type} (v : Visitor σ) : ∀ (x : List CellContent) (w : List Place) (s : σ), inPart w = true →
    visitItems v (visited (walkCellContents w x)) s = (visited (walkCellContents w (visitCellContents v x s).1), (visitCellContents v x s).2)
  | [], w, st, hb => by simp [visited_cons, visited_append, visited_nil, visitItems, visitItems_append, Item.visited?, hb, inPart_cons, walkCellContents, visitCellContents]
  | c :: cs, w, st, hb => by simp [visited_cons, visited_append, visited_nil, visitItems, visitItems_append, Item.visited?, hb, inPart_cons, walkCellContents, visitCellContents, visitCellContent_walk v c w st hb, visitCellContents_walk v cs w _ hb]
theorem visitRunChild_walk {σ : Type} (v : Visitor σ) : ∀ (x : RunChild) (w : List Place) (s : σ), inPart w = true →
    visitItems v (visited (walkRunChild w x)) s = (visited (walkRunChild w (visitRunChild v x s).1), (visitRunChild v x s).2)
  | .text _, w, st, hb => by simp [visited_cons, visited_append, visited_nil, visitItems, visitItems_append, Item.visited?, hb, inPart_cons, walkRunChild, visitRunChild]
  | .sym _ _, w, st, hb => by simp [visited_cons, visited_append, visited_nil, visitItems, visitItems_append, Item.visited?, hb, inPart_cons, walkRunChild, visitRunChild]
  | .deleteText _, w, st, hb => by simp [visited_cons, visited_append, visited_nil, visitItems, visitItems_append, Item.visited?, hb, inPart_cons, walkRunChild, visitRunChild]
  | .tab, w, st, hb => by simp [visited_cons, visited_append, visited_nil, visitItems, visitItems_append, Item.visited?, hb, inPart_cons, walkRunChild, visitRunChild]
  | .ptab _, w, st, hb => by simp [visited_cons, visited_append, visited_nil, visitItems, visitItems_append, Item.visited?, hb, inPart_cons, walkRunChild, visitRunChild]
  | .brk _, w, st, hb => by simp [visited_cons, visited_append, visited_nil, visitItems, visitItems_append, Item.visited?, hb, inPart_cons, walkRunChild, visitRunChild]
  | .carriageReturn, w, st, hb => by simp [visited_cons, visited_append, visited_nil, visitItems, visitItems_append, Item.visited?, hb, inPart_cons, walkRunChild, visitRunChild]
  | .picture _, w, st, hb => by simp [visited_cons, visited_append, visited_nil, visitItems, visitItems_append, Item.visited?, hb, inPart_cons, walkRunChild, visitRunChild]
  | .textBox bs, w, st, hb => by simp [visited_cons, visited_append, visited_nil, visitItems, visitItems_append, Item.visited?, hb, inPart_cons, walkRunChild, visitRunChild, visited_walkBlocks_textBox]
  | .emptyDrawing, w, st, hb => by simp [visited_cons, visited_append, visited_nil, visitItems, visitItems_append, Item.visited?, hb, inPart_cons, walkRunChild, visitRunChild]
  | .shape _, w, st, hb => by simp [visited_cons, visited_append, visited_nil, visitItems, visitItems_append, Item.visited?, hb, inPart_cons, walkRunChild, visitRunChild]
  | .commentStart _ c, w, st, hb => by simp [visited_cons, visited_append, visited_nil, visitItems, visitItems_append, Item.visited?, hb, inPart_cons, walkRunChild, visitRunChild, visited_walkComment]
  | .commentEnd _, w, st, hb => by simp [visited_cons, visited_append, visited_nil, visitItems, visitItems_append, Item.visited?, hb, inPart_cons, walkRunChild, visitRunChild]
  | .fieldChar _ _, w, st, hb => by simp [visited_cons, visited_append, visited_nil, visitItems, visitItems_append, Item.visited?, hb, inPart_cons, walkRunChild, visitRunChild]
  | .instrText _, w, st, hb => by simp [visited_cons, visited_append, visited_nil, visitItems, visitItems_append, Item.visited?, hb, inPart_cons, walkRunChild, visitRunChild]
  | .deleteInstrText _, w, st, hb => by simp [visited_cons, visited_append, visited_nil, visitItems, visitItems_append, Item.visited?, hb, inPart_cons, walkRunChild, visitRunChild]
  | .instrTextString _, w, st, hb => by simp [visited_cons, visited_append, visited_nil, visitItems, visitItems_append, Item.visited?, hb, inPart_cons, walkRunChild, visitRunChild]
  | .footnoteReference _ _ ps, w, st, hb => by simp [visited_cons, visited_append, visited_nil, visitItems, visitItems_append, Item.visited?, hb, inPart_cons, walkRunChild, visitRunChild, visited_walkParagraphs_footnote]
  | .shading _, w, st, hb => by simp [visited_cons, visited_append, visited_nil, visitItems, visitItems_append, Item.visited?, hb, inPart_cons, walkRunChild, visitRunChild]
theorem visitBlock_walk {σ : Type} (v : Visitor σ) : ∀ (x : Block) (w : List Place) (s : σ), inPart w = true →
    visitItems v (visited (walkBlock w x)) s = (visited (walkBlock w (visitBlock v x s).1), (visitBlock v x s).2)
  | .paragraph p, w, st, hb => by simp [visited_cons, visited_append, visited_nil, visitItems, visitItems_append, Item.visited?, hb, inPart_cons, walkBlock, visitBlock, visitParagraph_walk v p w st (by simp [inPart_cons, hb])]
  | .table t, w, st, hb => by simp [visited_cons, visited_append, visited_nil, visitItems, visitItems_append, Item.visited?, hb, inPart_cons, walkBlock, visitBlock, visitTable_walk v t w st (by simp [inPart_cons, hb])]
theorem visitDeleteChild_walk {σ : Type} (v : Visitor σ) : ∀ (x : DeleteChild) (w : List Place) (s : σ), inPart w = true →
    visitItems v (visited (walkDeleteChild w x)) s = (visited (walkDeleteChild w (visitDeleteChild v x s).1), (visitDeleteChild v x s).2)
  | .run r, w, st, hb => by simp [visited_cons, visited_append, visited_nil, visitItems, visitItems_append, Item.visited?, hb, inPart_cons, walkDeleteChild, visitDeleteChild, visitRun_walk v r w st (by simp [inPart_cons, hb])]
  | .commentStart _ c, w, st, hb => by simp [visited_cons, visited_append, visited_nil, visitItems, visitItems_append, Item.visited?, hb, inPart_cons, walkDeleteChild, visitDeleteChild, visited_walkComment]
  | .commentEnd _, w, st, hb => by simp [visited_cons, visited_append, visited_nil, visitItems, visitItems_append, Item.visited?, hb, inPart_cons, walkDeleteChild, visitDeleteChild]
theorem visitInsertChild_walk {σ : Type} (v : Visitor σ) : ∀ (x : InsertChild) (w : List Place) (s : σ), inPart w = true →
    visitItems v (visited (walkInsertChild w x)) s = (visited (walkInsertChild w (visitInsertChild v x s).1), (visitInsertChild v x s).2)
  | .run r, w, st, hb => by simp [visited_cons, visited_append, visited_nil, visitItems, visitItems_append, Item.visited?, hb, inPart_cons, walkInsertChild, visitInsertChild, visitRun_walk v r w st (by simp [inPart_cons, hb])]
  | .delete d, w, st, hb => by simp [visited_cons, visited_append, visited_nil, visitItems, visitItems_append, Item.visited?, hb, inPart_cons, walkInsertChild, visitInsertChild, visitDelete_walk v d (.delete :: w) st (by simp [inPart_cons, hb])]
  | .commentStart _ c, w, st, hb => by simp [visited_cons, visited_append, visited_nil, visitItems, visitItems_append, Item.visited?, hb, inPart_cons, walkInsertChild, visitInsertChild, visited_walkComment]
  | .commentEnd _, w, st, hb => by simp [visited_cons, visited_append, visited_nil, visitItems, visitItems_append, Item.visited?, hb, inPart_cons, walkInsertChild, visitInsertChild]
theorem visitParagraphChild_walk {σ : Type} (v : Visitor σ) : ∀ (x : ParagraphChild) (w : List Place) (s : σ), inPart w = true →
    visitItems v (visited (walkParagraphChild w x)) s = (visited (walkParagraphChild w (visitParagraphChild v x s).1), (visitParagraphChild v x s).2)
  | .run r, w, st, hb => by simp [visited_cons, visited_append, visited_nil, visitItems, visitItems_append, Item.visited?, hb, inPart_cons, walkParagraphChild, visitParagraphChild, visitRun_walk v r w st (by simp [inPart_cons, hb])]
  | .insert i, w, st, hb => by simp [visited_cons, visited_append, visited_nil, visitItems, visitItems_append, Item.visited?, hb, inPart_cons, walkParagraphChild, visitParagraphChild, visitInsert_walk v i (.insert :: w) st (by simp [inPart_cons, hb])]
  | .delete d, w, st, hb => by simp [visited_cons, visited_append, visited_nil, visitItems, visitItems_append, Item.visited?, hb, inPart_cons, walkParagraphChild, visitParagraphChild, visitDelete_walk v d (.delete :: w) st (by simp [inPart_cons, hb])]
  | .moveFrom d, w, st, hb => by simp [visited_cons, visited_append, visited_nil, visitItems, visitItems_append, Item.visited?, hb, inPart_cons, walkParagraphChild, visitParagraphChild, visitDelete_walk v d (.moveFrom :: w) st (by simp [inPart_cons, hb])]
  | .moveTo i, w, st, hb => by simp [visited_cons, visited_append, visited_nil, visitItems, visitItems_append, Item.visited?, hb, inPart_cons, walkParagraphChild, visitParagraphChild, visitInsert_walk v i (.moveTo :: w) st (by simp [inPart_cons, hb])]
  | .bookmarkStart _ _, w, st, hb => by simp [visited_cons, visited_append, visited_nil, visitItems, visitItems_append, Item.visited?, hb, inPart_cons, walkParagraphChild, visitParagraphChild]
  | .hyperlink h, w, st, hb => by simp [visited_cons, visited_append, visited_nil, visitItems, visitItems_append, Item.visited?, hb, inPart_cons, walkParagraphChild, visitParagraphChild, visitHyperlink_walk v h w st (by simp [inPart_cons, hb])]
  | .bookmarkEnd _, w, st, hb => by simp [visited_cons, visited_append, visited_nil, visitItems, visitItems_append, Item.visited?, hb, inPart_cons, walkParagraphChild, visitParagraphChild]
  | .commentStart _ c, w, st, hb => by simp [visited_cons, visited_append, visited_nil, visitItems, visitItems_append, Item.visited?, hb, inPart_cons, walkParagraphChild, visitParagraphChild, visited_walkComment]
  | .commentEnd _, w, st, hb => by simp [visited_cons, visited_append, visited_nil, visitItems, visitItems_append, Item.visited?, hb, inPart_cons, walkParagraphChild, visitParagraphChild]
  | .sdt s, w, st, hb => by simp [visited_cons, visited_append, visited_nil, visitItems, visitItems_append, Item.visited?, hb, inPart_cons, walkParagraphChild, visitParagraphChild, visitSdt_walk v s w st (by simp [inPart_cons, hb])]
  | .pageNum _, w, st, hb => by simp [visited_cons, visited_append, visited_nil, visitItems, visitItems_append, Item.visited?, hb, inPart_cons, walkParagraphChild, visitParagraphChild]
  | .numPages _, w, st, hb => by simp [visited_cons, visited_append, visited_nil, visitItems, visitItems_append, Item.visited?, hb, inPart_cons, walkParagraphChild, visitParagraphChild]
theorem visitSdtChild_walk {σ : Type} (v : Visitor σ) : ∀ (x : SdtChild) (w : List Place) (s : σ), inPart w = true →
    visitItems v (visited (walkSdtChild w x)) s = (visited (walkSdtChild w (visitSdtChild v x s).1), (visitSdtChild v x s).2)
  | .run r, w, st, hb => by simp [visited_cons, visited_append, visited_nil, visitItems, visitItems_append, Item.visited?, hb, inPart_cons, walkSdtChild, visitSdtChild, visitRun_walk v r w st (by simp [inPart_cons, hb])]
  | .paragraph p, w, st, hb => by simp [visited_cons, visited_append, visited_nil, visitItems, visitItems_append, Item.visited?, hb, inPart_cons, walkSdtChild, visitSdtChild, visitParagraph_walk v p w st (by simp [inPart_cons, hb])]
  | .table t, w, st, hb => by simp [visited_cons, visited_append, visited_nil, visitItems, visitItems_append, Item.visited?, hb, inPart_cons, walkSdtChild, visitSdtChild, visitTable_walk v t w st (by simp [inPart_cons, hb])]
  | .bookmarkStart _ _, w, st, hb => by simp [visited_cons, visited_append, visited_nil, visitItems, visitItems_append, Item.visited?, hb, inPart_cons, walkSdtChild, visitSdtChild]
  | .bookmarkEnd _, w, st, hb => by simp [visited_cons, visited_append, visited_nil, visitItems, visitItems_append, Item.visited?, hb, inPart_cons, walkSdtChild, visitSdtChild]
  | .commentStart _ c, w, st, hb => by simp [visited_cons, visited_append, visited_nil, visitItems, visitItems_append, Item.visited?, hb, inPart_cons, walkSdtChild, visitSdtChild, visited_walkComment]
  | .commentEnd _, w, st, hb => by simp [visited_cons, visited_append, visited_nil, visitItems, visitItems_append, Item.visited?, hb, inPart_cons, walkSdtChild, visitSdtChild]
  | .sdt s, w, st, hb => by simp [visited_cons, visited_append, visited_nil, visitItems, visitItems_append, Item.visited?, hb, inPart_cons, walkSdtChild, visitSdtChild, visitSdt_walk v s w st (by simp [inPart_cons, hb])]
theorem visitCellContent_walk {σ : Type} (v : Visitor σ) : ∀ (x : CellContent) (w : List Place) (s : σ), inPart w = true →
    visitItems v (visited (walkCellContent w x)) s = (visited (walkCellContent w (visitCellContent v x s).1), (visitCellContent v x s).2)
  | .paragraph p, w, st, hb => by simp [visited_cons, visited_append, visited_nil, visitItems, visitItems_append, Item.visited?, hb, inPart_cons, walkCellContent, visitCellContent, visitParagraph_walk v p w st (by simp [inPart_cons, hb])]
  | .table t, w, st, hb => by simp [visited_cons, visited_append, visited_nil, visitItems, visitItems_append, Item.visited?, hb, inPart_cons, walkCellContent, visitCellContent, visitTable_walk v t w st (by simp [inPart_cons, hb])]
  | .sdt s, w, st, hb => by simp [visited_cons, visited_append, visited_nil, visitItems, visitItems_append, Item.visited?, hb, inPart_cons, walkCellContent, visitCellContent, visitSdt_walk v s w st (by simp [inPart_cons, hb])]
  | .toc t, w, st, hb => by simp [visited_cons, visited_append, visited_nil, visitItems, visitItems_append, Item.visited?, hb, inPart_cons, walkCellContent, visitCellContent, visitToc_walk v t w st (by simp [inPart_cons, hb])]
theorem visitToc_walk {σ : Type} (v : Visitor σ) : ∀ (x : Toc) (w : List Place) (s : σ), inPart w = true →
    visitItems v (visited (walkToc w x)) s = (visited (walkToc w (visitToc v x s).1), (visitToc v x s).2)
  | ⟨_, _, _, _, _, _, _, bs, as, _, _⟩, w, st, hb => by simp [visited_cons, visited_append, visited_nil, visitItems, visitItems_append, Item.visited?, hb, inPart_cons, walkToc, visitToc, visitBlocks_walk v bs (.tocBefore :: w) st (by simp [inPart_cons, hb]), visitBlocks_walk v as (.tocAfter :: w) _ (by simp [inPart_cons, hb])]

end

theorem visitEach_walk {σ α : Type} (v : Visitor σ) (f : α → Visit σ α) (k : α → Walk)
    (h : ∀ x s, visitItems v (visited (k x)) s = (visited (k (f x s).1), (f x s).2)) :
    ∀ (l : List α) (s : σ), visitItems v (visited (l.flatMap k)) s =
      (visited ((visitEach f l s).1.flatMap k), (visitEach f l s).2)
  | [], s => by simp [visitEach, visited_nil, visitItems]
  | c :: cs, s => by
    simp [visitEach, visited_append, visitItems_append, h, visitEach_walk v f k h cs]

theorem visitHeader_walk {σ : Type} (v : Visitor σ) (x : Header) (w : List Place) (s : σ)
    (hb : inPart w = true) :
    visitItems v (visited (walkHeader w x)) s =
      (visited (walkHeader w (visitHeader v x s).1), (visitHeader v x s).2) := by
  unfold walkHeader visitHeader
  refine visitEach_walk v _ _ ?_ _ _
  intro c st
  cases c with
  | paragraph p => exact by simp [walkHeaderChild, visitHeaderChild, visitParagraph_walk v p w st hb]
  | table p => exact by simp [walkHeaderChild, visitHeaderChild, visitTable_walk v p w st hb]
  | sdt p => exact by simp [walkHeaderChild, visitHeaderChild, visitSdt_walk v p w st hb]

theorem flatMap_under {α : Type} {w : List Place} (k : α → Walk) (l : List α)
    (h : ∀ x, Under w (k x)) : Under w (l.flatMap k) := by
  intro y hy
  obtain ⟨x, _, hx⟩ := List.mem_flatMap.mp hy
  exact h x y hx

theorem walkHeader_under (x : Header) (w : List Place) : Under w (walkHeader w x) := by
  unfold walkHeader
  refine flatMap_under _ _ fun c => ?_
  cases c <;> simp only [walkHeaderChild]
  · exact walkParagraph_under _ w
  · exact walkTable_under _ w
  · exact walkSdt_under _ w

theorem visited_walkSectionProperty (w : List Place) (p : SectionProperty) :
    visited (walkSectionProperty w p) = [] := by
  unfold walkSectionProperty
  rw [visited_append, visited_of_under (w := .header :: w) (flatMap_under _ _ fun x => walkHeader_under _ _)
    (by simp [inPart_cons]), visited_of_under (w := .footer :: w)
    (flatMap_under _ _ fun x => walkHeader_under _ _) (by simp [inPart_cons])]
  rfl

theorem visitSectionChild_walk {σ : Type} (v : Visitor σ) (x : SectionChild) (w : List Place) (st : σ)
    (hb : inPart w = true) :
    visitItems v (visited (walkSectionChild w x)) st =
      (visited (walkSectionChild w (visitSectionChild v x st).1), (visitSectionChild v x st).2) := by
  cases x with
  | paragraph p => simp [walkSectionChild, visitSectionChild, visitParagraph_walk v p w st hb]
  | table p => simp [walkSectionChild, visitSectionChild, visitTable_walk v p w st hb]
  | sdt p => simp [walkSectionChild, visitSectionChild, visitSdt_walk v p w st hb]
  | toc p => simp [walkSectionChild, visitSectionChild, visitToc_walk v p w st hb]
  | commentStart i c =>
    simp [walkSectionChild, visitSectionChild, visited_cons, hb, Item.visited?, visited_walkComment, visitItems]
  | _ => simp [walkSectionChild, visitSectionChild, visited_nil, visitItems]

theorem visitSection_walk {σ : Type} (v : Visitor σ) (x : Section) (w : List Place) (st : σ)
    (hb : inPart w = true) :
    visitItems v (visited (walkSection w x)) st =
      (visited (walkSection w (visitSection v x st).1), (visitSection v x st).2) := by
  unfold walkSection
  rw [visited_append, visited_walkSectionProperty, List.append_nil, visited_append,
    visited_walkSectionProperty, List.append_nil]
  unfold visitSection
  exact visitEach_walk v _ _ (fun c s => visitSectionChild_walk v c _ s (by simp [inPart_cons, hb])) _ _

theorem visitDocumentChild_walk {σ : Type} (v : Visitor σ) (x : DocumentChild) (w : List Place) (st : σ)
    (hb : inPart w = true) :
    visitItems v (visited (walkDocumentChild w x)) st =
      (visited (walkDocumentChild w (visitDocumentChild v x st).1), (visitDocumentChild v x st).2) := by
  cases x with
  | paragraph p => simp [walkDocumentChild, visitDocumentChild, visitParagraph_walk v p w st hb]
  | table p => simp [walkDocumentChild, visitDocumentChild, visitTable_walk v p w st hb]
  | sdt p => simp [walkDocumentChild, visitDocumentChild, visitSdt_walk v p w st hb]
  | toc p => simp [walkDocumentChild, visitDocumentChild, visitToc_walk v p w st hb]
  | «section» p => simp [walkDocumentChild, visitDocumentChild, visitSection_walk v p w st hb]
  | commentStart i c =>
    simp [walkDocumentChild, visitDocumentChild, visited_cons, hb, Item.visited?, visited_walkComment, visitItems]
  | _ => simp [walkDocumentChild, visitDocumentChild, visited_nil, visitItems]

theorem visitDocument_walk {σ : Type} (v : Visitor σ) (d : Document) (st : σ) :
    visitItems v (visited (walkDocument d)) st =
      (visited (walkDocument (visitDocument v d st).1), (visitDocument v d st).2) := by
  unfold walkDocument
  rw [visited_append, visited_walkSectionProperty, List.append_nil, visited_append,
    visited_walkSectionProperty, List.append_nil]
  unfold visitDocument
  exact visitEach_walk v _ _ (fun c s => visitDocumentChild_walk v c _ s rfl) _ _

end Docx
