import Verif.Lemmas.BuildTotal

/-!
# Induction over what is written, along the walk

`Along Q`: the relation `Q` between a tree writer and the items written by it is closed under the ways
content is put together. Then `Q` holds between a part and the items of the part's own walk (items inside
comments, footnotes and, for the body, headers and footers belong to other parts).
-/

namespace Docx

set_option linter.unusedSectionVars false
set_option linter.unusedSimpArgs false

open Docx.Spec

/-- The items written where they stand. -/
def here (away : Place → Bool) (l : Walk) : List Item := l.within fun w => !w.any away

theorem here_nil (away : Place → Bool) : here away [] = [] := rfl
theorem here_append (away : Place → Bool) (a b : Walk) : here away (a ++ b) = here away a ++ here away b := by
  simp [here, Walk.within]
theorem here_cons {away : Place → Bool} {w : List Place} (hw : w.any away = false) (i : Item) (l : Walk) :
    here away ((w, i) :: l) = i :: here away l := by
  simp [here, Walk.within, List.filter_cons, hw]
theorem here_under (away : Place → Bool) {w : List Place} {l : Walk} (h : Under w l)
    (hw : w.any away = true) : here away l = [] := by
  unfold here Walk.within
  rw [List.map_eq_nil_iff, List.filter_eq_nil_iff]
  intro x hx
  have hs := h x hx
  rw [List.any_eq_true] at hw
  obtain ⟨p, hp, hq⟩ := hw
  have : x.1.any away = true := List.any_eq_true.2 ⟨p, hs.subset hp, hq⟩
  simp [this]

/-- The items of one run child. -/
def RunChild.items : RunChild → List Item
  | .picture p => [.runChild (.picture p), .picture p]
  | .commentStart i c => [.runChild (.commentStart i c), .comment i c]
  | .footnoteReference i s ps => [.runChild (.footnoteReference i s ps), .footnote i ps]
  | c => [.runChild c]

/-- `Q` is closed under the composition of content. `ok` says at which places after a table of contents `Q` is
to hold. -/
structure Along (Q : N → List Item → Prop) (ok : TocPosition → Prop := fun _ => True) : Prop where
  later : ok .later
  nil : Q (emitN []) []
  seq : ∀ {m n : N} {a b : List Item}, Q m a → Q n b → Q (m.thenN n) (a ++ b)
  runChild : ∀ c : RunChild, Q c.nodes c.items
  run : ∀ pr cs l, Q (eachN RunChild.nodes cs) l → Q (Run.nodes ⟨pr, cs⟩) (.run ⟨pr, cs⟩ :: l)
  commentStart : ∀ i c, Q (emitN (commentStartNodes i)) [.comment i c]
  commentEnd : ∀ i, Q (emitN (commentEndNodes i)) []
  bookmarkStart : ∀ i n, Q (emitN (bookmarkStartNodes i n)) []
  bookmarkEnd : ∀ i, Q (emitN (bookmarkEndNodes i)) []
  delete : ∀ name ∈ [c!"w:del", c!"w:moveFrom"], ∀ a d cs l, Q (eachN DeleteChild.nodes cs) l →
    Q (Delete.nodes name ⟨a, d, cs⟩) l
  insert : ∀ name ∈ [c!"w:ins", c!"w:moveTo"], ∀ a d cs l, Q (eachN InsertChild.nodes cs) l →
    Q (Insert.nodes name ⟨a, d, cs⟩) l
  pageNum : Q (pageFieldRun .page).nodes []
  numPages : Q (pageFieldRun .numPages).nodes []
  hyperlink : ∀ link hist cs l, Q (nodesParagraphChildren cs) l →
    Q (Hyperlink.nodes ⟨link, hist, cs⟩) (.hyperlink ⟨link, hist, cs⟩ :: l)
  sdt : ∀ cs pr hn l, Q (nodesSdtChildren cs) l → Q (Sdt.nodes ⟨cs, pr, hn⟩) (.sdt ⟨cs, pr, hn⟩ :: l)
  paragraph : ∀ id cs pr hn l, Q (nodesParagraphChildren cs) l →
    Q (Paragraph.nodes ⟨id, cs, pr, hn⟩) (.paragraph ⟨id, cs, pr, hn⟩ :: l)
  table : ∀ rs grid hn pr l, Q (nodesRows rs) l →
    Q (Table.nodes ⟨rs, grid, hn, pr⟩) (.table ⟨rs, grid, hn, pr⟩ :: l)
  row : ∀ cs hn pr l, Q (nodesCells cs) l → Q (Row.nodes ⟨cs, hn, pr⟩) l
  cell : ∀ cs pr hn l, Q (nodesCellContents (decide (cs.length = 1)) cs) l →
    Q (Cell.nodes ⟨cs, pr, hn⟩) (.cell ⟨cs, pr, hn⟩ :: l)
  cellTable : ∀ only t l, Q t.nodes l → Q (CellContent.nodes only (.table t)) l
  toc : ∀ (t : Toc) a b, Q (nodesBlocks t.before) a → (∀ pos, ok pos → Q (nodesAfter pos t.after) b) →
    Q t.nodes (.toc t :: (a ++ b))
  afterParagraph : ∀ pos, ok pos → ∀ id cs pr hn l, Q (nodesParagraphChildren cs) l →
    Q (Block.nodesAfter pos (.paragraph ⟨id, cs, pr, hn⟩)) (.paragraph ⟨id, cs, pr, hn⟩ :: l)
  afterTable : ∀ pos, ok pos → ∀ t l, Q t.nodes l → Q (Block.nodesAfter pos (.table t)) l

section
variable {away : Place → Bool} (ha : Away away) {Q : N → List Item → Prop} {ok : TocPosition → Prop} (hQ : Along Q ok)
include ha hQ

theorem Along.runChildAt (c : RunChild) (w : List Place) (hw : w.any away = false) :
    Q c.nodes (here away (walkRunChild w c)) := by
  have h := hQ.runChild c
  cases c with
  | textBox bs =>
    have := here_under away (walkBlocks_under bs (.textBox :: w)) (by simp [ha.textBox])
    simpa only [walkRunChild, here_cons hw, this, RunChild.items] using h
  | commentStart i c =>
    have := here_under away (walkComment_under c (.comment :: w)) (by simp [ha.comment])
    simpa only [walkRunChild, here_cons hw, this, RunChild.items] using h
  | footnoteReference i s ps =>
    have := here_under away (walkParagraphs_under ps (.footnote :: w)) (by simp [ha.footnote])
    simpa only [walkRunChild, here_cons hw, this, RunChild.items] using h
  | _ => simpa only [walkRunChild, here_cons hw, here_nil, RunChild.items] using h

theorem Along.runChildrenAt (cs : List RunChild) (w : List Place) (hw : w.any away = false) :
    Q (eachN RunChild.nodes cs) (here away (walkRunChildren w cs)) := by
  induction cs with
  | nil => simp only [walkRunChildren]; exact hQ.nil
  | cons c cs ih =>
    simp only [walkRunChildren, here_append, eachN]
    exact hQ.seq (Along.runChildAt ha hQ c w hw) ih

theorem Along.runAt (r : Run) (w : List Place) (hw : w.any away = false) :
    Q r.nodes (here away (walkRun w r)) := by
  obtain ⟨pr, cs⟩ := r
  simp only [walkRun, here_cons hw]
  exact hQ.run _ _ _ (Along.runChildrenAt ha hQ cs (.run :: w) (by simp [hw, ha.run]))

theorem Along.commentAt (i : Nat) (c : Comment) (w : List Place) (hw : w.any away = false) :
    Q (emitN (commentStartNodes i)) (here away ((w, Item.comment i c) :: walkComment (.comment :: w) c)) := by
  have := here_under away (walkComment_under c (.comment :: w)) (by simp [ha.comment])
  rw [here_cons hw, this]
  exact hQ.commentStart i c

theorem Along.deleteChildAt (c : DeleteChild) (w : List Place) (hw : w.any away = false) :
    Q c.nodes (here away (walkDeleteChild w c)) := by
  cases c with
  | run r => simpa only [DeleteChild.nodes, walkDeleteChild] using Along.runAt ha hQ r w hw
  | commentStart i c => exact Along.commentAt ha hQ i c w hw
  | commentEnd i => exact hQ.commentEnd i

theorem Along.deleteAt (n : Str) (hn : n ∈ [c!"w:del", c!"w:moveFrom"]) (d : Delete) (w : List Place)
    (hw : w.any away = false) : Q (d.nodes n) (here away (walkDelete w d)) := by
  obtain ⟨a, dt, cs⟩ := d
  simp only [walkDelete]
  apply hQ.delete n hn
  induction cs with
  | nil => simp only [walkDeleteChildren]; exact hQ.nil
  | cons c cs ih =>
    simp only [walkDeleteChildren, here_append, eachN]
    exact hQ.seq (Along.deleteChildAt ha hQ c w hw) ih

theorem Along.insertChildAt (c : InsertChild) (w : List Place) (hw : w.any away = false) :
    Q c.nodes (here away (walkInsertChild w c)) := by
  cases c with
  | run r => simpa only [InsertChild.nodes, walkInsertChild] using Along.runAt ha hQ r w hw
  | delete d =>
    simpa only [InsertChild.nodes, walkInsertChild] using
      Along.deleteAt ha hQ c!"w:del" (by simp) d (.delete :: w) (by simp [hw, ha.delete])
  | commentStart i c => exact Along.commentAt ha hQ i c w hw
  | commentEnd i => exact hQ.commentEnd i

theorem Along.insertAt (n : Str) (hn : n ∈ [c!"w:ins", c!"w:moveTo"]) (d : Insert) (w : List Place)
    (hw : w.any away = false) : Q (d.nodes n) (here away (walkInsert w d)) := by
  obtain ⟨a, dt, cs⟩ := d
  simp only [walkInsert]
  apply hQ.insert n hn
  induction cs with
  | nil => simp only [walkInsertChildren]; exact hQ.nil
  | cons c cs ih =>
    simp only [walkInsertChildren, here_append, eachN]
    exact hQ.seq (Along.insertChildAt ha hQ c w hw) ih

mutual
theorem ParagraphChild.alongAt : (x : ParagraphChild) → (w : List Place) → w.any away = false →
    Q (x.nodes) (here away (walkParagraphChild w x))
  | .run r, w, hw => by simpa only [ParagraphChild.nodes, walkParagraphChild, here_nil] using Along.runAt ha hQ r w hw
  | .insert i, w, hw => by simpa only [ParagraphChild.nodes, walkParagraphChild, here_nil] using Along.insertAt ha hQ c!"w:ins" (by simp) i (.insert :: w) (by simp [hw, ha.insert])
  | .delete d, w, hw => by simpa only [ParagraphChild.nodes, walkParagraphChild, here_nil] using Along.deleteAt ha hQ c!"w:del" (by simp) d (.delete :: w) (by simp [hw, ha.delete])
  | .moveFrom d, w, hw => by simpa only [ParagraphChild.nodes, walkParagraphChild, here_nil] using Along.deleteAt ha hQ c!"w:moveFrom" (by simp) d (.moveFrom :: w) (by simp [hw, ha.moveFrom])
  | .moveTo i, w, hw => by simpa only [ParagraphChild.nodes, walkParagraphChild, here_nil] using Along.insertAt ha hQ c!"w:moveTo" (by simp) i (.moveTo :: w) (by simp [hw, ha.moveTo])
  | .bookmarkStart id name, w, hw => by simpa only [ParagraphChild.nodes, walkParagraphChild, here_nil] using hQ.bookmarkStart id name
  | .hyperlink h, w, hw => by simpa only [ParagraphChild.nodes, walkParagraphChild, here_nil] using Hyperlink.alongAt h w hw
  | .bookmarkEnd id, w, hw => by simpa only [ParagraphChild.nodes, walkParagraphChild, here_nil] using hQ.bookmarkEnd id
  | .commentStart id c, w, hw => by simpa only [ParagraphChild.nodes, walkParagraphChild, here_nil] using Along.commentAt ha hQ id c w hw
  | .commentEnd id, w, hw => by simpa only [ParagraphChild.nodes, walkParagraphChild, here_nil] using hQ.commentEnd id
  | .sdt s, w, hw => by simpa only [ParagraphChild.nodes, walkParagraphChild, here_nil] using Sdt.alongAt s w hw
  | .pageNum i, w, hw => by simpa only [ParagraphChild.nodes, walkParagraphChild, here_nil] using hQ.pageNum
  | .numPages i, w, hw => by simpa only [ParagraphChild.nodes, walkParagraphChild, here_nil] using hQ.numPages
theorem SdtChild.alongAt : (x : SdtChild) → (w : List Place) → w.any away = false →
    Q (x.nodes) (here away (walkSdtChild w x))
  | .run r, w, hw => by simpa only [SdtChild.nodes, walkSdtChild, here_nil] using Along.runAt ha hQ r w hw
  | .paragraph p, w, hw => by simpa only [SdtChild.nodes, walkSdtChild, here_nil] using Paragraph.alongAt p w hw
  | .table t, w, hw => by simpa only [SdtChild.nodes, walkSdtChild, here_nil] using Table.alongAt t w hw
  | .bookmarkStart id name, w, hw => by simpa only [SdtChild.nodes, walkSdtChild, here_nil] using hQ.bookmarkStart id name
  | .bookmarkEnd id, w, hw => by simpa only [SdtChild.nodes, walkSdtChild, here_nil] using hQ.bookmarkEnd id
  | .commentStart id c, w, hw => by simpa only [SdtChild.nodes, walkSdtChild, here_nil] using Along.commentAt ha hQ id c w hw
  | .commentEnd id, w, hw => by simpa only [SdtChild.nodes, walkSdtChild, here_nil] using hQ.commentEnd id
  | .sdt s, w, hw => by simpa only [SdtChild.nodes, walkSdtChild, here_nil] using Sdt.alongAt s w hw
theorem CellContent.alongAt (only : Bool) : (x : CellContent) → (w : List Place) → w.any away = false →
    Q (x.nodes only) (here away (walkCellContent w x))
  | .paragraph p, w, hw => by simpa only [CellContent.nodes, walkCellContent, here_nil] using Paragraph.alongAt p w hw
  | .table t, w, hw => by simp only [walkCellContent]; exact hQ.cellTable only t _ (Table.alongAt t w hw)
  | .sdt s, w, hw => by simpa only [CellContent.nodes, walkCellContent, here_nil] using Sdt.alongAt s w hw
  | .toc t, w, hw => by simpa only [CellContent.nodes, walkCellContent, here_nil] using Toc.alongAt t w hw
theorem Block.alongAt : (x : Block) → (w : List Place) → w.any away = false →
    Q (x.nodes) (here away (walkBlock w x))
  | .paragraph p, w, hw => by simpa only [Block.nodes, walkBlock, here_nil] using Paragraph.alongAt p w hw
  | .table t, w, hw => by simpa only [Block.nodes, walkBlock, here_nil] using Table.alongAt t w hw
theorem ParagraphChildren.alongAt : (x : List ParagraphChild) → (w : List Place) → w.any away = false →
    Q (nodesParagraphChildren x) (here away (walkParagraphChildren w x))
  | [], w, hw => by simp only [nodesParagraphChildren, walkParagraphChildren]; exact hQ.nil
  | c :: cs, w, hw => by
    simp only [nodesParagraphChildren, walkParagraphChildren, here_append]
    exact hQ.seq (ParagraphChild.alongAt c w hw) (ParagraphChildren.alongAt cs w hw)
theorem SdtChildren.alongAt : (x : List SdtChild) → (w : List Place) → w.any away = false →
    Q (nodesSdtChildren x) (here away (walkSdtChildren w x))
  | [], w, hw => by simp only [nodesSdtChildren, walkSdtChildren]; exact hQ.nil
  | c :: cs, w, hw => by
    simp only [nodesSdtChildren, walkSdtChildren, here_append]
    exact hQ.seq (SdtChild.alongAt c w hw) (SdtChildren.alongAt cs w hw)
theorem Rows.alongAt : (x : List Row) → (w : List Place) → w.any away = false →
    Q (nodesRows x) (here away (walkRows w x))
  | [], w, hw => by simp only [nodesRows, walkRows]; exact hQ.nil
  | c :: cs, w, hw => by
    simp only [nodesRows, walkRows, here_append]
    exact hQ.seq (Row.alongAt c w hw) (Rows.alongAt cs w hw)
theorem Cells.alongAt : (x : List Cell) → (w : List Place) → w.any away = false →
    Q (nodesCells x) (here away (walkCells w x))
  | [], w, hw => by simp only [nodesCells, walkCells]; exact hQ.nil
  | c :: cs, w, hw => by
    simp only [nodesCells, walkCells, here_append]
    exact hQ.seq (Cell.alongAt c w hw) (Cells.alongAt cs w hw)
theorem CellContents.alongAt (only : Bool) : (x : List CellContent) → (w : List Place) → w.any away = false →
    Q (nodesCellContents only x) (here away (walkCellContents w x))
  | [], w, hw => by simp only [nodesCellContents, walkCellContents]; exact hQ.nil
  | c :: cs, w, hw => by
    simp only [nodesCellContents, walkCellContents, here_append]
    exact hQ.seq (CellContent.alongAt only c w hw) (CellContents.alongAt only cs w hw)
theorem Blocks.alongAt : (x : List Block) → (w : List Place) → w.any away = false →
    Q (nodesBlocks x) (here away (walkBlocks w x))
  | [], w, hw => by simp only [nodesBlocks, walkBlocks]; exact hQ.nil
  | c :: cs, w, hw => by
    simp only [nodesBlocks, walkBlocks, here_append]
    exact hQ.seq (Block.alongAt c w hw) (Blocks.alongAt cs w hw)
theorem After.alongAt (pos : TocPosition) (hp : ok pos) : (x : List Block) → (w : List Place) → w.any away = false →
    Q (nodesAfter pos x) (here away (walkBlocks w x))
  | [], w, hw => by simp only [nodesAfter, walkBlocks]; exact hQ.nil
  | c :: cs, w, hw => by
    simp only [nodesAfter, walkBlocks, here_append]
    exact hQ.seq (BlockAfter.alongAt pos hp c w hw) (After.alongAt .later hQ.later cs w hw)
theorem Hyperlink.alongAt : (x : Hyperlink) → (w : List Place) → w.any away = false →
    Q x.nodes (here away (walkHyperlink w x))
  | ⟨link, history, children⟩, w, hw => by
    simp only [walkHyperlink, here_cons hw]
    exact hQ.hyperlink _ _ _ _ (ParagraphChildren.alongAt children (.hyperlink :: w) (by simp [hw, ha.hyperlink]))
theorem Sdt.alongAt : (x : Sdt) → (w : List Place) → w.any away = false →
    Q x.nodes (here away (walkSdt w x))
  | ⟨children, property, hn⟩, w, hw => by
    simp only [walkSdt, here_cons hw]
    exact hQ.sdt _ _ _ _ (SdtChildren.alongAt children (.sdt :: w) (by simp [hw, ha.sdt]))
theorem Paragraph.alongAt : (x : Paragraph) → (w : List Place) → w.any away = false →
    Q x.nodes (here away (walkParagraph w x))
  | ⟨id, children, property, hn⟩, w, hw => by
    simp only [walkParagraph, here_cons hw]
    exact hQ.paragraph _ _ _ _ _ (ParagraphChildren.alongAt children (.paragraph :: w) (by simp [hw, ha.paragraph]))
theorem Table.alongAt : (x : Table) → (w : List Place) → w.any away = false →
    Q x.nodes (here away (walkTable w x))
  | ⟨rows, grid, hn, property⟩, w, hw => by
    simp only [walkTable, here_cons hw]
    exact hQ.table _ _ _ _ _ (Rows.alongAt rows w hw)
theorem Row.alongAt : (x : Row) → (w : List Place) → w.any away = false →
    Q x.nodes (here away (walkRow w x))
  | ⟨cells, hn, property⟩, w, hw => by
    simp only [walkRow]
    exact hQ.row _ _ _ _ (Cells.alongAt cells w hw)
theorem Cell.alongAt : (x : Cell) → (w : List Place) → w.any away = false →
    Q x.nodes (here away (walkCell w x))
  | ⟨children, property, hn⟩, w, hw => by
    simp only [walkCell, here_cons hw]
    exact hQ.cell _ _ _ _ (CellContents.alongAt _ children (.cell :: w) (by simp [hw, ha.cell]))
theorem Toc.alongAt : (x : Toc) → (w : List Place) → w.any away = false →
    Q x.nodes (here away (walkToc w x))
  | ⟨instr, items, au, dirty, withoutSdt, alias, placeholder, before, after, delete, property⟩, w, hw => by
    have h1 := Blocks.alongAt before (.tocBefore :: w) (by simp [hw, ha.tocBefore])
    have h2 := fun pos hp => After.alongAt pos hp after (.tocAfter :: w) (by simp [hw, ha.tocAfter])
    simp only [walkToc, here_cons hw, here_append]
    exact hQ.toc ⟨instr, items, au, dirty, withoutSdt, alias, placeholder, before, after, delete, property⟩ _ _ h1 h2
theorem BlockAfter.alongAt (pos : TocPosition) (hp : ok pos) : (x : Block) → (w : List Place) → w.any away = false →
    Q (x.nodesAfter pos) (here away (walkBlock w x))
  | .paragraph ⟨id, children, property, hn⟩, w, hw => by
    simp only [walkBlock, walkParagraph, here_cons hw]
    exact hQ.afterParagraph _ hp _ _ _ _ _ (ParagraphChildren.alongAt children (.paragraph :: w) (by simp [hw, ha.paragraph]))
  | .table t, w, hw => by
    simp only [walkBlock]
    exact hQ.afterTable _ hp _ _ (Table.alongAt t w hw)
end

omit ha in
theorem Along.each {α} (f : α → N) (l : List α) (k : α → Walk) (h : ∀ a ∈ l, Q (f a) (here away (k a))) :
    Q (eachN f l) (here away (l.flatMap k)) := by
  induction l with
  | nil => exact hQ.nil
  | cons a l ih =>
    simp only [List.flatMap_cons, here_append, eachN]
    exact hQ.seq (h a (by simp)) (ih fun a ha => h a (by simp [ha]))

theorem HeaderChild.alongAt (c : HeaderChild) (w : List Place) (hw : w.any away = false) :
    Q c.nodes (here away (walkHeaderChild w c)) := by
  cases c with
  | paragraph p => exact Paragraph.alongAt ha hQ p w hw
  | table t => exact Table.alongAt ha hQ t w hw
  | sdt s => exact Sdt.alongAt ha hQ s w hw

theorem Header.alongAt (h : Header) (w : List Place) (hw : w.any away = false) :
    Q (eachN HeaderChild.nodes h.children) (here away (walkHeader w h)) :=
  Along.each hQ HeaderChild.nodes h.children (walkHeaderChild w) (fun a _ => HeaderChild.alongAt ha hQ a w hw)

theorem SectionChild.alongAt (c : SectionChild) (w : List Place) (hw : w.any away = false) :
    Q c.nodes (here away (walkSectionChild w c)) := by
  cases c with
  | paragraph p => exact Paragraph.alongAt ha hQ p w hw
  | table t => exact Table.alongAt ha hQ t w hw
  | sdt s => exact Sdt.alongAt ha hQ s w hw
  | toc s => exact Toc.alongAt ha hQ s w hw
  | commentStart i c => exact Along.commentAt ha hQ i c w hw
  | bookmarkStart i n => exact hQ.bookmarkStart i n
  | bookmarkEnd i => exact hQ.bookmarkEnd i
  | commentEnd i => exact hQ.commentEnd i
end

theorem here_sectionProperty (w : List Place) (p : SectionProperty) :
    here elsewhereBody (walkSectionProperty w p) = [] := by
  have h := sectionProperty_ok w p
  have key : ∀ l : Walk, (∀ x ∈ l, x.1.any elsewhereBody = true) → here elsewhereBody l = [] := by
    intro l hl
    unfold here Walk.within
    rw [List.map_eq_nil_iff, List.filter_eq_nil_iff]
    intro x hx
    simp [hl x hx]
  apply key
  intro x hx
  unfold walkSectionProperty at hx
  rw [List.mem_append, List.mem_flatMap, List.mem_flatMap] at hx
  rcases hx with ⟨q, _, hx⟩ | ⟨q, _, hx⟩
  · rw [List.any_eq_true]
    exact ⟨.header, (walkHeader_under q.2 _ x hx).subset (by simp), rfl⟩
  · rw [List.any_eq_true]
    exact ⟨.footer, (walkHeader_under q.2 _ x hx).subset (by simp), rfl⟩

section
variable {Q : N → List Item → Prop} {ok : TocPosition → Prop} (hQ : Along Q ok)
include hQ

theorem Section.alongAt (hs : ∀ s l, Q (eachN SectionChild.nodes s.children) l → Q (Section.nodes s) l)
    (s : Section) (w : List Place) (hw : w.any elsewhereBody = false) :
    Q s.nodes (here elsewhereBody (walkSection w s)) := by
  have h1 := Along.each (away := elsewhereBody) hQ SectionChild.nodes s.children (walkSectionChild (.section :: w))
    (fun a _ => SectionChild.alongAt away_elsewhereBody hQ a _ (by simp [hw, elsewhereBody]))
  unfold walkSection
  rw [here_append, here_sectionProperty, List.append_nil]
  exact hs s _ h1

theorem DocumentChild.alongAt (hs : ∀ s l, Q (eachN SectionChild.nodes s.children) l → Q (Section.nodes s) l)
    (c : DocumentChild) (w : List Place) (hw : w.any elsewhereBody = false) :
    Q c.nodes (here elsewhereBody (walkDocumentChild w c)) := by
  have ha := away_elsewhereBody
  cases c with
  | paragraph p => exact Paragraph.alongAt ha hQ p w hw
  | table t => exact Table.alongAt ha hQ t w hw
  | sdt s => exact Sdt.alongAt ha hQ s w hw
  | toc s => exact Toc.alongAt ha hQ s w hw
  | commentStart i c => exact Along.commentAt ha hQ i c w hw
  | bookmarkStart i n => exact hQ.bookmarkStart i n
  | bookmarkEnd i => exact hQ.bookmarkEnd i
  | commentEnd i => exact hQ.commentEnd i
  | «section» s => exact Section.alongAt hQ hs s w hw

/-- The body of a document. -/
theorem Document.alongAt (hs : ∀ s l, Q (eachN SectionChild.nodes s.children) l → Q (Section.nodes s) l)
    (d : Document) :
    Q (eachN DocumentChild.nodes d.children) (here elsewhereBody (walkDocument d)) := by
  have h1 := Along.each (away := elsewhereBody) hQ DocumentChild.nodes d.children (walkDocumentChild [.document])
    (fun a _ => DocumentChild.alongAt hQ hs a _ (by simp [elsewhereBody]))
  unfold walkDocument
  rwa [here_append, here_sectionProperty, List.append_nil]

/-- The body of a comment. -/
theorem Comment.alongAt (c : Comment) (w : List Place) (hw : w.any elsewhere = false) :
    Q (nodesBlocks c.children) (here elsewhere (walkComment w c)) := by
  obtain ⟨i, a, d, bs, p⟩ := c
  simp only [walkComment]
  exact Blocks.alongAt away_elsewhere hQ bs w hw

/-- The body of a footnote. -/
theorem Footnote.alongAt (ps : List Paragraph) (w : List Place) (hw : w.any elsewhere = false) :
    Q (eachN Paragraph.nodes ps) (here elsewhere (walkParagraphs w ps)) := by
  induction ps with
  | nil => simp only [walkParagraphs]; exact hQ.nil
  | cons p ps ih =>
    simp only [walkParagraphs, here_append, eachN]
    exact hQ.seq (Paragraph.alongAt away_elsewhere hQ p w hw) ih
end

end Docx
