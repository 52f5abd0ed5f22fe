import Verif.Lemmas.PicturesAgain

/-!
# The external links of a document that is written and read

The same as for pictures (Lemmas/PicturesAgain.lean), for the links in the places that are searched.
-/

namespace Docx

open Docx.Xml Docx.Spec

variable {x : ReadEnv}

/-- The link there, if it is searched for. -/
def linkAt (w : List Place) (i : Item) : List (Str × Str) := if searched w then (Item.external? i).toList else []

/-- A link read back: the address behind a relationship is not in the element. -/
def linkAgain (l : Str × Str) : Str × Str := (seen l.1, [])

theorem links_pick (d : Document) : bodyLinks d = pick linkAt (walkDocument d) := within_pick _ _ _

theorem dead_links {w : List Place} (h : searched w = false) (hc : w.head? ≠ some .cell) : Dead linkAt w := by
  intro a i
  simp only [linkAt, searched_append a w h hc, Bool.false_eq_true, if_false]

theorem deadLink_inComment (w : List Place) : Dead linkAt (.comment :: w) := dead_links rfl (by simp)
theorem deadLink_inFootnote (w : List Place) : Dead linkAt (.footnote :: w) := dead_links rfl (by simp)
theorem deadLink_inTextBox (w : List Place) : Dead linkAt (.textBox :: w) := dead_links rfl (by simp)
theorem deadLink_inHeader (w : List Place) : Dead linkAt (.header :: w) := dead_links rfl (by simp)
theorem deadLink_inFooter (w : List Place) : Dead linkAt (.footer :: w) := dead_links rfl (by simp)

/-- Only a hyperlink is one. -/
theorem linkAt_other (w : List Place) {i : Item} (h : ∀ l, i ≠ .hyperlink l) : linkAt w i = [] := by
  unfold linkAt
  split
  · cases i <;> first | rfl | exact absurd rfl (h _)
  · rfl

@[simp] theorem linkAt_runChild (w : List Place) (c : RunChild) : linkAt w (.runChild c) = [] := linkAt_other w (by simp)
@[simp] theorem linkAt_run (w : List Place) (c : Run) : linkAt w (.run c) = [] := linkAt_other w (by simp)
@[simp] theorem linkAt_paragraph (w : List Place) (c : Paragraph) : linkAt w (.paragraph c) = [] := linkAt_other w (by simp)
@[simp] theorem linkAt_picture (w : List Place) (c : Pic) : linkAt w (.picture c) = [] := linkAt_other w (by simp)
@[simp] theorem linkAt_sdt (w : List Place) (c : Sdt) : linkAt w (.sdt c) = [] := linkAt_other w (by simp)
@[simp] theorem linkAt_table (w : List Place) (c : Table) : linkAt w (.table c) = [] := linkAt_other w (by simp)
@[simp] theorem linkAt_cell (w : List Place) (c : Cell) : linkAt w (.cell c) = [] := linkAt_other w (by simp)
@[simp] theorem linkAt_comment (w : List Place) (i : Nat) (c : Comment) : linkAt w (.comment i c) = [] := linkAt_other w (by simp)
@[simp] theorem linkAt_footnote (w : List Place) (i : Nat) (c : List Paragraph) : linkAt w (.footnote i c) = [] := linkAt_other w (by simp)

/-! ## Read back -/

/-- The links of the second walk are those of the first, read back. -/
def LinksAgain (a b : Walk) : Prop := pick linkAt b = (pick linkAt a).map linkAgain

theorem LinksAgain.append {a b a' b' : Walk} (h : LinksAgain a b) (h' : LinksAgain a' b') : LinksAgain (a ++ a') (b ++ b') := by
  unfold LinksAgain at *
  rw [pick_append, pick_append, h, h', List.map_append]

theorem LinksAgain.cons {a b : Walk} {w w' : List Place} {i j : Item} (h : LinksAgain a b) (hi : ∀ p, i ≠ .hyperlink p) (hj : ∀ p, j ≠ .hyperlink p) :
    LinksAgain ((w, i) :: a) ((w', j) :: b) := by
  unfold LinksAgain at *
  rw [pick_cons, pick_cons, linkAt_other _ hi, linkAt_other _ hj, List.nil_append, List.nil_append, h]

theorem LinksAgain.link {a b : Walk} {w : List Place} {l : HyperlinkData} {p p' : Option Nat} {cs cs' : List ParagraphChild} (h : LinksAgain a b) :
    LinksAgain ((w, .hyperlink ⟨l, p, cs⟩) :: a) ((w, .hyperlink ⟨l.reread, p', cs'⟩) :: b) := by
  unfold LinksAgain at *
  rw [pick_cons, pick_cons, List.map_append, h]
  congr 1
  unfold linkAt
  split
  · cases l <;> rfl
  · rfl

theorem LinksAgain.nil : LinksAgain [] [] := rfl

theorem LinksAgain.none {a b : Walk} (ha : pick linkAt a = []) (hb : pick linkAt b = []) : LinksAgain a b := by
  unfold LinksAgain
  rw [ha, hb]
  rfl

/-- Children read back one by one. -/
theorem LinksAgain.flatMap {α : Type} {v : α → Walk} {f : α → List α} {l : List α} (h : ∀ a ∈ l, LinksAgain (v a) ((f a).flatMap v)) :
    LinksAgain (l.flatMap v) ((l.flatMap f).flatMap v) := by
  induction l with
  | nil => exact .nil
  | cons a l ih =>
    rw [List.flatMap_cons, List.flatMap_cons, List.flatMap_append]
    exact (h a (List.mem_cons_self)).append (ih fun b hb => h b (List.mem_cons_of_mem _ hb))

theorem links_runChild (w : List Place) (c : RunChild) : LinksAgain (walkRunChild w c) (c.reread.flatMap (walkRunChild w)) := by
  cases c with
  | text t =>
    refine .none (by simp [walkRunChild, pick_cons, pick_nil]) ?_
    simp only [RunChild.reread]
    generalize textAgain t = l
    induction l with
    | nil => rfl
    | cons a l ih => rw [List.map_cons, List.flatMap_cons, pick_append, ih]; simp [walkRunChild, pick_cons, pick_nil]
  | deleteText t =>
    refine .none (by simp [walkRunChild, pick_cons, pick_nil]) ?_
    simp only [RunChild.reread]
    generalize textAgain t = l
    induction l with
    | nil => rfl
    | cons a l ih => rw [List.map_cons, List.flatMap_cons, pick_append, ih]; simp [walkRunChild, pick_cons, pick_nil]
  | textBox bs =>
    refine .none ?_ rfl
    rw [walkRunChild, pick_cons, walkBlocks_dead _ _ (deadLink_inTextBox w)]
    simp
  | commentStart i c =>
    refine .none ?_ rfl
    rw [walkRunChild, pick_cons, pick_cons, walkComment_dead _ _ (deadLink_inComment w)]
    simp
  | footnoteReference i s ps =>
    refine .none ?_ rfl
    rw [walkRunChild, pick_cons, pick_cons, walkParagraphs_dead _ _ (deadLink_inFootnote w)]
    simp
  | _ => exact .none (by simp [walkRunChild, pick_cons, pick_nil]) (by simp [RunChild.reread, walkRunChild, pick_cons, pick_nil])

theorem links_run (w : List Place) (r : Run) : LinksAgain (walkRun w r) (walkRun w r.reread) := by
  obtain ⟨p, cs⟩ := r
  refine .cons ?_ (by simp) (by simp)
  rw [runChildren_flat, runChildren_flat]
  exact .flatMap fun c _ => links_runChild _ c

theorem links_emptyRun (w : List Place) : pick linkAt (walkRun w {}) = [] := by
  simp [walkRun, walkRunChildren, pick_cons, pick_nil]

theorem links_comment (w : List Place) (i : Nat) (c : Comment) : pick linkAt ((w, .comment i c) :: walkComment (.comment :: w) c) = [] := by
  rw [pick_cons, walkComment_dead _ _ (deadLink_inComment w)]
  simp

theorem links_deleteChild (w : List Place) (c : DeleteChild) : LinksAgain (walkDeleteChild w c) (c.reread.flatMap (walkDeleteChild w)) := by
  cases c with
  | run r => simpa only [DeleteChild.reread, List.flatMap_cons, List.flatMap_nil, List.append_nil, walkDeleteChild] using links_run w r
  | commentStart i c =>
    refine .none (links_comment w i c) ?_
    simpa only [DeleteChild.reread, List.flatMap_cons, List.flatMap_nil, List.append_nil, walkDeleteChild] using links_comment w i (.new i)
  | commentEnd i =>
    refine .none rfl ?_
    simp only [DeleteChild.reread, List.flatMap_cons, List.flatMap_nil, List.append_nil, walkDeleteChild, pick_append, links_emptyRun, pick_nil]

theorem links_delete (w : List Place) (d : Delete) : LinksAgain (walkDelete w d) (walkDelete w d.reread) := by
  obtain ⟨a, t, cs⟩ := d
  show LinksAgain (walkDeleteChildren w cs) (walkDeleteChildren w (cs.flatMap DeleteChild.reread))
  rw [deleteChildren_flat, deleteChildren_flat]
  exact .flatMap fun c _ => links_deleteChild _ c

theorem links_insertChild (w : List Place) (c : InsertChild) : LinksAgain (walkInsertChild w c) (c.reread.flatMap (walkInsertChild w)) := by
  cases c with
  | run r => simpa only [InsertChild.reread, List.flatMap_cons, List.flatMap_nil, List.append_nil, walkInsertChild] using links_run w r
  | delete d => simpa only [InsertChild.reread, List.flatMap_cons, List.flatMap_nil, List.append_nil, walkInsertChild] using links_delete _ d
  | commentStart i c =>
    refine .none (links_comment w i c) ?_
    simpa only [InsertChild.reread, List.flatMap_cons, List.flatMap_nil, List.append_nil, walkInsertChild] using links_comment w i (.new i)
  | commentEnd i =>
    refine .none rfl ?_
    simp only [InsertChild.reread, List.flatMap_cons, List.flatMap_nil, List.append_nil, walkInsertChild, pick_append, links_emptyRun, pick_nil]

theorem links_insert (w : List Place) (d : Insert) : LinksAgain (walkInsert w d) (walkInsert w d.reread) := by
  obtain ⟨a, t, cs⟩ := d
  show LinksAgain (walkInsertChildren w cs) (walkInsertChildren w (cs.flatMap InsertChild.reread))
  rw [insertChildren_flat, insertChildren_flat]
  exact .flatMap fun c _ => links_insertChild _ c

theorem pageField_links (w : List Place) (i : InstrText) : pick linkAt (walkRun w (pageFieldRun i).reread) = [] := by
  rw [show pick linkAt (walkRun w (pageFieldRun i).reread) = _ from links_run w _]
  cases i <;> simp [pageFieldRun, walkRun, walkRunChildren, walkRunChild, pick_cons, pick_nil]

/-- Children of paragraphs that are not links, content controls or moves in links. -/
theorem links_inner (w : List Place) (c : ParagraphChild) (h : c.ReadableInner ∨ (∃ d, c = .moveFrom d) ∨ ∃ i, c = .moveTo i) :
    LinksAgain (walkParagraphChild w c) (c.rereadInner.flatMap (walkParagraphChild w)) := by
  cases c with
  | run r => simpa only [ParagraphChild.rereadInner, List.flatMap_cons, List.flatMap_nil, List.append_nil, walkParagraphChild] using links_run w r
  | insert d => simpa only [ParagraphChild.rereadInner, List.flatMap_cons, List.flatMap_nil, List.append_nil, walkParagraphChild] using links_insert _ d
  | delete d => simpa only [ParagraphChild.rereadInner, List.flatMap_cons, List.flatMap_nil, List.append_nil, walkParagraphChild] using links_delete _ d
  | moveFrom d => simpa only [ParagraphChild.rereadInner, List.flatMap_cons, List.flatMap_nil, List.append_nil, walkParagraphChild] using links_delete _ d
  | moveTo d => simpa only [ParagraphChild.rereadInner, List.flatMap_cons, List.flatMap_nil, List.append_nil, walkParagraphChild] using links_insert _ d
  | commentStart i c =>
    refine .none (links_comment w i c) ?_
    simpa only [ParagraphChild.rereadInner, List.flatMap_cons, List.flatMap_nil, List.append_nil, walkParagraphChild] using links_comment w i (.new i)
  | commentEnd i =>
    refine .none rfl ?_
    simp only [ParagraphChild.rereadInner, List.flatMap_cons, List.flatMap_nil, List.append_nil, walkParagraphChild, pick_append, links_emptyRun, pick_nil]
  | pageNum p =>
    refine .none rfl ?_
    simp only [ParagraphChild.rereadInner, List.flatMap_cons, List.flatMap_nil, List.append_nil, walkParagraphChild, pageField_links]
  | numPages p =>
    refine .none rfl ?_
    simp only [ParagraphChild.rereadInner, List.flatMap_cons, List.flatMap_nil, List.append_nil, walkParagraphChild, pageField_links]
  | bookmarkStart i n => exact .none rfl rfl
  | bookmarkEnd i => exact .none rfl rfl
  | hyperlink l => rcases h with h | ⟨_, h⟩ | ⟨_, h⟩ <;> cases h
  | sdt l => rcases h with h | ⟨_, h⟩ | ⟨_, h⟩ <;> cases h

theorem links_paragraphChild (w : List Place) (c : ParagraphChild) (h : c.Readable) :
    LinksAgain (walkParagraphChild w c) (c.reread.flatMap (walkParagraphChild w)) := by
  cases c with
  | hyperlink l =>
    obtain ⟨link, hist, cs⟩ := l
    simp only [ParagraphChild.reread, List.flatMap_cons, List.flatMap_nil, List.append_nil, walkParagraphChild, walkHyperlink]
    refine .link ?_
    rw [paragraphChildren_flat, paragraphChildren_flat]
    exact .flatMap fun c hc => links_inner _ c (.inl (h.2.2 c hc))
  | moveFrom d => exact links_inner w _ (.inr (.inl ⟨_, rfl⟩))
  | moveTo d => exact links_inner w _ (.inr (.inr ⟨_, rfl⟩))
  | sdt s => cases h
  | _ => exact links_inner w _ (.inl h)

theorem links_paragraph (w : List Place) (p : Paragraph) (h : p.Readable) : LinksAgain (walkParagraph w p) (walkParagraph w p.reread) := by
  obtain ⟨i, cs, pr, n⟩ := p
  refine .cons ?_ (by simp) (by simp)
  rw [paragraphChildren_flat, paragraphChildren_flat]
  exact .flatMap fun c hc => links_paragraphChild _ c (h.2.2 c hc)

mutual
theorem links_sdt (x : ReadEnv) : ∀ (s : Sdt) (w : List Place), s.Readable → LinksAgain (walkSdt w s) (walkSdt w (s.reread x))
  | ⟨cs, pr, n⟩, w, h => by
    rw [Sdt.reread, walkSdt, walkSdt]
    exact .cons (links_sdtChildren x cs _ h.2) (by simp) (by simp)
theorem links_sdtChildren (x : ReadEnv) : ∀ (l : List SdtChild) (w : List Place), readableSdtChildren l →
    LinksAgain (walkSdtChildren w l) (walkSdtChildren w (rereadSdtChildren x l))
  | [], w, _ => .nil
  | c :: l, w, h => by
    rw [rereadSdtChildren, sdtChildren_flat w (_ ++ _), List.flatMap_append, ← sdtChildren_flat, ← sdtChildren_flat, walkSdtChildren]
    exact (links_sdtChild x c w h.1).append (links_sdtChildren x l w h.2)
theorem links_sdtChild (x : ReadEnv) : ∀ (c : SdtChild) (w : List Place), c.Readable →
    LinksAgain (walkSdtChild w c) (walkSdtChildren w (c.reread x))
  | .run r, w, _ => by simpa only [SdtChild.reread, walkSdtChildren, walkSdtChild, List.append_nil] using links_run w r
  | .paragraph p, w, h => by simpa only [SdtChild.reread, walkSdtChildren, walkSdtChild, List.append_nil] using links_paragraph w p h
  | .table t, w, h => by simpa only [SdtChild.reread, walkSdtChildren, walkSdtChild, List.append_nil] using links_table x t w h
  | .bookmarkStart _ _, w, _ => by rw [SdtChild.reread]; exact .none rfl rfl
  | .bookmarkEnd _, w, _ => by rw [SdtChild.reread]; exact .none rfl rfl
  | .commentStart i c, w, _ => by
    refine .none (by rw [walkSdtChild]; exact links_comment w i c) ?_
    simpa only [SdtChild.reread, walkSdtChildren, walkSdtChild, List.append_nil] using links_comment w i (.new i)
  | .commentEnd _, w, _ => by
    refine .none (by rw [walkSdtChild]; rfl) ?_
    simp only [SdtChild.reread, walkSdtChildren, walkSdtChild, pick_append, links_emptyRun, pick_nil, List.append_nil]
  | .sdt _, _, h => by simp only [SdtChild.Readable] at h
theorem links_table (x : ReadEnv) : ∀ (t : Table) (w : List Place), t.Readable → LinksAgain (walkTable w t) (walkTable w (t.reread x))
  | ⟨rows, g, n, pr⟩, w, h => by
    rw [Table.reread, walkTable, walkTable]
    exact .cons (links_rows x rows w h.2) (by simp) (by simp)
theorem links_rows (x : ReadEnv) : ∀ (l : List Row) (w : List Place), readableRows l → LinksAgain (walkRows w l) (walkRows w (rereadRows x l))
  | [], w, _ => .nil
  | r :: l, w, h => by
    rw [rereadRows, walkRows, walkRows]
    exact (links_row x r w h.1).append (links_rows x l w h.2)
theorem links_row (x : ReadEnv) : ∀ (r : Row) (w : List Place), r.Readable → LinksAgain (walkRow w r) (walkRow w (r.reread x))
  | ⟨cells, _, _⟩, w, h => by
    rw [Row.reread, walkRow, walkRow]
    exact links_cells x cells w h.2
theorem links_cells (x : ReadEnv) : ∀ (l : List Cell) (w : List Place), readableCells l → LinksAgain (walkCells w l) (walkCells w (rereadCells x l))
  | [], w, _ => .nil
  | r :: l, w, h => by
    rw [rereadCells, walkCells, walkCells]
    exact (links_cell x r w h.1).append (links_cells x l w h.2)
theorem links_cell (x : ReadEnv) : ∀ (c : Cell) (w : List Place), c.Readable → LinksAgain (walkCell w c) (walkCell w (c.reread x))
  | ⟨cs, pr, n⟩, w, h => by
    rw [Cell.reread, walkCell, walkCell]
    exact .cons (links_contents x cs _ h.2.2.2) (by simp) (by simp)
theorem links_contents (x : ReadEnv) : ∀ (l : List CellContent) (w : List Place), readableContents l →
    LinksAgain (walkCellContents w l) (walkCellContents w (rereadContents x l))
  | [], w, _ => .nil
  | c :: l, w, h => by
    rw [rereadContents, cellContents_flat w (_ ++ _), List.flatMap_append, ← cellContents_flat, ← cellContents_flat, walkCellContents]
    exact (links_content x c w h.1).append (links_contents x l w h.2)
theorem links_content (x : ReadEnv) : ∀ (c : CellContent) (w : List Place), c.Readable →
    LinksAgain (walkCellContent w c) (walkCellContents w (c.reread x))
  | .paragraph p, w, h => by simpa only [CellContent.reread, walkCellContents, walkCellContent, List.append_nil] using links_paragraph w p h
  | .table t, w, h => by simpa only [CellContent.reread, walkCellContents, walkCellContent, List.append_nil] using links_table x t w h
  | .sdt t, w, h => by simpa only [CellContent.reread, walkCellContents, walkCellContent, List.append_nil] using links_sdt x t w h
  | .toc _, _, h => by simp only [CellContent.Readable] at h
end

theorem links_documentChild (x : ReadEnv) (c : DocumentChild) (w : List Place) (h : c.Readable) :
    LinksAgain (walkDocumentChild w c) ((c.reread x).flatMap (walkDocumentChild w)) := by
  cases c with
  | paragraph p => simpa only [DocumentChild.reread, List.flatMap_cons, List.flatMap_nil, List.append_nil, walkDocumentChild] using links_paragraph w p h
  | table p => simpa only [DocumentChild.reread, List.flatMap_cons, List.flatMap_nil, List.append_nil, walkDocumentChild] using links_table x p w h
  | sdt p => simpa only [DocumentChild.reread, List.flatMap_cons, List.flatMap_nil, List.append_nil, walkDocumentChild] using links_sdt x p w h
  | commentStart i c =>
    refine .none (links_comment w i c) ?_
    simpa only [DocumentChild.reread, List.flatMap_cons, List.flatMap_nil, List.append_nil, walkDocumentChild] using links_comment w i (.new i)
  | commentEnd i => exact .none rfl rfl
  | bookmarkStart i n => exact .none rfl rfl
  | bookmarkEnd i => exact .none rfl rfl
  | toc t => cases h
  | «section» s => cases h

theorem sectionProperty_links (w : List Place) (p : SectionProperty) : pick linkAt (walkSectionProperty w p) = [] :=
  walkSectionProperty_dead p w (deadLink_inHeader w) (deadLink_inFooter w)

/-- The links of a document that is read back: those it had, in order. -/
theorem document_links (x : ReadEnv) (d : Document) (h : d.Readable) : bodyLinks (d.reread x) = (bodyLinks d).map linkAgain := by
  rw [links_pick, links_pick]
  simp only [walkDocument, pick_append, sectionProperty_links, List.append_nil]
  exact LinksAgain.flatMap fun c hc => links_documentChild x c _ (h.1 c hc)

/-! ## Comments put where they start -/

/-- The two walks have the same links. -/
def SameLinks (a b : Walk) : Prop := pick linkAt a = pick linkAt b

theorem SameLinks.append {a b a' b' : Walk} (h : SameLinks a b) (h' : SameLinks a' b') : SameLinks (a ++ a') (b ++ b') := by
  unfold SameLinks at *
  rw [pick_append, pick_append, h, h']

theorem SameLinks.cons {a b : Walk} {w w' : List Place} {i j : Item} (h : SameLinks a b) (hi : ∀ p, i ≠ .hyperlink p) (hj : ∀ p, j ≠ .hyperlink p) :
    SameLinks ((w, i) :: a) ((w', j) :: b) := by
  unfold SameLinks at *
  rw [pick_cons, pick_cons, linkAt_other _ hi, linkAt_other _ hj, h]

theorem SameLinks.map {α : Type} {v : α → Walk} {f : α → α} {l : List α} (h : ∀ a, SameLinks (v (f a)) (v a)) :
    SameLinks ((l.map f).flatMap v) (l.flatMap v) := by
  induction l with
  | nil => rfl
  | cons a l ih =>
    rw [List.map_cons, List.flatMap_cons, List.flatMap_cons]
    exact (h a).append ih

theorem linksIn_deleteChild (cs : List Comment) (w : List Place) (c : DeleteChild) :
    SameLinks (walkDeleteChild w (storeInDeleteChild cs c)) (walkDeleteChild w c) := by
  cases c with
  | commentStart i c => exact (links_comment w i _).trans (links_comment w i c).symm
  | _ => rfl

theorem linksIn_deleteChildren (cs : List Comment) (w : List Place) (l : List DeleteChild) :
    SameLinks (walkDeleteChildren w (l.map (storeInDeleteChild cs))) (walkDeleteChildren w l) := by
  rw [deleteChildren_flat, deleteChildren_flat]
  exact .map (linksIn_deleteChild cs w)

theorem linksIn_insertChild (cs : List Comment) (deep : Bool) (w : List Place) (c : InsertChild) :
    SameLinks (walkInsertChild w (storeInInsertChild cs deep c)) (walkInsertChild w c) := by
  cases c with
  | commentStart i c => exact (links_comment w i _).trans (links_comment w i c).symm
  | delete d =>
    obtain ⟨a, t, l⟩ := d
    cases deep
    · rfl
    · exact linksIn_deleteChildren cs _ l
  | _ => rfl

theorem linksIn_paragraphChild (cs : List Comment) (deep : Bool) (w : List Place) (c : ParagraphChild) :
    SameLinks (walkParagraphChild w (storeInParagraphChild cs deep c)) (walkParagraphChild w c) := by
  cases c with
  | commentStart i c => exact (links_comment w i _).trans (links_comment w i c).symm
  | insert d =>
    obtain ⟨a, t, l⟩ := d
    show SameLinks (walkInsertChildren _ (l.map _)) (walkInsertChildren _ l)
    rw [insertChildren_flat, insertChildren_flat]
    exact .map (linksIn_insertChild cs deep _)
  | delete d =>
    obtain ⟨a, t, l⟩ := d
    exact linksIn_deleteChildren cs _ l
  | _ => rfl

theorem linksIn_paragraph (cs : List Comment) (deep : Bool) (w : List Place) (p : Paragraph) :
    SameLinks (walkParagraph w (storeInParagraph cs deep p)) (walkParagraph w p) := by
  obtain ⟨i, l, pr, n⟩ := p
  refine .cons ?_ (by simp) (by simp)
  rw [paragraphChildren_flat, paragraphChildren_flat]
  exact .map (linksIn_paragraphChild cs deep _)

mutual
theorem linksIn_table (cs : List Comment) : ∀ (t : Table) (w : List Place), SameLinks (walkTable w (storeInTable cs t)) (walkTable w t)
  | ⟨rows, g, n, pr⟩, w => by
    rw [storeInTable, walkTable, walkTable]
    exact .cons (linksIn_rows cs rows w) (by simp) (by simp)
theorem linksIn_rows (cs : List Comment) : ∀ (l : List Row) (w : List Place), SameLinks (walkRows w (storeInRows cs l)) (walkRows w l)
  | [], w => rfl
  | ⟨cells, n, p⟩ :: l, w => by
    rw [storeInRows, walkRows, walkRows, walkRow, walkRow]
    exact (linksIn_cells cs cells w).append (linksIn_rows cs l w)
theorem linksIn_cells (cs : List Comment) : ∀ (l : List Cell) (w : List Place), SameLinks (walkCells w (storeInCells cs l)) (walkCells w l)
  | [], w => rfl
  | ⟨c, n, p⟩ :: l, w => by
    rw [storeInCells, walkCells, walkCells, walkCell, walkCell]
    exact (SameLinks.cons (linksIn_contents cs c _) (by simp) (by simp)).append (linksIn_cells cs l w)
theorem linksIn_contents (cs : List Comment) : ∀ (l : List CellContent) (w : List Place),
    SameLinks (walkCellContents w (storeInContents cs l)) (walkCellContents w l)
  | [], w => rfl
  | .paragraph p :: l, w => by
    rw [storeInContents, walkCellContents, walkCellContents]
    exact (linksIn_paragraph cs false w p).append (linksIn_contents cs l w)
  | .table p :: l, w => by
    rw [storeInContents, walkCellContents, walkCellContents, walkCellContent, walkCellContent]
    exact (linksIn_table cs p w).append (linksIn_contents cs l w)
  | .sdt ⟨c, p, n⟩ :: l, w => by
    rw [storeInContents, walkCellContents, walkCellContents, walkCellContent, walkCellContent, walkSdt, walkSdt]
    exact (SameLinks.cons (linksIn_sdtChildren cs c _) (by simp) (by simp)).append (linksIn_contents cs l w)
  | .toc ⟨a, b, c, d, e, f, g, before, after, i, j⟩ :: l, w => by
    rw [storeInContents, walkCellContents, walkCellContents, walkCellContent, walkCellContent, walkToc, walkToc]
    exact (SameLinks.cons ((linksIn_blocks cs before _).append (linksIn_blocks cs after _)) (by simp) (by simp)).append (linksIn_contents cs l w)
theorem linksIn_sdtChildren (cs : List Comment) : ∀ (l : List SdtChild) (w : List Place),
    SameLinks (walkSdtChildren w (storeInSdtChildren cs l)) (walkSdtChildren w l)
  | [], w => rfl
  | .paragraph p :: l, w => by
    rw [storeInSdtChildren, walkSdtChildren, walkSdtChildren]
    exact (linksIn_paragraph cs false w p).append (linksIn_sdtChildren cs l w)
  | .table p :: l, w => by
    rw [storeInSdtChildren, walkSdtChildren, walkSdtChildren, walkSdtChild, walkSdtChild]
    exact (linksIn_table cs p w).append (linksIn_sdtChildren cs l w)
  | .run _ :: l, w => by
    rw [storeInSdtChildren, walkSdtChildren, walkSdtChildren] <;> first | exact SameLinks.append rfl (linksIn_sdtChildren cs l w) | simp
  | .bookmarkStart _ _ :: l, w => by
    rw [storeInSdtChildren, walkSdtChildren, walkSdtChildren] <;> first | exact SameLinks.append rfl (linksIn_sdtChildren cs l w) | simp
  | .bookmarkEnd _ :: l, w => by
    rw [storeInSdtChildren, walkSdtChildren, walkSdtChildren] <;> first | exact SameLinks.append rfl (linksIn_sdtChildren cs l w) | simp
  | .commentStart _ _ :: l, w => by
    rw [storeInSdtChildren, walkSdtChildren, walkSdtChildren] <;> first | exact SameLinks.append rfl (linksIn_sdtChildren cs l w) | simp
  | .commentEnd _ :: l, w => by
    rw [storeInSdtChildren, walkSdtChildren, walkSdtChildren] <;> first | exact SameLinks.append rfl (linksIn_sdtChildren cs l w) | simp
  | .sdt _ :: l, w => by
    rw [storeInSdtChildren, walkSdtChildren, walkSdtChildren] <;> first | exact SameLinks.append rfl (linksIn_sdtChildren cs l w) | simp
theorem linksIn_blocks (cs : List Comment) : ∀ (l : List Block) (w : List Place), SameLinks (walkBlocks w (storeInBlocks cs l)) (walkBlocks w l)
  | [], w => rfl
  | .paragraph p :: l, w => by
    rw [storeInBlocks, walkBlocks, walkBlocks, walkBlock, walkBlock]
    exact (linksIn_paragraph cs false w p).append (linksIn_blocks cs l w)
  | .table p :: l, w => by
    rw [storeInBlocks, walkBlocks, walkBlocks, walkBlock, walkBlock]
    exact (linksIn_table cs p w).append (linksIn_blocks cs l w)
end

theorem linksIn_child (cs : List Comment) (c : DocumentChild) (w : List Place) :
    SameLinks (walkDocumentChild w (storeInChild cs c)) (walkDocumentChild w c) := by
  cases c with
  | paragraph p => exact linksIn_paragraph cs true w p
  | table t => exact linksIn_table cs t w
  | _ => rfl

/-- Putting comments where they start changes no link. -/
theorem stored_links (cs : List Comment) (d d' : Document) (h : d'.children = d.children.map (storeInChild cs)) : bodyLinks d' = bodyLinks d := by
  rw [links_pick, links_pick]
  simp only [walkDocument, pick_append, sectionProperty_links, List.append_nil, h]
  exact SameLinks.map fun c => linksIn_child cs c _

theorem children_links (d d' : Document) (h : d'.children = d.children) : bodyLinks d' = bodyLinks d := by
  rw [links_pick, links_pick]
  simp only [walkDocument, pick_append, sectionProperty_links, List.append_nil, h]

end Docx
