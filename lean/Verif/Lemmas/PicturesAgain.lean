import Verif.Lemmas.ReadDocument
import Verif.Lemmas.Prepared
import Verif.Lemmas.Found
import Verif.Model.StoreComments

/-!
# The pictures of a document that is written and read
-/

namespace Docx

open Docx.Xml Docx.Spec

variable {x : ReadEnv}

/-- The picture there, if it is in the part. -/
def pictureAt (w : List Place) (i : Item) : List Pic := if inPart w then (Item.picture? i).toList else []

theorem pictures_pick (l : Walk) : partPictures l = pick pictureAt l := partPictures_pick l

theorem inPart_append (a w : List Place) (h : inPart w = false) : inPart (a ++ w) = false := by
  have h' : ¬ inPart w = true := by rw [h]; simp
  refine Bool.eq_false_iff.2 fun e => h' ?_
  simp only [inPart, Bool.and_eq_true, decide_eq_true_eq, List.mem_append, not_or] at e ⊢
  exact ⟨⟨⟨⟨e.1.1.1.1.2, e.1.1.1.2.2⟩, e.1.1.2.2⟩, e.1.2.2⟩, e.2.2⟩

theorem dead_pictures {w : List Place} (h : inPart w = false) : Dead pictureAt w := by
  intro a i
  simp only [pictureAt, inPart_append a w h, Bool.false_eq_true, if_false]

theorem dead_inComment (w : List Place) : Dead pictureAt (.comment :: w) := dead_pictures (by simp [inPart])
theorem dead_inFootnote (w : List Place) : Dead pictureAt (.footnote :: w) := dead_pictures (by simp [inPart])
theorem dead_inTextBox (w : List Place) : Dead pictureAt (.textBox :: w) := dead_pictures (by simp [inPart])
theorem dead_inHeader (w : List Place) : Dead pictureAt (.header :: w) := dead_pictures (by simp [inPart])
theorem dead_inFooter (w : List Place) : Dead pictureAt (.footer :: w) := dead_pictures (by simp [inPart])

/-- Only a picture is one. -/
theorem pictureAt_other (w : List Place) {i : Item} (h : ∀ p, i ≠ .picture p) : pictureAt w i = [] := by
  unfold pictureAt
  split
  · cases i <;> first | rfl | exact absurd rfl (h _)
  · rfl

@[simp] theorem pictureAt_runChild (w : List Place) (c : RunChild) : pictureAt w (.runChild c) = [] := pictureAt_other w (by simp)
@[simp] theorem pictureAt_run (w : List Place) (c : Run) : pictureAt w (.run c) = [] := pictureAt_other w (by simp)
@[simp] theorem pictureAt_comment (w : List Place) (i : Nat) (c : Comment) : pictureAt w (.comment i c) = [] := pictureAt_other w (by simp)
@[simp] theorem pictureAt_footnote (w : List Place) (i : Nat) (c : List Paragraph) : pictureAt w (.footnote i c) = [] := pictureAt_other w (by simp)
@[simp] theorem pictureAt_paragraph (w : List Place) (c : Paragraph) : pictureAt w (.paragraph c) = [] := pictureAt_other w (by simp)
@[simp] theorem pictureAt_hyperlink (w : List Place) (c : Hyperlink) : pictureAt w (.hyperlink c) = [] := pictureAt_other w (by simp)
@[simp] theorem pictureAt_sdt (w : List Place) (c : Sdt) : pictureAt w (.sdt c) = [] := pictureAt_other w (by simp)
@[simp] theorem pictureAt_table (w : List Place) (c : Table) : pictureAt w (.table c) = [] := pictureAt_other w (by simp)
@[simp] theorem pictureAt_cell (w : List Place) (c : Cell) : pictureAt w (.cell c) = [] := pictureAt_other w (by simp)

/-! ## Read back -/

/-- The pictures of the second walk are those of the first, read back. -/
def PicturesAgain (a b : Walk) : Prop := pick pictureAt b = (pick pictureAt a).map Pic.reread

theorem PicturesAgain.append {a b a' b' : Walk} (h : PicturesAgain a b) (h' : PicturesAgain a' b') : PicturesAgain (a ++ a') (b ++ b') := by
  unfold PicturesAgain at *
  rw [pick_append, pick_append, h, h', List.map_append]

theorem PicturesAgain.cons {a b : Walk} {w w' : List Place} {i j : Item} (h : PicturesAgain a b) (hi : ∀ p, i ≠ .picture p) (hj : ∀ p, j ≠ .picture p) :
    PicturesAgain ((w, i) :: a) ((w', j) :: b) := by
  unfold PicturesAgain at *
  rw [pick_cons, pick_cons, pictureAt_other _ hi, pictureAt_other _ hj, List.nil_append, List.nil_append, h]

theorem PicturesAgain.nil : PicturesAgain [] [] := rfl

theorem PicturesAgain.none {a b : Walk} (ha : pick pictureAt a = []) (hb : pick pictureAt b = []) : PicturesAgain a b := by
  unfold PicturesAgain
  rw [ha, hb]
  rfl

theorem runChildren_flat (w : List Place) (l : List RunChild) : walkRunChildren w l = l.flatMap (walkRunChild w) := by
  induction l with
  | nil => rfl
  | cons c l ih => rw [walkRunChildren, ih]; rfl
theorem deleteChildren_flat (w : List Place) (l : List DeleteChild) : walkDeleteChildren w l = l.flatMap (walkDeleteChild w) := by
  induction l with
  | nil => rfl
  | cons c l ih => rw [walkDeleteChildren, ih]; rfl
theorem insertChildren_flat (w : List Place) (l : List InsertChild) : walkInsertChildren w l = l.flatMap (walkInsertChild w) := by
  induction l with
  | nil => rfl
  | cons c l ih => rw [walkInsertChildren, ih]; rfl
theorem paragraphChildren_flat (w : List Place) (l : List ParagraphChild) : walkParagraphChildren w l = l.flatMap (walkParagraphChild w) := by
  induction l with
  | nil => rfl
  | cons c l ih => rw [walkParagraphChildren, ih]; rfl
theorem sdtChildren_flat (w : List Place) (l : List SdtChild) : walkSdtChildren w l = l.flatMap (walkSdtChild w) := by
  induction l with
  | nil => rfl
  | cons c l ih => rw [walkSdtChildren, ih]; rfl
theorem cellContents_flat (w : List Place) (l : List CellContent) : walkCellContents w l = l.flatMap (walkCellContent w) := by
  induction l with
  | nil => rfl
  | cons c l ih => rw [walkCellContents, ih]; rfl

/-- Children read back one by one. -/
theorem PicturesAgain.flatMap {α : Type} {v : α → Walk} {f : α → List α} {l : List α} (h : ∀ a ∈ l, PicturesAgain (v a) ((f a).flatMap v)) :
    PicturesAgain (l.flatMap v) ((l.flatMap f).flatMap v) := by
  induction l with
  | nil => exact .nil
  | cons a l ih =>
    rw [List.flatMap_cons, List.flatMap_cons, List.flatMap_append]
    exact (h a (List.mem_cons_self)).append (ih fun b hb => h b (List.mem_cons_of_mem _ hb))

theorem again_runChild (w : List Place) (c : RunChild) : PicturesAgain (walkRunChild w c) (c.reread.flatMap (walkRunChild w)) := by
  cases c with
  | picture p =>
    unfold PicturesAgain
    simp only [RunChild.reread, List.flatMap_cons, List.flatMap_nil, List.append_nil, walkRunChild, pick_cons, pictureAt_runChild, List.nil_append,
      pick_nil]
    unfold pictureAt
    split <;> rfl
  | text t =>
    refine .none (by simp [walkRunChild, pick_cons, pick_nil]) ?_
    simp only [RunChild.reread]
    generalize textAgain t = l
    induction l with
    | nil => rfl
    | cons a l ih => rw [List.map_cons, List.flatMap_cons, pick_append, ih]; simp [walkRunChild, pick_cons, pick_nil]
  | deleteText t =>
    refine .none (by simp [walkRunChild, pick_cons, pick_nil]) ?_
    simp only [RunChild.reread]
    generalize textAgain t = l
    induction l with
    | nil => rfl
    | cons a l ih => rw [List.map_cons, List.flatMap_cons, pick_append, ih]; simp [walkRunChild, pick_cons, pick_nil]
  | textBox bs =>
    refine .none ?_ rfl
    rw [walkRunChild, pick_cons, walkBlocks_dead _ _ (dead_inTextBox w)]
    simp
  | commentStart i c =>
    refine .none ?_ rfl
    rw [walkRunChild, pick_cons, pick_cons, walkComment_dead _ _ (dead_inComment w)]
    simp
  | footnoteReference i s ps =>
    refine .none ?_ rfl
    rw [walkRunChild, pick_cons, pick_cons, walkParagraphs_dead _ _ (dead_inFootnote w)]
    simp
  | _ => exact .none (by simp [walkRunChild, pick_cons, pick_nil]) (by simp [RunChild.reread, walkRunChild, pick_cons, pick_nil])

theorem again_run (w : List Place) (r : Run) : PicturesAgain (walkRun w r) (walkRun w r.reread) := by
  obtain ⟨p, cs⟩ := r
  refine .cons ?_ (by simp) (by simp)
  rw [runChildren_flat, runChildren_flat]
  exact .flatMap fun c _ => again_runChild _ c

theorem again_emptyRun (w : List Place) : pick pictureAt (walkRun w {}) = [] := by
  simp [walkRun, walkRunChildren, pick_cons, pick_nil]

theorem again_comment (w : List Place) (i : Nat) (c : Comment) : pick pictureAt ((w, .comment i c) :: walkComment (.comment :: w) c) = [] := by
  rw [pick_cons, walkComment_dead _ _ (dead_inComment w)]
  simp

theorem again_deleteChild (w : List Place) (c : DeleteChild) : PicturesAgain (walkDeleteChild w c) (c.reread.flatMap (walkDeleteChild w)) := by
  cases c with
  | run r => simpa only [DeleteChild.reread, List.flatMap_cons, List.flatMap_nil, List.append_nil, walkDeleteChild] using again_run w r
  | commentStart i c =>
    refine .none (again_comment w i c) ?_
    simpa only [DeleteChild.reread, List.flatMap_cons, List.flatMap_nil, List.append_nil, walkDeleteChild] using again_comment w i (.new i)
  | commentEnd i =>
    refine .none rfl ?_
    simp only [DeleteChild.reread, List.flatMap_cons, List.flatMap_nil, List.append_nil, walkDeleteChild, pick_append, again_emptyRun, pick_nil]

theorem again_delete (w : List Place) (d : Delete) : PicturesAgain (walkDelete w d) (walkDelete w d.reread) := by
  obtain ⟨a, t, cs⟩ := d
  show PicturesAgain (walkDeleteChildren w cs) (walkDeleteChildren w (cs.flatMap DeleteChild.reread))
  rw [deleteChildren_flat, deleteChildren_flat]
  exact .flatMap fun c _ => again_deleteChild _ c

theorem again_insertChild (w : List Place) (c : InsertChild) : PicturesAgain (walkInsertChild w c) (c.reread.flatMap (walkInsertChild w)) := by
  cases c with
  | run r => simpa only [InsertChild.reread, List.flatMap_cons, List.flatMap_nil, List.append_nil, walkInsertChild] using again_run w r
  | delete d => simpa only [InsertChild.reread, List.flatMap_cons, List.flatMap_nil, List.append_nil, walkInsertChild] using again_delete _ d
  | commentStart i c =>
    refine .none (again_comment w i c) ?_
    simpa only [InsertChild.reread, List.flatMap_cons, List.flatMap_nil, List.append_nil, walkInsertChild] using again_comment w i (.new i)
  | commentEnd i =>
    refine .none rfl ?_
    simp only [InsertChild.reread, List.flatMap_cons, List.flatMap_nil, List.append_nil, walkInsertChild, pick_append, again_emptyRun, pick_nil]

theorem again_insert (w : List Place) (d : Insert) : PicturesAgain (walkInsert w d) (walkInsert w d.reread) := by
  obtain ⟨a, t, cs⟩ := d
  show PicturesAgain (walkInsertChildren w cs) (walkInsertChildren w (cs.flatMap InsertChild.reread))
  rw [insertChildren_flat, insertChildren_flat]
  exact .flatMap fun c _ => again_insertChild _ c

theorem pageField_pictures (w : List Place) (i : InstrText) : pick pictureAt (walkRun w (pageFieldRun i).reread) = [] := by
  rw [show pick pictureAt (walkRun w (pageFieldRun i).reread) = _ from again_run w _]
  cases i <;> simp [pageFieldRun, walkRun, walkRunChildren, walkRunChild, pick_cons, pick_nil]

/-- Children of paragraphs that are not links, content controls or moves in links. -/
theorem again_inner (w : List Place) (c : ParagraphChild) (h : c.ReadableInner ∨ (∃ d, c = .moveFrom d) ∨ ∃ i, c = .moveTo i) :
    PicturesAgain (walkParagraphChild w c) (c.rereadInner.flatMap (walkParagraphChild w)) := by
  cases c with
  | run r => simpa only [ParagraphChild.rereadInner, List.flatMap_cons, List.flatMap_nil, List.append_nil, walkParagraphChild] using again_run w r
  | insert d => simpa only [ParagraphChild.rereadInner, List.flatMap_cons, List.flatMap_nil, List.append_nil, walkParagraphChild] using again_insert _ d
  | delete d => simpa only [ParagraphChild.rereadInner, List.flatMap_cons, List.flatMap_nil, List.append_nil, walkParagraphChild] using again_delete _ d
  | moveFrom d => simpa only [ParagraphChild.rereadInner, List.flatMap_cons, List.flatMap_nil, List.append_nil, walkParagraphChild] using again_delete _ d
  | moveTo d => simpa only [ParagraphChild.rereadInner, List.flatMap_cons, List.flatMap_nil, List.append_nil, walkParagraphChild] using again_insert _ d
  | commentStart i c =>
    refine .none (again_comment w i c) ?_
    simpa only [ParagraphChild.rereadInner, List.flatMap_cons, List.flatMap_nil, List.append_nil, walkParagraphChild] using again_comment w i (.new i)
  | commentEnd i =>
    refine .none rfl ?_
    simp only [ParagraphChild.rereadInner, List.flatMap_cons, List.flatMap_nil, List.append_nil, walkParagraphChild, pick_append, again_emptyRun, pick_nil]
  | pageNum p =>
    refine .none rfl ?_
    simp only [ParagraphChild.rereadInner, List.flatMap_cons, List.flatMap_nil, List.append_nil, walkParagraphChild, pageField_pictures]
  | numPages p =>
    refine .none rfl ?_
    simp only [ParagraphChild.rereadInner, List.flatMap_cons, List.flatMap_nil, List.append_nil, walkParagraphChild, pageField_pictures]
  | bookmarkStart i n => exact .none rfl rfl
  | bookmarkEnd i => exact .none rfl rfl
  | hyperlink l => rcases h with h | ⟨_, h⟩ | ⟨_, h⟩ <;> cases h
  | sdt l => rcases h with h | ⟨_, h⟩ | ⟨_, h⟩ <;> cases h

theorem again_paragraphChild (w : List Place) (c : ParagraphChild) (h : c.Readable) :
    PicturesAgain (walkParagraphChild w c) (c.reread.flatMap (walkParagraphChild w)) := by
  cases c with
  | hyperlink l =>
    obtain ⟨link, hist, cs⟩ := l
    simp only [ParagraphChild.reread, List.flatMap_cons, List.flatMap_nil, List.append_nil, walkParagraphChild, walkHyperlink]
    refine .cons ?_ (by simp) (by simp)
    rw [paragraphChildren_flat, paragraphChildren_flat]
    exact .flatMap fun c hc => again_inner _ c (.inl (h.2.2 c hc))
  | moveFrom d => exact again_inner w _ (.inr (.inl ⟨_, rfl⟩))
  | moveTo d => exact again_inner w _ (.inr (.inr ⟨_, rfl⟩))
  | sdt s => cases h
  | _ => exact again_inner w _ (.inl h)

theorem again_paragraph (w : List Place) (p : Paragraph) (h : p.Readable) : PicturesAgain (walkParagraph w p) (walkParagraph w p.reread) := by
  obtain ⟨i, cs, pr, n⟩ := p
  refine .cons ?_ (by simp) (by simp)
  rw [paragraphChildren_flat, paragraphChildren_flat]
  exact .flatMap fun c hc => again_paragraphChild _ c (h.2.2 c hc)

mutual
theorem again_sdt (x : ReadEnv) : ∀ (s : Sdt) (w : List Place), s.Readable → PicturesAgain (walkSdt w s) (walkSdt w (s.reread x))
  | ⟨cs, pr, n⟩, w, h => by
    rw [Sdt.reread, walkSdt, walkSdt]
    exact .cons (again_sdtChildren x cs _ h.2) (by simp) (by simp)
theorem again_sdtChildren (x : ReadEnv) : ∀ (l : List SdtChild) (w : List Place), readableSdtChildren l →
    PicturesAgain (walkSdtChildren w l) (walkSdtChildren w (rereadSdtChildren x l))
  | [], w, _ => .nil
  | c :: l, w, h => by
    rw [rereadSdtChildren, sdtChildren_flat w (_ ++ _), List.flatMap_append, ← sdtChildren_flat, ← sdtChildren_flat, walkSdtChildren]
    exact (again_sdtChild x c w h.1).append (again_sdtChildren x l w h.2)
theorem again_sdtChild (x : ReadEnv) : ∀ (c : SdtChild) (w : List Place), c.Readable →
    PicturesAgain (walkSdtChild w c) (walkSdtChildren w (c.reread x))
  | .run r, w, _ => by simpa only [SdtChild.reread, walkSdtChildren, walkSdtChild, List.append_nil] using again_run w r
  | .paragraph p, w, h => by simpa only [SdtChild.reread, walkSdtChildren, walkSdtChild, List.append_nil] using again_paragraph w p h
  | .table t, w, h => by simpa only [SdtChild.reread, walkSdtChildren, walkSdtChild, List.append_nil] using again_table x t w h
  | .bookmarkStart _ _, w, _ => by rw [SdtChild.reread]; exact .none rfl rfl
  | .bookmarkEnd _, w, _ => by rw [SdtChild.reread]; exact .none rfl rfl
  | .commentStart i c, w, _ => by
    refine .none (by rw [walkSdtChild]; exact again_comment w i c) ?_
    simpa only [SdtChild.reread, walkSdtChildren, walkSdtChild, List.append_nil] using again_comment w i (.new i)
  | .commentEnd _, w, _ => by
    refine .none (by rw [walkSdtChild]; rfl) ?_
    simp only [SdtChild.reread, walkSdtChildren, walkSdtChild, pick_append, again_emptyRun, pick_nil, List.append_nil]
  | .sdt _, _, h => by simp only [SdtChild.Readable] at h
theorem again_table (x : ReadEnv) : ∀ (t : Table) (w : List Place), t.Readable → PicturesAgain (walkTable w t) (walkTable w (t.reread x))
  | ⟨rows, g, n, pr⟩, w, h => by
    rw [Table.reread, walkTable, walkTable]
    exact .cons (again_rows x rows w h.2) (by simp) (by simp)
theorem again_rows (x : ReadEnv) : ∀ (l : List Row) (w : List Place), readableRows l → PicturesAgain (walkRows w l) (walkRows w (rereadRows x l))
  | [], w, _ => .nil
  | r :: l, w, h => by
    rw [rereadRows, walkRows, walkRows]
    exact (again_row x r w h.1).append (again_rows x l w h.2)
theorem again_row (x : ReadEnv) : ∀ (r : Row) (w : List Place), r.Readable → PicturesAgain (walkRow w r) (walkRow w (r.reread x))
  | ⟨cells, _, _⟩, w, h => by
    rw [Row.reread, walkRow, walkRow]
    exact again_cells x cells w h.2
theorem again_cells (x : ReadEnv) : ∀ (l : List Cell) (w : List Place), readableCells l → PicturesAgain (walkCells w l) (walkCells w (rereadCells x l))
  | [], w, _ => .nil
  | r :: l, w, h => by
    rw [rereadCells, walkCells, walkCells]
    exact (again_cell x r w h.1).append (again_cells x l w h.2)
theorem again_cell (x : ReadEnv) : ∀ (c : Cell) (w : List Place), c.Readable → PicturesAgain (walkCell w c) (walkCell w (c.reread x))
  | ⟨cs, pr, n⟩, w, h => by
    rw [Cell.reread, walkCell, walkCell]
    exact .cons (again_contents x cs _ h.2.2.2) (by simp) (by simp)
theorem again_contents (x : ReadEnv) : ∀ (l : List CellContent) (w : List Place), readableContents l →
    PicturesAgain (walkCellContents w l) (walkCellContents w (rereadContents x l))
  | [], w, _ => .nil
  | c :: l, w, h => by
    rw [rereadContents, cellContents_flat w (_ ++ _), List.flatMap_append, ← cellContents_flat, ← cellContents_flat, walkCellContents]
    exact (again_content x c w h.1).append (again_contents x l w h.2)
theorem again_content (x : ReadEnv) : ∀ (c : CellContent) (w : List Place), c.Readable →
    PicturesAgain (walkCellContent w c) (walkCellContents w (c.reread x))
  | .paragraph p, w, h => by simpa only [CellContent.reread, walkCellContents, walkCellContent, List.append_nil] using again_paragraph w p h
  | .table t, w, h => by simpa only [CellContent.reread, walkCellContents, walkCellContent, List.append_nil] using again_table x t w h
  | .sdt t, w, h => by simpa only [CellContent.reread, walkCellContents, walkCellContent, List.append_nil] using again_sdt x t w h
  | .toc _, _, h => by simp only [CellContent.Readable] at h
end

theorem again_documentChild (x : ReadEnv) (c : DocumentChild) (w : List Place) (h : c.Readable) :
    PicturesAgain (walkDocumentChild w c) ((c.reread x).flatMap (walkDocumentChild w)) := by
  cases c with
  | paragraph p => simpa only [DocumentChild.reread, List.flatMap_cons, List.flatMap_nil, List.append_nil, walkDocumentChild] using again_paragraph w p h
  | table p => simpa only [DocumentChild.reread, List.flatMap_cons, List.flatMap_nil, List.append_nil, walkDocumentChild] using again_table x p w h
  | sdt p => simpa only [DocumentChild.reread, List.flatMap_cons, List.flatMap_nil, List.append_nil, walkDocumentChild] using again_sdt x p w h
  | commentStart i c =>
    refine .none (again_comment w i c) ?_
    simpa only [DocumentChild.reread, List.flatMap_cons, List.flatMap_nil, List.append_nil, walkDocumentChild] using again_comment w i (.new i)
  | commentEnd i => exact .none rfl rfl
  | bookmarkStart i n => exact .none rfl rfl
  | bookmarkEnd i => exact .none rfl rfl
  | toc t => cases h
  | «section» s => cases h

theorem sectionProperty_pictures (w : List Place) (p : SectionProperty) : pick pictureAt (walkSectionProperty w p) = [] :=
  walkSectionProperty_dead p w (dead_inHeader w) (dead_inFooter w)

/-- The pictures of a document that is read back: those it had, in order, each read back. -/
theorem document_pictures (x : ReadEnv) (d : Document) (h : d.Readable) :
    partPictures (walkDocument (d.reread x)) = (partPictures (walkDocument d)).map Pic.reread := by
  rw [pictures_pick, pictures_pick]
  simp only [walkDocument, pick_append, sectionProperty_pictures, List.append_nil]
  exact PicturesAgain.flatMap fun c hc => again_documentChild x c _ (h.1 c hc)

/-! ## Comments put where they start -/

/-- The two walks have the same pictures. -/
def SamePictures (a b : Walk) : Prop := pick pictureAt a = pick pictureAt b

theorem SamePictures.append {a b a' b' : Walk} (h : SamePictures a b) (h' : SamePictures a' b') : SamePictures (a ++ a') (b ++ b') := by
  unfold SamePictures at *
  rw [pick_append, pick_append, h, h']

theorem SamePictures.cons {a b : Walk} {w w' : List Place} {i j : Item} (h : SamePictures a b) (hi : ∀ p, i ≠ .picture p) (hj : ∀ p, j ≠ .picture p) :
    SamePictures ((w, i) :: a) ((w', j) :: b) := by
  unfold SamePictures at *
  rw [pick_cons, pick_cons, pictureAt_other _ hi, pictureAt_other _ hj, h]

theorem SamePictures.map {α : Type} {v : α → Walk} {f : α → α} {l : List α} (h : ∀ a, SamePictures (v (f a)) (v a)) :
    SamePictures ((l.map f).flatMap v) (l.flatMap v) := by
  induction l with
  | nil => rfl
  | cons a l ih =>
    rw [List.map_cons, List.flatMap_cons, List.flatMap_cons]
    exact (h a).append ih

theorem stored_deleteChild (cs : List Comment) (w : List Place) (c : DeleteChild) :
    SamePictures (walkDeleteChild w (storeInDeleteChild cs c)) (walkDeleteChild w c) := by
  cases c with
  | commentStart i c => exact (again_comment w i _).trans (again_comment w i c).symm
  | _ => rfl

theorem stored_deleteChildren (cs : List Comment) (w : List Place) (l : List DeleteChild) :
    SamePictures (walkDeleteChildren w (l.map (storeInDeleteChild cs))) (walkDeleteChildren w l) := by
  rw [deleteChildren_flat, deleteChildren_flat]
  exact .map (stored_deleteChild cs w)

theorem stored_insertChild (cs : List Comment) (deep : Bool) (w : List Place) (c : InsertChild) :
    SamePictures (walkInsertChild w (storeInInsertChild cs deep c)) (walkInsertChild w c) := by
  cases c with
  | commentStart i c => exact (again_comment w i _).trans (again_comment w i c).symm
  | delete d =>
    obtain ⟨a, t, l⟩ := d
    cases deep
    · rfl
    · exact stored_deleteChildren cs _ l
  | _ => rfl

theorem stored_paragraphChild (cs : List Comment) (deep : Bool) (w : List Place) (c : ParagraphChild) :
    SamePictures (walkParagraphChild w (storeInParagraphChild cs deep c)) (walkParagraphChild w c) := by
  cases c with
  | commentStart i c => exact (again_comment w i _).trans (again_comment w i c).symm
  | insert d =>
    obtain ⟨a, t, l⟩ := d
    show SamePictures (walkInsertChildren _ (l.map _)) (walkInsertChildren _ l)
    rw [insertChildren_flat, insertChildren_flat]
    exact .map (stored_insertChild cs deep _)
  | delete d =>
    obtain ⟨a, t, l⟩ := d
    exact stored_deleteChildren cs _ l
  | _ => rfl

theorem stored_paragraph (cs : List Comment) (deep : Bool) (w : List Place) (p : Paragraph) :
    SamePictures (walkParagraph w (storeInParagraph cs deep p)) (walkParagraph w p) := by
  obtain ⟨i, l, pr, n⟩ := p
  refine .cons ?_ (by simp) (by simp)
  rw [paragraphChildren_flat, paragraphChildren_flat]
  exact .map (stored_paragraphChild cs deep _)

mutual
theorem stored_table (cs : List Comment) : ∀ (t : Table) (w : List Place), SamePictures (walkTable w (storeInTable cs t)) (walkTable w t)
  | ⟨rows, g, n, pr⟩, w => by
    rw [storeInTable, walkTable, walkTable]
    exact .cons (stored_rows cs rows w) (by simp) (by simp)
theorem stored_rows (cs : List Comment) : ∀ (l : List Row) (w : List Place), SamePictures (walkRows w (storeInRows cs l)) (walkRows w l)
  | [], w => rfl
  | ⟨cells, n, p⟩ :: l, w => by
    rw [storeInRows, walkRows, walkRows, walkRow, walkRow]
    exact (stored_cells cs cells w).append (stored_rows cs l w)
theorem stored_cells (cs : List Comment) : ∀ (l : List Cell) (w : List Place), SamePictures (walkCells w (storeInCells cs l)) (walkCells w l)
  | [], w => rfl
  | ⟨c, n, p⟩ :: l, w => by
    rw [storeInCells, walkCells, walkCells, walkCell, walkCell]
    exact (SamePictures.cons (stored_contents cs c _) (by simp) (by simp)).append (stored_cells cs l w)
theorem stored_contents (cs : List Comment) : ∀ (l : List CellContent) (w : List Place),
    SamePictures (walkCellContents w (storeInContents cs l)) (walkCellContents w l)
  | [], w => rfl
  | .paragraph p :: l, w => by
    rw [storeInContents, walkCellContents, walkCellContents]
    exact (stored_paragraph cs false w p).append (stored_contents cs l w)
  | .table p :: l, w => by
    rw [storeInContents, walkCellContents, walkCellContents, walkCellContent, walkCellContent]
    exact (stored_table cs p w).append (stored_contents cs l w)
  | .sdt ⟨c, p, n⟩ :: l, w => by
    rw [storeInContents, walkCellContents, walkCellContents, walkCellContent, walkCellContent, walkSdt, walkSdt]
    exact (SamePictures.cons (stored_sdtChildren cs c _) (by simp) (by simp)).append (stored_contents cs l w)
  | .toc ⟨a, b, c, d, e, f, g, before, after, i, j⟩ :: l, w => by
    rw [storeInContents, walkCellContents, walkCellContents, walkCellContent, walkCellContent, walkToc, walkToc]
    exact (SamePictures.cons ((stored_blocks cs before _).append (stored_blocks cs after _)) (by simp) (by simp)).append (stored_contents cs l w)
theorem stored_sdtChildren (cs : List Comment) : ∀ (l : List SdtChild) (w : List Place),
    SamePictures (walkSdtChildren w (storeInSdtChildren cs l)) (walkSdtChildren w l)
  | [], w => rfl
  | .paragraph p :: l, w => by
    rw [storeInSdtChildren, walkSdtChildren, walkSdtChildren]
    exact (stored_paragraph cs false w p).append (stored_sdtChildren cs l w)
  | .table p :: l, w => by
    rw [storeInSdtChildren, walkSdtChildren, walkSdtChildren, walkSdtChild, walkSdtChild]
    exact (stored_table cs p w).append (stored_sdtChildren cs l w)
  | .run _ :: l, w => by
    rw [storeInSdtChildren, walkSdtChildren, walkSdtChildren] <;> first | exact SamePictures.append rfl (stored_sdtChildren cs l w) | simp
  | .bookmarkStart _ _ :: l, w => by
    rw [storeInSdtChildren, walkSdtChildren, walkSdtChildren] <;> first | exact SamePictures.append rfl (stored_sdtChildren cs l w) | simp
  | .bookmarkEnd _ :: l, w => by
    rw [storeInSdtChildren, walkSdtChildren, walkSdtChildren] <;> first | exact SamePictures.append rfl (stored_sdtChildren cs l w) | simp
  | .commentStart _ _ :: l, w => by
    rw [storeInSdtChildren, walkSdtChildren, walkSdtChildren] <;> first | exact SamePictures.append rfl (stored_sdtChildren cs l w) | simp
  | .commentEnd _ :: l, w => by
    rw [storeInSdtChildren, walkSdtChildren, walkSdtChildren] <;> first | exact SamePictures.append rfl (stored_sdtChildren cs l w) | simp
  | .sdt _ :: l, w => by
    rw [storeInSdtChildren, walkSdtChildren, walkSdtChildren] <;> first | exact SamePictures.append rfl (stored_sdtChildren cs l w) | simp
theorem stored_blocks (cs : List Comment) : ∀ (l : List Block) (w : List Place), SamePictures (walkBlocks w (storeInBlocks cs l)) (walkBlocks w l)
  | [], w => rfl
  | .paragraph p :: l, w => by
    rw [storeInBlocks, walkBlocks, walkBlocks, walkBlock, walkBlock]
    exact (stored_paragraph cs false w p).append (stored_blocks cs l w)
  | .table p :: l, w => by
    rw [storeInBlocks, walkBlocks, walkBlocks, walkBlock, walkBlock]
    exact (stored_table cs p w).append (stored_blocks cs l w)
end

theorem stored_child (cs : List Comment) (c : DocumentChild) (w : List Place) :
    SamePictures (walkDocumentChild w (storeInChild cs c)) (walkDocumentChild w c) := by
  cases c with
  | paragraph p => exact stored_paragraph cs true w p
  | table t => exact stored_table cs t w
  | _ => rfl

/-- Putting comments where they start changes no picture. -/
theorem stored_pictures (cs : List Comment) (d d' : Document) (h : d'.children = d.children.map (storeInChild cs)) :
    partPictures (walkDocument d') = partPictures (walkDocument d) := by
  rw [pictures_pick, pictures_pick]
  simp only [walkDocument, pick_append, sectionProperty_pictures, List.append_nil, h]
  exact SamePictures.map fun c => stored_child cs c _

theorem children_pictures (d d' : Document) (h : d'.children = d.children) :
    partPictures (walkDocument d') = partPictures (walkDocument d) := by
  rw [pictures_pick, pictures_pick]
  simp only [walkDocument, pick_append, sectionProperty_pictures, List.append_nil, h]

end Docx
