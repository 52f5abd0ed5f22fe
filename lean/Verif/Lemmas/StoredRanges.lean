import Verif.Model.StoreComments
import Verif.Lemmas.Found
import Verif.Spec.Ranges

/-! # Where comments are put when a file is read -/

namespace Docx

open Docx.Spec

/-- The comments that start there. -/
def startsAt (w : List Place) (i : Item) : List (Nat × Comment) :=
  if inParagraphs w then (match i with | .comment id c => [(id, c)] | _ => []) else []

/-- All of them are the ones found among the comments of the file, if there are such. -/
def Put (cs : List Comment) (l : List (Nat × Comment)) : Prop := ∀ x ∈ l, ∃ c, x.2 = storedComment cs x.1 c

theorem Put.nil {cs : List Comment} : Put cs [] := fun _ h => (by cases h)
theorem Put.append {cs : List Comment} {a b : List (Nat × Comment)} (ha : Put cs a) (hb : Put cs b) : Put cs (a ++ b) := fun x hx =>
  (List.mem_append.1 hx).elim (ha x) (hb x)

theorem dead_starts {p : Place} (h1 : p ≠ .paragraph) (h2 : p ≠ .cell) (h3 : p ≠ .document) (w : List Place) : Dead startsAt (p :: w) := by
  intro a i
  have : inParagraphs (a ++ p :: w) = false := by
    cases a with
    | nil => cases p <;> first | rfl | exact absurd rfl h1
    | cons q a =>
      cases q <;> first
        | rfl
        | (simp only [List.cons_append, inParagraphs, List.all_append, List.all_cons, h2, h3, or_self, decide_false, Bool.false_and, Bool.and_false])
  simp only [startsAt, this, Bool.false_eq_true, if_false]

/-- Nothing but a comment is said. -/
theorem startsAt_other (w : List Place) {i : Item} (h : ∀ id c, i ≠ .comment id c) : startsAt w i = [] := by
  unfold startsAt
  split
  · cases i <;> first | rfl | exact absurd rfl (h _ _)
  · rfl

theorem starts_run (r : Run) (w : List Place) : pick startsAt (walkRun w r) = [] := by
  obtain ⟨pr, cs⟩ := r
  rw [walkRun, pick_cons, startsAt_other _ (fun _ _ h => (by cases h)), walkRunChildren_dead _ _ (dead_starts (by decide) (by decide) (by decide) _)]
  rfl

theorem starts_sdt (s : Sdt) (w : List Place) : pick startsAt (walkSdt w s) = [] := by
  obtain ⟨cs, pr, n⟩ := s
  rw [walkSdt, pick_cons, startsAt_other _ (fun _ _ h => (by cases h)), walkSdtChildren_dead _ _ (dead_starts (by decide) (by decide) (by decide) _)]
  rfl

theorem starts_toc (s : Toc) (w : List Place) : pick startsAt (walkToc w s) = [] := by
  obtain ⟨a, b, c, d, e, f, g, bs, as, j, k⟩ := s
  rw [walkToc, pick_cons, pick_append, startsAt_other _ (fun _ _ h => (by cases h)),
    walkBlocks_dead _ _ (dead_starts (by decide) (by decide) (by decide) _),
    walkBlocks_dead _ _ (dead_starts (by decide) (by decide) (by decide) _)]
  rfl

theorem starts_comment {cs : List Comment} (id : Nat) (c : Comment) (w : List Place) :
    Put cs (pick startsAt ((w, .comment id (storedComment cs id c)) :: walkComment (.comment :: w) (storedComment cs id c))) := by
  rw [pick_cons, walkComment_dead _ _ (dead_starts (by decide) (by decide) (by decide) _), List.append_nil]
  unfold startsAt
  split
  · intro x hx
    cases List.mem_singleton.1 hx
    exact ⟨c, rfl⟩
  · exact .nil

theorem starts_paragraphChild (cs : List Comment) (deep : Bool) (w : List Place) (c : ParagraphChild) :
    Put cs (pick startsAt (walkParagraphChild w (storeInParagraphChild cs deep c))) := by
  have hd : ∀ p : Place, p ≠ .paragraph ∧ p ≠ .cell ∧ p ≠ .document → Dead startsAt (p :: w) := fun p h => dead_starts h.1 h.2.1 h.2.2 w
  cases c with
  | commentStart id c => exact starts_comment id c w
  | run r => show Put cs (pick startsAt (walkRun w r)); rw [starts_run]; exact .nil
  | insert i =>
    obtain ⟨a, t, l⟩ := i
    rw [storeInParagraphChild, walkParagraphChild, walkInsert_dead _ _ (hd _ (by decide))]; exact .nil
  | delete i =>
    obtain ⟨a, t, l⟩ := i
    rw [storeInParagraphChild, walkParagraphChild, walkDelete_dead _ _ (hd _ (by decide))]; exact .nil
  | moveFrom i => show Put cs (pick startsAt (walkDelete (.moveFrom :: w) i)); rw [walkDelete_dead _ _ (hd _ (by decide))]; exact .nil
  | moveTo i => show Put cs (pick startsAt (walkInsert (.moveTo :: w) i)); rw [walkInsert_dead _ _ (hd _ (by decide))]; exact .nil
  | hyperlink h =>
    obtain ⟨a, b, l⟩ := h
    show Put cs (pick startsAt (walkHyperlink w ⟨a, b, l⟩))
    rw [walkHyperlink, pick_cons, startsAt_other _ (fun _ _ h => (by cases h)),
      walkParagraphChildren_dead _ _ (hd _ (by decide))]
    exact .nil
  | sdt s => show Put cs (pick startsAt (walkSdt w s)); rw [starts_sdt]; exact .nil
  | _ => exact .nil

theorem starts_paragraph (cs : List Comment) (deep : Bool) (w : List Place) (p : Paragraph) :
    Put cs (pick startsAt (walkParagraph w (storeInParagraph cs deep p))) := by
  obtain ⟨i, l, pr, n⟩ := p
  rw [storeInParagraph, walkParagraph, pick_cons, startsAt_other _ (fun _ _ h => (by cases h)), List.nil_append]
  generalize Place.paragraph :: w = v
  induction l with
  | nil => exact .nil
  | cons c l ih =>
    rw [List.map_cons, walkParagraphChildren, pick_append]
    exact (starts_paragraphChild cs deep v c).append ih

mutual
theorem starts_table (cs : List Comment) : ∀ (t : Table) (w : List Place), Put cs (pick startsAt (walkTable w (storeInTable cs t)))
  | ⟨rows, grid, n, p⟩, w => by
    rw [storeInTable, walkTable, pick_cons, startsAt_other _ (fun _ _ h => (by cases h)), List.nil_append]
    exact starts_rows cs rows w
theorem starts_rows (cs : List Comment) : ∀ (t : List Row) (w : List Place), Put cs (pick startsAt (walkRows w (storeInRows cs t)))
  | [], w => .nil
  | ⟨cells, n, p⟩ :: rs, w => by
    rw [storeInRows, walkRows, walkRow, pick_append]
    exact (starts_cells cs cells w).append (starts_rows cs rs w)
theorem starts_cells (cs : List Comment) : ∀ (t : List Cell) (w : List Place), Put cs (pick startsAt (walkCells w (storeInCells cs t)))
  | [], w => .nil
  | ⟨children, p, n⟩ :: l, w => by
    rw [storeInCells, walkCells, walkCell, pick_append, pick_cons, startsAt_other _ (fun _ _ h => (by cases h)), List.nil_append]
    exact (starts_contents cs children _).append (starts_cells cs l w)
theorem starts_contents (cs : List Comment) : ∀ (t : List CellContent) (w : List Place),
    Put cs (pick startsAt (walkCellContents w (storeInContents cs t)))
  | [], w => .nil
  | .paragraph p :: l, w => by
    rw [storeInContents, walkCellContents, walkCellContent, pick_append]
    exact (starts_paragraph cs false w p).append (starts_contents cs l w)
  | .table t :: l, w => by
    rw [storeInContents, walkCellContents, walkCellContent, pick_append]
    exact (starts_table cs t w).append (starts_contents cs l w)
  | .sdt ⟨children, p, n⟩ :: l, w => by
    rw [storeInContents, walkCellContents, walkCellContent, pick_append, starts_sdt]
    exact starts_contents cs l w
  | .toc ⟨i, items, a, d, x, al, pl, before, after, del, pp⟩ :: l, w => by
    rw [storeInContents, walkCellContents, walkCellContent, pick_append, starts_toc]
    exact starts_contents cs l w
end

theorem starts_child (cs : List Comment) (c : DocumentChild) : Put cs (pick startsAt (walkDocumentChild [.document] (storeInChild cs c))) := by
  cases c with
  | paragraph p => exact starts_paragraph cs true _ p
  | table t => exact starts_table cs t _
  | sdt s => show Put cs (pick startsAt (walkSdt _ s)); rw [starts_sdt]; exact .nil
  | toc t => show Put cs (pick startsAt (walkToc _ t)); rw [starts_toc]; exact .nil
  | «section» s =>
    show Put cs (pick startsAt (walkSection _ s))
    rw [walkSection_dead _ _ (dead_starts (by decide) (by decide) (by decide) _)]
    exact .nil
  | commentStart id c =>
    show Put cs (pick startsAt ((_, .comment id c) :: walkComment _ c))
    rw [pick_cons, walkComment_dead _ _ (dead_starts (by decide) (by decide) (by decide) _)]
    exact .nil
  | _ => exact .nil

/-- A comment that starts directly in a paragraph of the body, or of a cell of a table of the body, is the one among the comments of the
file that has the id. -/
theorem stored_ranges {cs : List Comment} {d : Document} {l : List DocumentChild} (hd : d.children = l.map (storeInChild cs)) {w : List Place}
    {id : Nat} {c : Comment} (h : (w, Item.comment id c) ∈ walkDocument d) (hw : inParagraphs w = true) (hc : ∃ c' ∈ cs, c'.id = id) :
    c ∈ cs ∧ c.id = id := by
  have hput : Put cs (pick startsAt (walkDocument d)) := by
    unfold walkDocument
    rw [pick_append, walkSectionProperty_dead _ _ (dead_starts (by decide) (by decide) (by decide) _) (dead_starts (by decide) (by decide) (by decide) _),
      List.append_nil, hd]
    clear hd h
    induction l with
    | nil => exact .nil
    | cons x l ih =>
      rw [List.map_cons, List.flatMap_cons, pick_append]
      exact (starts_child cs x).append ih
  have hm : (id, c) ∈ pick startsAt (walkDocument d) := by
    refine List.mem_flatMap.2 ⟨_, h, ?_⟩
    simp only [startsAt, hw, if_true, List.mem_singleton]
  obtain ⟨c0, e⟩ := hput _ hm
  dsimp only at e
  unfold storedComment at e
  obtain ⟨c', h1, h2⟩ := hc
  cases hl : (cs.filter fun c => c.id = id).getLast? with
  | none =>
    rw [List.getLast?_eq_none_iff] at hl
    have : c' ∈ cs.filter fun c => c.id = id := List.mem_filter.2 ⟨h1, decide_eq_true h2⟩
    rw [hl] at this
    cases this
  | some y =>
    rw [hl, Option.getD_some] at e
    have := List.mem_filter.1 (List.mem_of_getLast? hl)
    rw [e]
    exact ⟨this.1, of_decide_eq_true this.2⟩

end Docx
