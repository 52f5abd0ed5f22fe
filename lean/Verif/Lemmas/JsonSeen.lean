import Verif.Lemmas.JsonTexts
import Verif.Spec.BodyItems
import Verif.Spec.PartItems

/-!
# The texts of a document whose items are known
-/

namespace Docx

open Spec

private theorem piece_texts {c : RunChild} {p : RunPiece} (w : List Place) (hw : inPart w = true) (h : seenPiece c = some p) :
    pick textAt (walkRunChild w c) = p.texts := by
  cases c <;> simp only [seenPiece, Option.some.injEq, reduceCtorEq] at h <;> subst h <;>
    simp [walkRunChild, pick_cons, pick_nil, textAt, hw, RunPiece.texts]

private theorem pieces_texts (w : List Place) (hw : inPart w = true) : ∀ {cs : List RunChild} {ps : List RunPiece},
    allThere (cs.map seenPiece) = some ps → pick textAt (walkRunChildren w cs) = ps.flatMap RunPiece.texts
  | [], ps, h => by simp only [List.map_nil, allThere, Option.some.injEq] at h; subst h; rfl
  | c :: cs, ps, h => by
    simp only [List.map_cons, allThere] at h
    split at h
    · next a l ha hl =>
      simp only [Option.some.injEq] at h; subst h
      rw [walkRunChildren, pick_append, piece_texts w hw ha, pieces_texts w hw hl, List.flatMap_cons]
    · cases h

private theorem run_texts (w : List Place) (hw : inPart w = true) {r : Run} {i : RunItem} (h : seenRun r = some i) :
    pick textAt (walkRun w r) = i.2.flatMap RunPiece.texts := by
  obtain ⟨pr, cs⟩ := r
  simp only [seenRun, Option.map_eq_some_iff] at h
  obtain ⟨ps, h, rfl⟩ := h
  rw [walkRun, pick_cons, pieces_texts _ (inPart_push hw (by decide)) h]
  simp [textAt]

private theorem inserts_texts (w : List Place) (hw : inPart w = true) : ∀ {cs : List InsertChild} {rs : List RunItem},
    allThere (cs.map fun | .run r => seenRun r | _ => none) = some rs → pick textAt (walkInsertChildren w cs) = rs.flatMap fun r => r.2.flatMap RunPiece.texts
  | [], rs, h => by simp only [List.map_nil, allThere, Option.some.injEq] at h; subst h; rfl
  | c :: cs, rs, h => by
    simp only [List.map_cons, allThere] at h
    split at h
    · next a l ha hl =>
      simp only [Option.some.injEq] at h; subst h
      cases c <;> simp only [reduceCtorEq] at ha
      rw [walkInsertChildren, walkInsertChild, pick_append, run_texts w hw ha, inserts_texts w hw hl, List.flatMap_cons]
    · cases h

private theorem deletes_texts (w : List Place) (hw : inPart w = true) : ∀ {cs : List DeleteChild} {rs : List RunItem},
    allThere (cs.map fun | .run r => seenRun r | _ => none) = some rs → pick textAt (walkDeleteChildren w cs) = rs.flatMap fun r => r.2.flatMap RunPiece.texts
  | [], rs, h => by simp only [List.map_nil, allThere, Option.some.injEq] at h; subst h; rfl
  | c :: cs, rs, h => by
    simp only [List.map_cons, allThere] at h
    split at h
    · next a l ha hl =>
      simp only [Option.some.injEq] at h; subst h
      cases c <;> simp only [reduceCtorEq] at ha
      rw [walkDeleteChildren, walkDeleteChild, pick_append, run_texts w hw ha, deletes_texts w hw hl, List.flatMap_cons]
    · cases h

private theorem links_texts (w : List Place) (hw : inPart w = true) : ∀ {cs : List ParagraphChild} {rs : List RunItem},
    allThere (cs.map fun | .run r => seenRun r | _ => none) = some rs → pick textAt (walkParagraphChildren w cs) = rs.flatMap fun r => r.2.flatMap RunPiece.texts
  | [], rs, h => by simp only [List.map_nil, allThere, Option.some.injEq] at h; subst h; rfl
  | c :: cs, rs, h => by
    simp only [List.map_cons, allThere] at h
    split at h
    · next a l ha hl =>
      simp only [Option.some.injEq] at h; subst h
      cases c <;> simp only [reduceCtorEq] at ha
      rw [walkParagraphChildren, walkParagraphChild, pick_append, run_texts w hw ha, links_texts w hw hl, List.flatMap_cons]
    · cases h

private theorem part_texts (w : List Place) (hw : inPart w = true) {c : ParagraphChild} {p : ParagraphPart} (h : seenPart c = some p) :
    pick textAt (walkParagraphChild w c) = p.texts := by
  cases c with
  | run r =>
    simp only [seenPart, Option.map_eq_some_iff] at h
    obtain ⟨i, h, rfl⟩ := h
    rw [walkParagraphChild, run_texts w hw h, ParagraphPart.texts]
  | insert i =>
    obtain ⟨a, d, cs⟩ := i
    simp only [seenPart, Option.map_eq_some_iff] at h
    obtain ⟨i, h, rfl⟩ := h
    rw [walkParagraphChild, walkInsert, inserts_texts _ (inPart_push hw (by decide)) h, ParagraphPart.texts]
  | delete i =>
    obtain ⟨a, d, cs⟩ := i
    simp only [seenPart, Option.map_eq_some_iff] at h
    obtain ⟨i, h, rfl⟩ := h
    rw [walkParagraphChild, walkDelete, deletes_texts _ (inPart_push hw (by decide)) h, ParagraphPart.texts]
  | bookmarkStart i n => simp only [seenPart, Option.some.injEq] at h; subst h; rfl
  | bookmarkEnd i => simp only [seenPart, Option.some.injEq] at h; subst h; rfl
  | hyperlink y =>
    obtain ⟨l, y, cs⟩ := y
    cases l with
    | external r p => simp [seenPart] at h
    | anchor a =>
      simp only [seenPart, Option.map_eq_some_iff] at h
      obtain ⟨i, h, rfl⟩ := h
      rw [walkParagraphChild, walkHyperlink, pick_cons, links_texts _ (inPart_push hw (by decide)) h, ParagraphPart.texts]
      simp [textAt]
  | _ => simp [seenPart] at h

private theorem parts_texts (w : List Place) (hw : inPart w = true) : ∀ {cs : List ParagraphChild} {ps : List ParagraphPart},
    allThere (cs.map seenPart) = some ps → pick textAt (walkParagraphChildren w cs) = ps.flatMap ParagraphPart.texts
  | [], ps, h => by simp only [List.map_nil, allThere, Option.some.injEq] at h; subst h; rfl
  | c :: cs, ps, h => by
    simp only [List.map_cons, allThere] at h
    split at h
    · next a l ha hl =>
      simp only [Option.some.injEq] at h; subst h
      rw [walkParagraphChildren, pick_append, part_texts w hw ha, parts_texts w hw hl, List.flatMap_cons]
    · cases h

private theorem paragraph_texts (w : List Place) (hw : inPart w = true) {p : Paragraph} {i : BodyItem} (h : seenParagraph p = some i) (is : List BodyItem) :
    pick textAt (walkParagraph w p) ++ textsOf is = textsOf (i :: is) := by
  obtain ⟨id, cs, pr, n⟩ := p
  simp only [seenParagraph, Option.map_eq_some_iff] at h
  obtain ⟨ps, h, rfl⟩ := h
  rw [walkParagraph, pick_cons, parts_texts _ (inPart_push hw (by decide)) h, textsOf]
  simp [textAt]

mutual
private theorem rows_texts (w : List Place) (hw : inPart w = true) : ∀ {rs : List Row} {is : List (List (List BodyItem))},
    seenRows rs = some is → pick textAt (walkRows w rs) = textsOfRows is
  | [], is, h => by simp only [seenRows, Option.some.injEq] at h; subst h; rw [walkRows, textsOfRows, pick_nil]
  | ⟨cells, _, _⟩ :: rs, is, h => by
    rw [seenRows] at h
    split at h
    · next a l ha hl =>
      simp only [Option.some.injEq] at h; subst h
      rw [walkRows, walkRow, pick_append, cells_texts w hw ha, rows_texts w hw hl, textsOfRows]
    · cases h
private theorem cells_texts (w : List Place) (hw : inPart w = true) : ∀ {rs : List Cell} {is : List (List BodyItem)},
    seenCells rs = some is → pick textAt (walkCells w rs) = textsOfCells is
  | [], is, h => by simp only [seenCells, Option.some.injEq] at h; subst h; rw [walkCells, textsOfCells, pick_nil]
  | ⟨cs, _, _⟩ :: rs, is, h => by
    rw [seenCells] at h
    split at h
    · next a l ha hl =>
      simp only [Option.some.injEq] at h; subst h
      rw [walkCells, walkCell, pick_append, pick_cons, contents_texts _ (inPart_push hw (by decide)) ha, cells_texts w hw hl, textsOfCells]
      simp [textAt]
    · cases h
private theorem contents_texts (w : List Place) (hw : inPart w = true) : ∀ {cs : List CellContent} {is : List BodyItem},
    seenContents cs = some is → pick textAt (walkCellContents w cs) = textsOf is
  | [], is, h => by simp only [seenContents, Option.some.injEq] at h; subst h; rw [walkCellContents, textsOf, pick_nil]
  | .paragraph p :: cs, is, h => by
    rw [seenContents] at h
    split at h
    · next a l ha hl =>
      simp only [Option.some.injEq] at h; subst h
      rw [walkCellContents, walkCellContent, pick_append, contents_texts w hw hl, paragraph_texts w hw ha]
    · cases h
  | .table ⟨rows, _, _, _⟩ :: cs, is, h => by
    rw [seenContents] at h
    split at h
    · next a l ha hl =>
      simp only [Option.some.injEq] at h; subst h
      rw [walkCellContents, walkCellContent, pick_append, contents_texts w hw hl, walkTable, pick_cons, rows_texts w hw ha, textsOf]
      simp [textAt]
    · cases h
  | .sdt s :: cs, is, h => by simp [seenContents] at h
  | .toc s :: cs, is, h => by simp [seenContents] at h
end

/-- The texts of a document whose items are known are those of the items. -/
theorem seen_texts {d : Document} {items : List BodyItem} (h : seenItems d = some items) : keptTexts d = textsOf items := by
  rw [keptTexts_pick, walkDocument, pick_append, walkSectionProperty_texts, List.append_nil]
  have hw : inPart [.document] = true := by decide
  obtain ⟨cs, pr, n⟩ := d
  simp only [seenItems] at h
  induction cs generalizing items with
  | nil => simp only [List.map_nil, allThere, Option.some.injEq] at h; subst h; rw [textsOf]; rfl
  | cons c cs ih =>
    simp only [List.map_cons, allThere] at h
    split at h
    · next a l ha hl =>
      simp only [Option.some.injEq] at h; subst h
      simp only [List.flatMap_cons, pick_append, ih hl]
      cases c with
      | paragraph p => rw [walkDocumentChild, paragraph_texts _ hw ha]
      | table t =>
        obtain ⟨rows, _, _, _⟩ := t
        simp only [seenChild, Option.map_eq_some_iff] at ha
        obtain ⟨rs, ha, rfl⟩ := ha
        rw [walkDocumentChild, walkTable, pick_cons, rows_texts _ hw ha, textsOf]
        simp [textAt]
      | _ => simp [seenChild] at ha
    · cases h

mutual
private theorem dropRowIds_texts : ∀ rs : List (List (List BodyItem)), textsOfRows (dropRowIds rs) = textsOfRows rs
  | [] => by rw [dropRowIds]
  | r :: rs => by rw [dropRowIds, textsOfRows, textsOfRows, dropCellIds_texts r, dropRowIds_texts rs]
private theorem dropCellIds_texts : ∀ rs : List (List BodyItem), textsOfCells (dropCellIds rs) = textsOfCells rs
  | [] => by rw [dropCellIds]
  | r :: rs => by rw [dropCellIds, textsOfCells, textsOfCells, dropIds_texts r, dropCellIds_texts rs]
theorem dropIds_texts : ∀ is : List BodyItem, textsOf (dropIds is) = textsOf is
  | [] => by rw [dropIds]
  | .paragraph i p ps :: is => by rw [dropIds, BodyItem.dropIds, textsOf, textsOf, dropIds_texts is]
  | .table rows :: is => by rw [dropIds, BodyItem.dropIds, textsOf, textsOf, dropIds_texts is, dropRowIds_texts rows]
end

end Docx
