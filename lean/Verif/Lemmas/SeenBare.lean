import Verif.Lemmas.BareReads
import Verif.Lemmas.KeptBody
import Verif.Lemmas.ReadMore
import Verif.Spec.PartItems

/-!
# What is seen in content without ids
-/

namespace Docx
open Spec

theorem seenPiece_bare (c : RunChild) : seenPiece (bareRunChild c) = seenPiece c := by cases c <;> rfl

theorem seenRun_bare (r : Run) : seenRun (bareRun r) = seenRun r := by
  obtain ⟨p, cs⟩ := r
  simp only [seenRun, bareRun, bareRunChildren_eq, List.map_map]
  congr 2
  exact List.map_congr_left fun c _ => seenPiece_bare c

theorem seenPart_bare (c : ParagraphChild) : seenPart (bareParagraphChild c) = seenPart c := by
  cases c
  case run r => simp only [seenPart, bareParagraphChild, seenRun_bare]
  case insert i =>
    obtain ⟨a, b, cs⟩ := i
    simp only [seenPart, bareParagraphChild, bareInsert, bareInsertChildren_eq, List.map_map]
    congr 2
    refine List.map_congr_left fun c _ => ?_
    cases c <;> simp [bareInsertChild, seenRun_bare]
  case delete i =>
    obtain ⟨a, b, cs⟩ := i
    simp only [seenPart, bareParagraphChild, bareDelete, bareDeleteChildren_eq, List.map_map]
    congr 2
    refine List.map_congr_left fun c _ => ?_
    cases c <;> simp [bareDeleteChild, seenRun_bare]
  case hyperlink h =>
    obtain ⟨l, y, cs⟩ := h
    cases l with
    | external _ _ => rfl
    | anchor a =>
      simp only [seenPart, bareParagraphChild, bareHyperlink, bareParagraphChildren_eq, List.map_map]
      congr 2
      refine List.map_congr_left fun c _ => ?_
      cases c <;> simp [bareParagraphChild, seenRun_bare]
  all_goals rfl

theorem seenParagraph_bare (p : Paragraph) : seenParagraph (bareParagraph p) = (seenParagraph p).map BodyItem.dropIds := by
  obtain ⟨i, cs, q, n⟩ := p
  simp only [seenParagraph, bareParagraph, bareParagraphChildren_eq, List.map_map]
  have : cs.map (seenPart ∘ bareParagraphChild) = cs.map seenPart := List.map_congr_left fun c _ => seenPart_bare c
  rw [this]
  cases allThere (cs.map seenPart) with
  | none => rfl
  | some l => simp [BodyItem.dropIds]

mutual
theorem seenRows_bare : ∀ rs : List Row, seenRows (bareRows rs) = (seenRows rs).map dropRowIds
  | [] => by simp [bareRows, seenRows, dropRowIds]
  | ⟨cells, n, p⟩ :: rs => by
    simp only [bareRows, bareRow, seenRows, seenCells_bare cells, seenRows_bare rs]
    cases seenCells cells <;> cases seenRows rs <;> simp [dropRowIds]
theorem seenCells_bare : ∀ rs : List Cell, seenCells (bareCells rs) = (seenCells rs).map dropCellIds
  | [] => by simp [bareCells, seenCells, dropCellIds]
  | ⟨cs, n, p⟩ :: rs => by
    simp only [bareCells, bareCell, seenCells, seenContents_bare cs, seenCells_bare rs]
    cases seenContents cs <;> cases seenCells rs <;> simp [dropCellIds]
theorem seenContents_bare : ∀ rs : List CellContent, seenContents (bareCellContents rs) = (seenContents rs).map dropIds
  | [] => by simp [bareCellContents, seenContents, dropIds]
  | .paragraph p :: cs => by
    simp only [bareCellContents, bareCellContent, seenContents, seenParagraph_bare p, seenContents_bare cs]
    cases seenParagraph p <;> cases seenContents cs <;> simp [dropIds]
  | .table ⟨rows, _, _, _⟩ :: cs => by
    simp only [bareCellContents, bareCellContent, bareTable, seenContents, seenRows_bare rows, seenContents_bare cs]
    cases seenRows rows <;> cases seenContents cs <;> simp [dropIds, BodyItem.dropIds]
  | .sdt s :: cs => by simp [bareCellContents, bareCellContent, seenContents]
  | .toc s :: cs => by simp [bareCellContents, bareCellContent, seenContents]
end

theorem seenChild_bare (c : DocumentChild) : seenChild (bareDocumentChild c) = (seenChild c).map BodyItem.dropIds := by
  cases c
  case paragraph p => exact seenParagraph_bare p
  case table t =>
    obtain ⟨rows, g, n, p⟩ := t
    simp only [bareDocumentChild, bareTable, seenChild, seenRows_bare rows]
    cases seenRows rows <;> simp [BodyItem.dropIds]
  all_goals rfl

theorem seenHeaderChild_bare (c : HeaderChild) : seenHeaderChild (bareHeaderChild c) = (seenHeaderChild c).map BodyItem.dropIds := by
  cases c
  case paragraph p => exact seenParagraph_bare p
  case table t =>
    obtain ⟨rows, g, n, p⟩ := t
    simp only [bareHeaderChild, bareTable, seenHeaderChild, seenRows_bare rows]
    cases seenRows rows <;> simp [BodyItem.dropIds]
  all_goals rfl

theorem dropIds_eq (l : List BodyItem) : dropIds l = l.map BodyItem.dropIds := by
  induction l with
  | nil => simp [dropIds]
  | cons i l ih => simp [dropIds, ih]

theorem allThere_dropIds {α : Type} {f g : α → Option BodyItem} (h : ∀ a, f a = (g a).map BodyItem.dropIds) (l : List α) :
    allThere (l.map f) = (allThere (l.map g)).map dropIds := by
  induction l with
  | nil => simp [allThere, dropIds]
  | cons a l ih =>
    simp only [List.map_cons, allThere, ih, h]
    cases g a <;> cases allThere (l.map g) <;> simp [dropIds]

theorem seenItems_bare (d : Document) : seenItems (bareDocument d) = (seenItems d).map dropIds := by
  simp only [seenItems, bareDocument, List.map_map]
  exact allThere_dropIds seenChild_bare _

theorem seenHeader_bare (d : Header) : seenHeader (bareHeader d) = (seenHeader d).map dropIds := by
  simp only [seenHeader, bareHeader, List.map_map]
  exact allThere_dropIds seenHeaderChild_bare _

/-! ## Headers -/

theorem bareHeaderChild_reread (x : ReadEnv) (c : HeaderChild) : bareHeaderChild (c.reread x) = (bareHeaderChild c).reread x := by
  cases c <;> simp [HeaderChild.reread, bareHeaderChild, bareParagraph_reread, bareTable_reread, bareSdt_reread]

theorem flagged_bare (c : HeaderChild) : (bareHeaderChild c).flagged = c.flagged := by
  rcases c with ⟨⟨⟩⟩ | ⟨⟨⟩⟩ | ⟨⟨⟩⟩ <;> rfl

theorem bareHeader_reread (x : ReadEnv) (h : Header) : bareHeader (h.reread x) = (bareHeader h).reread x := by
  obtain ⟨n, cs⟩ := h
  simp only [Header.reread, Header.addAll, bareHeader, List.nil_append, Bool.false_or, List.map_map, Header.mk.injEq]
  refine ⟨?_, List.map_congr_left fun c _ => bareHeaderChild_reread x c⟩
  rw [List.any_map, List.any_map]
  congr 1
  funext c
  simp only [Function.comp_apply, ← bareHeaderChild_reread, flagged_bare]

theorem bareHeader_readable {h : Header} (hr : (bareHeader h).Readable) (hs : AllS h.strings) : h.Readable := by
  intro c hc
  have h1 := hr (bareHeaderChild c) (List.mem_map_of_mem hc)
  have a : AllS c.strings := fun s hs' => hs s (List.mem_flatMap.2 ⟨c, hc, hs'⟩)
  cases c
  case paragraph p => exact bareParagraph_readable h1 (AllS.id a)
  case table t => exact bareTable_readable t h1 a
  case sdt s => exact bareSdt_readable s h1 a

theorem readable_bareHeader {h : Header} (hr : h.Readable) : (bareHeader h).Readable := by
  intro c hc
  obtain ⟨c, hm, rfl⟩ := List.mem_map.1 hc
  have h1 := hr c hm
  cases c
  case paragraph p => exact readable_bareParagraph h1
  case table t => exact readable_bareTable t h1
  case sdt s => exact readable_bareSdt s h1

/-- What an item becomes in a header. -/
def headerItem : BodyItem → HeaderChild
  | .paragraph id property parts => .paragraph (paragraphOf id property parts)
  | .table rows => .table (Table.new (rowsOf rows))

theorem headerOf_children (items : List BodyItem) : (headerOf items).children = items.map headerItem := by
  suffices h : ∀ (is : List BodyItem) (d : Header), (is.foldl (fun h i => match i with
      | .paragraph id property parts => h.addParagraph (paragraphOf id property parts)
      | .table rows => h.addTable (Table.new (rowsOf rows))) d).children = d.children ++ is.map headerItem from by
    exact (h items {}).trans (by simp)
  intro is
  induction is with
  | nil => intro d; simp
  | cons i is ih =>
    intro d
    cases i with
    | paragraph id property parts => exact (ih _).trans (by simp [Header.addParagraph, headerItem])
    | table rows => exact (ih _).trans (by simp [Header.addTable, headerItem])

/-- A header that can be written, and is read as the items. -/
structure FineHeader (x : ReadEnv) (h : Header) (items : List BodyItem) : Prop where
  read : h.Readable
  strings : AllS h.strings
  seen : seenHeader (h.reread x) = some items

theorem fineHeaderChild (x : ReadEnv) {i : BodyItem} (h : KeptItem i) :
    (headerItem i).Readable ∧ AllS (headerItem i).strings ∧ seenHeaderChild ((headerItem i).reread x) = some (afterItem i) := by
  have := fineChild x h
  obtain ⟨c, h1, h2⟩ := this.seen
  cases i with
  | paragraph id property parts =>
    simp only [itemChild, DocumentChild.reread, List.cons.injEq, and_true] at h1
    subst h1
    exact ⟨this.read, this.strings, h2⟩
  | table rows =>
    simp only [itemChild, DocumentChild.reread, List.cons.injEq, and_true] at h1
    subst h1
    exact ⟨this.read, this.strings, h2⟩

theorem fineHeader (x : ReadEnv) {items : List BodyItem} (h : KeptItems items) : FineHeader x (headerOf items) (afterItems items) := by
  have hm : ∀ c ∈ (headerOf items).children, ∃ i ∈ items, c = headerItem i := by
    rw [headerOf_children]
    intro c hc
    obtain ⟨i, hi, rfl⟩ := List.mem_map.1 hc
    exact ⟨i, hi, rfl⟩
  refine ⟨fun c hc => ?_, fun s hs => ?_, ?_⟩
  · obtain ⟨i, hi, rfl⟩ := hm c hc
    exact (fineHeaderChild x (keptItems_mem h i hi)).1
  · obtain ⟨c, hc, hs⟩ := List.mem_flatMap.1 hs
    obtain ⟨i, hi, rfl⟩ := hm c hc
    exact (fineHeaderChild x (keptItems_mem h i hi)).2.1 s hs
  · simp only [seenHeader, Header.reread, Header.addAll, List.nil_append, headerOf_children, afterItems_eq]
    have hm := keptItems_mem h
    clear h
    induction items with
    | nil => rfl
    | cons i l ih =>
      simp only [List.map_cons, allThere, (fineHeaderChild x (hm i (.head _))).2.2]
      rw [ih (fun c hc => by
        rw [headerOf_children] at hc
        obtain ⟨i, hi, rfl⟩ := List.mem_map.1 hc
        exact ⟨i, hi, rfl⟩) fun i hi => hm i (.tail _ hi)]

mutual
theorem same_items : ∀ l : List BodyItem, dropIds (afterItems l) = dropIds l ↔ afterItems l = l
  | [] => by simp [afterItems]
  | .paragraph id p parts :: is => by
    simp only [afterItems, dropIds, BodyItem.dropIds, List.cons.injEq, BodyItem.paragraph.injEq, true_and, same_items is]
  | .table rows :: is => by
    simp only [afterItems, dropIds, BodyItem.dropIds, List.cons.injEq, BodyItem.table.injEq, same_items is, same_rows rows]
theorem same_rows : ∀ l : List (List (List BodyItem)), dropRowIds (afterRows l) = dropRowIds l ↔ afterRows l = l
  | [] => by simp [afterRows]
  | r :: rs => by simp only [afterRows, dropRowIds, List.cons.injEq, same_cells r, same_rows rs]
theorem same_cells : ∀ l : List (List BodyItem), dropCellIds (afterCells l) = dropCellIds l ↔ afterCells l = l
  | [] => by simp [afterCells]
  | r :: rs => by simp only [afterCells, dropCellIds, List.cons.injEq, same_items r, same_cells rs]
end

end Docx
