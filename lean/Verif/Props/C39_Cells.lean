import Verif.Lemmas.Cells
import Verif.Props.C13_C26_Written

/-!
# C39: what is in a written table cell
-/

namespace Docx.Props

open Docx Docx.Spec Docx.Xml

/-- For every `w:tc` of a part, in document order, the names of the elements directly inside it. -/
abbrev cellChildren (l : List REvent) : List (List QName) := eventChildren (w c!"tc") l

/-- The names of the elements a cell must be written with. -/
abbrev cellNames (c : Cell) : List QName := (cellElements c).map splitQName

theorem flatMap_cellNames (l : List Item) :
    (l.flatMap Item.cellNames).map (List.map splitQName) = (l.filterMap Item.cell?).map cellNames := by
  induction l with
  | nil => rfl
  | cons i l ih =>
    rw [List.flatMap_cons, List.map_append, ih]
    cases i <;> simp [Item.cellNames, List.filterMap_cons, Item.cell?, cellNames]

theorem part_cells {n : N} {items : List Item} {sa : Option Bool} {g g' : Gen} {out : Str} (hok : OkN n)
    (hc : Col (childrenIn c!"w:tc") Eq n (items.flatMap Item.cellNames))
    (h : writePart sa (flat n) g = some (.ok out, g')) :
    cellChildren (readEvents out) = (items.filterMap Item.cell?).map cellNames := by
  obtain ⟨f, h1, h2, h3⟩ := writePart_reads hok h
  have e : w c!"tc" = splitQName c!"w:tc" := by decide
  rw [cellChildren, e, h3, eventChildren_tags _ _ h2, ← hc _ _ _ h1, flatMap_cellNames]

/-- **C39.** The cells a reader finds in the written body are the cells of the body, in order, nested ones
included, and inside each are exactly its properties, its content and, for an empty cell or a cell holding one
table, a paragraph. -/
theorem C39_document (d : Document) (hs : ∀ s ∈ d.strings, Stored s) (g g' : Gen) (out : Str)
    (h : d.write g = some (.ok out, g')) :
    cellChildren (readEvents out) = ((bodyItems d).filterMap Item.cell?).map cellNames := by
  rw [Document.write, ← Document_build_flat] at h
  rw [bodyItems_eq]
  exact part_cells (d.ok hs) (gathers_cells.document d) h

/-- **C39.** As `C39_document`, for a header. -/
theorem C39_header (x : Header) (hs : ∀ s ∈ x.strings, Stored s) (g g' : Gen) (out : Str)
    (h : x.writeHeader g = some (.ok out, g')) :
    cellChildren (readEvents out) = ((headerPartItems x).filterMap Item.cell?).map cellNames := by
  rw [Header.writeHeader, ← Header_build_flat] at h
  exact part_cells (x.ok (by decide) hs) (gathers_cells.header (by decide) x [.header] (by rfl)) h

/-- **C39.** As `C39_document`, for a footer. -/
theorem C39_footer (x : Header) (hs : ∀ s ∈ x.strings, Stored s) (g g' : Gen) (out : Str)
    (h : x.writeFooter g = some (.ok out, g')) :
    cellChildren (readEvents out) = ((footerPartItems x).filterMap Item.cell?).map cellNames := by
  rw [Header.writeFooter, ← Header_build_flat] at h
  exact part_cells (x.ok (by decide) hs) (gathers_cells.header (by decide) x [.footer] (by rfl)) h

/-- **C39.** As `C39_document`, for the comments part. -/
theorem C39_comments (cs : List Comment) (hs : ∀ c ∈ cs, ∀ s ∈ c.strings, Stored s) (g g' : Gen) (out : Str)
    (h : writeComments cs g = some (.ok out, g')) :
    cellChildren (readEvents out) = ((commentPartItems cs).filterMap Item.cell?).map cellNames := by
  rw [writeComments, ← commentsB_flat] at h
  exact part_cells (commentsN_ok cs hs) (gathers_cells.comments (fun _ _ => rfl) cs) h

theorem tocElements_block (t : Toc) : ∃ n ∈ tocElements t, n ∈ blockNames := by
  unfold tocElements
  split
  · split
    · exact ⟨c!"w:p", by simp, by decide⟩
    · exact ⟨c!"w:sdt", by simp, by decide⟩
  · exact ⟨c!"w:sdt", by simp, by decide⟩

theorem contentElements_block (c : CellContent) : ∃ n ∈ contentElements c, n ∈ blockNames := by
  cases c with
  | paragraph p => exact ⟨c!"w:p", by simp [contentElements], by decide⟩
  | table p => exact ⟨c!"w:tbl", by simp [contentElements], by decide⟩
  | sdt p => exact ⟨c!"w:sdt", by simp [contentElements], by decide⟩
  | toc t => exact tocElements_block t

theorem cellElements_block (c : Cell) : ∃ n ∈ cellElements c, n ∈ blockNames := by
  obtain ⟨cs, pr, hn⟩ := c
  cases cs with
  | nil => exact ⟨c!"w:p", by simp [cellElements, addedParagraph], by decide⟩
  | cons c cs =>
    obtain ⟨n, h1, h2⟩ := contentElements_block c
    exact ⟨n, by simp [cellElements, h1], h2⟩

/-- **C39.** Every cell of the written body holds a paragraph, a table or a content control. -/
theorem C39_block_in_every_cell (d : Document) (hs : ∀ s ∈ d.strings, Stored s) (g g' : Gen) (out : Str)
    (h : d.write g = some (.ok out, g')) :
    ∀ ns ∈ cellChildren (readEvents out), ∃ n ∈ ns, n ∈ [w c!"p", w c!"tbl", w c!"sdt"] := by
  rw [C39_document d hs g g' out h]
  intro ns hn
  obtain ⟨c, _, rfl⟩ := List.mem_map.1 hn
  obtain ⟨n, h1, h2⟩ := cellElements_block c
  refine ⟨splitQName n, List.mem_map_of_mem h1, ?_⟩
  simp only [blockNames, List.mem_cons, List.not_mem_nil, or_false] at h2
  rcases h2 with rfl | rfl | rfl <;> decide

/-- The cells that must be written with a paragraph at the end: the empty ones, those holding one table and
nothing else, and those whose last child is a paragraph. -/
inductive EndsInParagraph : List CellContent → Prop
  | empty : EndsInParagraph []
  | oneTable (t : Table) : EndsInParagraph [.table t]
  | last (cs : List CellContent) (p : Paragraph) : EndsInParagraph (cs ++ [.paragraph p])

/-- **C39.** If every cell of the body is empty, holds one table, or ends in a paragraph, every written cell
ends in a paragraph. -/
theorem C39_paragraph_last (d : Document) (hs : ∀ s ∈ d.strings, Stored s) (g g' : Gen) (out : Str)
    (h : d.write g = some (.ok out, g'))
    (he : ∀ c ∈ (bodyItems d).filterMap Item.cell?, EndsInParagraph c.children) :
    ∀ ns ∈ cellChildren (readEvents out), ns.getLast? = some (w c!"p") := by
  rw [C39_document d hs g g' out h]
  intro ns hn
  obtain ⟨c, hc, rfl⟩ := List.mem_map.1 hn
  have e := he c hc
  have e2 : w c!"p" = splitQName c!"w:p" := by decide
  obtain ⟨cs, pr, nm⟩ := c
  dsimp only at e
  rw [cellNames, List.getLast?_map, e2]
  cases e with
  | empty => rfl
  | oneTable t => rfl
  | last cs p =>
    have : addedParagraph (cs ++ [.paragraph p]) = [] := by
      cases cs with
      | nil => rfl
      | cons c cs => cases c <;> cases cs <;> rfl
    have e3 : cellElements ⟨cs ++ [.paragraph p], pr, nm⟩ =
        (c!"w:tcPr" :: cs.flatMap contentElements) ++ [c!"w:p"] := by
      rw [cellElements, this, List.flatMap_append, List.append_nil]; rfl
    rw [e3, List.getLast?_append]
    rfl

/-- A document with one cell. -/
def oneCell (c : Cell) : Document := { children := [.table { rows := [{ cells := [c] }] }] }

/-- **C39.** The conditions are needed: a cell with two tables is written without a paragraph. -/
theorem C39_two_tables (g : Gen) :
    ∃ out g', (oneCell { children := [.table { rows := [] }, .table { rows := [] }] }).write g = some (.ok out, g') ∧
      cellChildren (readEvents out) = [[w c!"tcPr", w c!"tbl", w c!"tbl"]] := by
  have h1 := C45_document (oneCell { children := [.table { rows := [] }, .table { rows := [] }] }) g
  rw [WritesElement, if_pos (by decide +kernel)] at h1
  obtain ⟨_, _, g1, e1, _⟩ := h1
  have hs : ∀ s ∈ (oneCell { children := [.table { rows := [] }, .table { rows := [] }] }).strings, Stored s := by
    decide +kernel
  exact ⟨_, g1, e1, (C39_document _ hs _ _ _ e1).trans (by decide +kernel)⟩

/-- A cell with a paragraph, a nested table with an empty cell and a cell holding one table, and a paragraph. -/
def nestedCell : Cell :=
  { children := [.paragraph { id := c!"1" }, .table { rows := [{ cells := [{}, { children := [.table { rows := [] }] }] }] },
      .paragraph { id := c!"2" }] }

/-- The theorems apply to a document with nested tables. -/
theorem C39_example (g : Gen) :
    ∃ out g', (oneCell nestedCell).write g = some (.ok out, g') ∧
      cellChildren (readEvents out) = [[w c!"tcPr", w c!"p", w c!"tbl", w c!"p"], [w c!"tcPr", w c!"p"],
        [w c!"tcPr", w c!"tbl", w c!"p"]] ∧
      (∀ ns ∈ cellChildren (readEvents out), ns.getLast? = some (w c!"p")) := by
  have h1 := C45_document (oneCell nestedCell) g
  rw [WritesElement, if_pos (by decide +kernel)] at h1
  obtain ⟨_, _, g1, e1, _⟩ := h1
  have hs : ∀ s ∈ (oneCell nestedCell).strings, Stored s := by decide +kernel
  refine ⟨_, g1, e1, (C39_document _ hs _ _ _ e1).trans (by decide +kernel), C39_paragraph_last _ hs _ _ _ e1 ?_⟩
  intro c hc
  have : c ∈ [nestedCell, {}, { children := [.table { rows := [] }] }] := hc
  simp only [List.mem_cons, List.not_mem_nil, or_false] at this
  rcases this with rfl | rfl | rfl
  · exact .last [_, _] _
  · exact .empty
  · exact .oneTable _

end Docx.Props
