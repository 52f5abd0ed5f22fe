import Verif.Spec.JsTableFormat
import Verif.Props.C78_JsFormat

/-!
# C78, tables: the formatting JavaScript programs give to tables, rows and cells
-/

namespace Docx.Props

open Docx Docx.Spec

/-! ## Tables -/

/-- The grid and the formatting of the table that is built for one with the given rows and formatting methods called on it. -/
def builtTable (lib : ImageLib) (rows : List JsRow) (calls : List JsTableCall) (n : Ids) : List Nat × TableProperty :=
  let t := (jsTable lib (calls.foldl JsTable.call { rows := rows }) n).1
  (t.grid, t.property)

theorem rows_kept (lib : ImageLib) : ∀ (rs : List JsRow) (t : Table) (n : Ids),
    (jsRows lib t rs n).1.property = t.property
  | [], t, n => by rw [jsRows]
  | r :: rs, t, n => by rw [jsRows, rows_kept lib rs]; rfl

theorem table_position (j : TablePositionProperty) : jsTablePosition j =
    { j with leftFromText := j.rightFromText.orElse fun _ => j.leftFromText, rightFromText := none } := by
  obtain ⟨a, b, c, d, e, f, g, h⟩ := j
  cases a <;> cases b <;> cases c <;> cases d <;> cases e <;> cases f <;> cases g <;> cases h <;> rfl

theorem table_set (j : JsTableProperty) : setTableProperty {} j =
    { style := truthy j.styleId, position := j.position.map jsTablePosition, indent := some ⟨j.indent.getD 0, .dxa⟩
      margins := some j.cellMargins, justification := (j.align.map TableAlignmentType.toStr).getD c!"left", layout := j.layout } := by
  obtain ⟨a, b, c, d, e, f, g⟩ := j
  rw [setTableProperty]
  dsimp only
  cases truthy d <;> cases b <;> cases f <;> cases g <;> rfl

theorem built_table (lib : ImageLib) (rows : List JsRow) (calls : List JsTableCall) (n : Ids) :
    builtTable lib rows calls n = ((calls.foldl JsTable.call { rows := rows }).grid,
      setTableProperty {} (calls.foldl JsTable.call { rows := rows }).property) := by
  rw [builtTable]
  generalize calls.foldl JsTable.call { rows := rows } = t
  obtain ⟨rs, g, p, h⟩ := t
  dsimp only
  rw [jsTable]
  dsimp only
  rw [rows_kept]
  rfl

/-- **C78.** Formatting given to a table arrives. Missing: the full statement is for all calls; it does not hold for those that
are excluded (`C78_fails_width`, `C78_fails_right`). -/
theorem C78_table_partial (lib : ImageLib) (rows : List JsRow) (calls : List JsTableCall) (n : Ids)
    (h : ∀ c ∈ calls, JsTableCall.comesThrough c) :
    builtTable lib rows calls n = wantedTable calls := by
  rw [built_table, wantedTable]
  induction calls using snoc_induction with
  | h0 => rfl
  | h1 l c ih =>
    have ih := ih fun x hx => h x (List.mem_append_left _ hx)
    have hc := h c (by simp)
    rw [List.foldl_append, List.foldl_append, ← ih, List.foldl_cons, List.foldl_nil, List.foldl_cons, List.foldl_nil]
    generalize l.foldl JsTable.call { rows := rows } = t
    obtain ⟨rs, g, p, hn⟩ := t
    rw [table_set, table_set]
    cases c with
    | width n => exact absurd hc id
    | style s =>
      have hc : s ≠ [] := hc
      simp [JsTable.call, JsTableCall.wanted, truthy_some hc]
    | position x =>
      have hc : x.rightFromText = none := hc
      simp [JsTable.call, JsTableCall.wanted, table_position, hc]
      rw [← hc]
    | _ => rfl

example : ∃ calls : List JsTableCall, (∀ c ∈ calls, JsTableCall.comesThrough c) ∧
    wantedTable calls =
      ([2000, 3000], { indent := some ⟨-5, .dxa⟩, justification := c!"center", style := some c!"Grid", layout := some .fixed
                       margins := some { top := ⟨1, .dxa⟩, right := ⟨2, .dxa⟩, bottom := ⟨3, .dxa⟩, left := ⟨9, .pct⟩ }
                       position := some { leftFromText := some 7, positionX := some (-3) } }) := by
  refine ⟨[.style c!"Grid", .setGrid [2000, 3000], .indent (-5), .cellMargins 1 2 3 4, .cellMarginLeft 9 .pct, .align .center,
    .layout .fixed, .position { leftFromText := some 7, positionX := some (-3) }], ?_, ?_⟩
  · intro c hc
    simp only [List.mem_cons, List.not_mem_nil, or_false] at hc
    rcases hc with h | h | h | h | h | h | h | h <;> subst h <;> simp [JsTableCall.comesThrough]
  · decide +kernel

/-- **C78 fails** for the width of a table: whatever is called, the width is that of a table no width was given to. -/
theorem C78_fails_width (lib : ImageLib) (rows : List JsRow) (calls : List JsTableCall) (n : Ids) (m : Nat) :
    (builtTable lib rows (calls ++ [.width m]) n).2.width = ⟨0, .auto⟩ ∧
    (wantedTable (calls ++ [.width m])).2.width = ⟨m, .dxa⟩ := by
  refine ⟨?_, ?_⟩
  · rw [built_table, table_set]
  · rw [wantedTable, List.foldl_append]; rfl

/-- **C78 fails** for the distance to the text on the right: it becomes the distance on the left. -/
theorem C78_fails_right (lib : ImageLib) (rows : List JsRow) (calls : List JsTableCall) (n : Ids) (l r : Int) :
    (builtTable lib rows (calls ++ [.position { leftFromText := some l, rightFromText := some r }]) n).2.position
      = some { leftFromText := some r } ∧
    (wantedTable (calls ++ [.position { leftFromText := some l, rightFromText := some r }])).2.position
      = some { leftFromText := some l, rightFromText := some r } := by
  rw [built_table, wantedTable, List.foldl_append, List.foldl_append]
  generalize calls.foldl JsTable.call { rows := rows } = t
  cases t
  refine ⟨?_, rfl⟩
  rw [table_set]
  rfl

/-! ## Rows -/

/-- The formatting of the row that is built for one with the given cells and formatting methods called on it. -/
def builtRow (lib : ImageLib) (cells : List JsCell) (calls : List JsRowCall) (n : Ids) : TableRowProperty :=
  (jsRow lib (calls.foldl JsRow.call { cells := cells }) n).1.property

theorem cells_kept (lib : ImageLib) : ∀ (cs : List JsCell) (r : Row) (n : Ids),
    (jsCells lib r cs n).1.property = r.property
  | [], r, n => by rw [jsCells]
  | c :: cs, r, n => by rw [jsCells, cells_kept lib cs]

theorem row_set (j : JsRowProperty) : setRowProperty {} j =
    { rowHeight := (j.height.filter (· ≠ 0)).map dec, del := j.del.map fun x => .new x.1 x.2
      ins := j.ins.map fun x => .new x.1 x.2, heightRule := j.hRule } := by
  obtain ⟨a, b, c, d⟩ := j
  rw [setRowProperty]
  dsimp only
  cases a.filter (· ≠ 0) <;> cases b <;> cases c <;> cases d <;> rfl

theorem built_row (lib : ImageLib) (cells : List JsCell) (calls : List JsRowCall) (n : Ids) :
    builtRow lib cells calls n = setRowProperty {} (calls.foldl JsRow.call { cells := cells }).property := by
  rw [builtRow]
  generalize calls.foldl JsRow.call { cells := cells } = t
  obtain ⟨cs, p, h⟩ := t
  rw [jsRow]
  dsimp only
  rw [cells_kept]
  rfl

/-- **C78.** Formatting given to a row arrives. Missing: the height 0 (`C78_fails_height`). -/
theorem C78_row_partial (lib : ImageLib) (cells : List JsCell) (calls : List JsRowCall) (n : Ids)
    (h : ∀ c ∈ calls, JsRowCall.comesThrough c) :
    builtRow lib cells calls n = wantedRow calls := by
  rw [built_row, wantedRow]
  induction calls using snoc_induction with
  | h0 => rfl
  | h1 l c ih =>
    have ih := ih fun x hx => h x (List.mem_append_left _ hx)
    have hc := h c (by simp)
    rw [List.foldl_append, List.foldl_append, ← ih, List.foldl_cons, List.foldl_nil, List.foldl_cons, List.foldl_nil]
    generalize l.foldl JsRow.call { cells := cells } = t
    obtain ⟨cs, p, hn⟩ := t
    rw [row_set, row_set]
    cases c with
    | rowHeight m =>
      have hc : m ≠ 0 := hc
      simp [JsRow.call, JsRowCall.wanted, Option.filter, hc]
    | _ => rfl

example : ∃ calls : List JsRowCall, (∀ c ∈ calls, JsRowCall.comesThrough c) ∧
    wantedRow calls =
      { rowHeight := some c!"40", heightRule := some .exact, ins := some ⟨c!"a&amp;b", c!"2024"⟩ } := by
  refine ⟨[.rowHeight 3, .heightRule .exact, .insert c!"a&b" c!"2024", .rowHeight 40], ?_, ?_⟩
  · intro c hc
    simp only [List.mem_cons, List.not_mem_nil, or_false] at hc
    rcases hc with h | h | h | h <;> subst h <;> simp [JsRowCall.comesThrough]
  · decide +kernel

/-- **C78 fails** for the height 0 of a row: none arrives. -/
theorem C78_fails_height (lib : ImageLib) (cells : List JsCell) (calls : List JsRowCall) (n : Ids) :
    (builtRow lib cells (calls ++ [.rowHeight 0]) n).rowHeight = none ∧
    (wantedRow (calls ++ [.rowHeight 0])).rowHeight = some c!"0" := by
  rw [built_row, wantedRow, List.foldl_append, List.foldl_append]
  generalize calls.foldl JsRow.call { cells := cells } = t
  cases t
  rw [row_set]
  refine ⟨rfl, ?_⟩
  show some (dec 0) = _
  decide

/-! ## Cells -/

/-- The formatting of the cell that is built for one with the given content and formatting methods called on it. -/
def builtCell (lib : ImageLib) (content : List JsCellChild) (calls : List JsCellCall) (n : Ids) : TableCellProperty :=
  (jsCell lib (calls.foldl JsCell.call { children := content }) n).1.property

theorem content_kept (lib : ImageLib) : ∀ (cs : List JsCellChild) (c : Cell) (n : Ids),
    (jsCellChildren lib c cs n).1.property = c.property
  | [], c, n => by rw [jsCellChildren]
  | x :: cs, c, n => by rw [jsCellChildren, content_kept lib cs]

/-- A border as it is passed on. -/
def passed (pos : TableCellBorderPosition) (x : JsCellBorder) : TableCellBorder :=
  { position := pos, size := x.size, color := x.color, borderType := (x.kind.map convertBorderType).getD .single }

theorem passed_put (pos : TableCellBorderPosition) (p : TableCellProperty) (x : JsCellBorder) :
    JsCellBorder.put pos p x = { p with borders := some ((p.borders.getD {}).set (passed pos x)) } := by
  obtain ⟨k, s, c⟩ := x
  cases k <;> rfl

/-- The margins as they are passed on. -/
def passedMargins (m : CellMargins) : Option CellMargins :=
  if m.top = none ∧ m.right = none ∧ m.bottom = none ∧ m.left = none then none else some m

/-- There is a border on each side and between the cells, as there is in the beginning and stays. -/
def Framed (b : JsCellBorders) : Prop :=
  b.top ≠ none ∧ b.left ≠ none ∧ b.bottom ≠ none ∧ b.right ≠ none ∧ b.insideH ≠ none ∧ b.insideV ≠ none

theorem borders_set (p : TableCellProperty) (hb : p.borders = none) (hm : p.margins = none) (b : JsCellBorders) (m : CellMargins)
    (h : Framed b) : buildCellBorders p b m =
    { p with
      borders := some
        { top := b.top.map (passed .top), left := b.left.map (passed .left)
          bottom := b.bottom.map (passed .bottom), right := b.right.map (passed .right)
          insideH := b.insideH.map (passed .insideH), insideV := b.insideV.map (passed .insideV)
          tl2br := b.tl2br.map (passed .tl2br), tr2bl := b.tr2bl.map (passed .tr2bl) }
      margins := passedMargins m } := by
  obtain ⟨t, l, b, r, ih, iv, d1, d2⟩ := b
  obtain ⟨m1, m2, m3, m4⟩ := m
  obtain ⟨p1, p2, p3, p4, p5, p6, p7, p8⟩ := p
  dsimp only at hb hm
  subst hb hm
  obtain ⟨h1, h2, h3, h4, h5, h6⟩ := h
  dsimp only at h1 h2 h3 h4 h5 h6
  obtain ⟨t, rfl⟩ := Option.ne_none_iff_exists'.1 h1
  obtain ⟨l, rfl⟩ := Option.ne_none_iff_exists'.1 h2
  obtain ⟨b, rfl⟩ := Option.ne_none_iff_exists'.1 h3
  obtain ⟨r, rfl⟩ := Option.ne_none_iff_exists'.1 h4
  obtain ⟨ih, rfl⟩ := Option.ne_none_iff_exists'.1 h5
  obtain ⟨iv, rfl⟩ := Option.ne_none_iff_exists'.1 h6
  rw [buildCellBorders]
  simp only [onSome, passed_put]
  cases d1 <;> cases d2 <;> cases m1 <;> cases m2 <;> cases m3 <;> cases m4 <;> rfl

theorem cell_set (j : JsCellProperty) (h : Framed j.borders) : setCellProperty {} j =
    { verticalMerge := j.verticalMerge.filter fun x => decide (x ≠ .unsupported)
      verticalAlign := j.verticalAlign.filter fun x => decide (x ≠ .unsupported)
      gridSpan := j.gridSpan, width := j.width.map (⟨·, .dxa⟩), textDirection := j.textDirection
      borders := some
        { top := j.borders.top.map (passed .top), left := j.borders.left.map (passed .left)
          bottom := j.borders.bottom.map (passed .bottom), right := j.borders.right.map (passed .right)
          insideH := j.borders.insideH.map (passed .insideH), insideV := j.borders.insideV.map (passed .insideV)
          tl2br := j.borders.tl2br.map (passed .tl2br), tr2bl := j.borders.tr2bl.map (passed .tr2bl) }
      margins := passedMargins j.margins
      shading := j.shading.map fun x => bridgeShading x.1 x.2.1 x.2.2 } := by
  obtain ⟨b, vm, va, gs, w, td, sh, m⟩ := j
  rw [setCellProperty]
  dsimp only at h ⊢
  generalize vm.filter _ = vm
  generalize va.filter _ = va
  have : onSome td (fun (p : TableCellProperty) x => { p with textDirection := some x })
      (onSome w (fun (p : TableCellProperty) x => { p with width := some ⟨x, .dxa⟩ })
      (onSome gs (fun (p : TableCellProperty) x => { p with gridSpan := some x })
      (onSome va (fun (p : TableCellProperty) x => { p with verticalAlign := some x })
      (onSome vm (fun (p : TableCellProperty) x => { p with verticalMerge := some x }) ({} : TableCellProperty))))) =
      { verticalMerge := vm, verticalAlign := va, gridSpan := gs, width := w.map (⟨·, .dxa⟩), textDirection := td } := by
    cases vm <;> cases va <;> cases gs <;> cases w <;> cases td <;> rfl
  rw [this, borders_set _ rfl rfl _ _ h]
  cases sh <;> rfl

theorem built_cell (lib : ImageLib) (content : List JsCellChild) (calls : List JsCellCall) (n : Ids) :
    builtCell lib content calls n = setCellProperty {} (calls.foldl JsCell.call { children := content }).property := by
  rw [builtCell]
  generalize calls.foldl JsCell.call { children := content } = t
  obtain ⟨cs, p, h⟩ := t
  rw [jsCell]
  dsimp only
  rw [content_kept]

theorem framed_set (b : JsCellBorders) (h : Framed b) (x : JsCellBorder) (a : TableCellBorderPosition) : Framed (b.set x a) := by
  obtain ⟨h1, h2, h3, h4, h5, h6⟩ := h
  cases a <;> simp [Framed, JsCellBorders.set, h1, h2, h3, h4, h5, h6]

theorem framed_call (c : JsCell) (h : Framed c.property.borders) (x : JsCellCall) : Framed (c.call x).property.borders := by
  obtain ⟨cs, p, hn⟩ := c
  cases x <;> first | exact h | exact framed_set _ h _ _

theorem framed_given (content : List JsCellChild) (calls : List JsCellCall) :
    Framed (calls.foldl JsCell.call { children := content }).property.borders := by
  induction calls using snoc_induction with
  | h0 => simp [Framed]
  | h1 l c ih => rw [List.foldl_append]; exact framed_call _ ih _

theorem known_line {k : BorderType} (h : k ∈ knownBorders) : convertBorderType k = k := known_border h

theorem margins_some (m : CellMargins) (h : ¬ (m.top = none ∧ m.right = none ∧ m.bottom = none ∧ m.left = none)) :
    passedMargins m = some m := if_neg h

theorem margins_getD (m : CellMargins) : (passedMargins m).getD {} = m := by
  rw [passedMargins]
  split
  · rename_i h
    obtain ⟨a, b, c, d⟩ := m
    obtain ⟨h1, h2, h3, h4⟩ := h
    simp only at h1 h2 h3 h4
    subst h1 h2 h3 h4
    rfl
  · rfl

theorem shading_bridge (k c f : Str) : bridgeShading k c f = { shdType := (ShdType.fromStr k).getD .clear, color := c, fill := f } := by
  rw [bridgeShading]
  cases ShdType.fromStr k <;> rfl

/-- **C78.** Formatting given to a cell arrives. Missing: the full statement is for all calls; it does not hold for those that
are excluded (`C78_fails_inside`, `C78_fails_line`). -/
theorem C78_cell_partial (lib : ImageLib) (content : List JsCellChild) (calls : List JsCellCall) (n : Ids)
    (h : ∀ c ∈ calls, JsCellCall.comesThrough c) :
    builtCell lib content calls n = wantedCell calls := by
  rw [built_cell, wantedCell]
  induction calls using snoc_induction with
  | h0 => rfl
  | h1 l c ih =>
    have ih := ih fun x hx => h x (List.mem_append_left _ hx)
    have hc := h c (by simp)
    rw [List.foldl_append, List.foldl_append, ← ih, List.foldl_cons, List.foldl_nil, List.foldl_cons, List.foldl_nil]
    have hf := framed_given content l
    generalize l.foldl JsCell.call { children := content } = t at hf ⊢
    rw [cell_set _ hf, cell_set _ (framed_call _ hf c)]
    obtain ⟨cs, p, hn⟩ := t
    cases c with
    | verticalMerge t => cases t <;> first | rfl | exact absurd rfl hc
    | verticalAlign t => cases t <;> first | rfl | exact absurd rfl hc
    | shading k c f => simp [JsCell.call, JsCellCall.wanted, shading_bridge]
    | setBorder a b =>
      obtain ⟨h1, h2, h3⟩ := hc
      have hp : ∀ pos, passed pos b = { position := pos, borderType := b.kind.getD .single, size := b.size, color := b.color } := by
        intro pos
        obtain ⟨k, s, c⟩ := b
        cases k with
        | none => rfl
        | some k => simp [passed, known_line (h3 k rfl)]
      cases a <;> first | exact absurd rfl h1 | exact absurd rfl h2 |
        simp [JsCell.call, JsCellCall.wanted, JsCellBorders.set, TableCellBorders.set, hp]
    | clearBorder a =>
      obtain ⟨h1, h2⟩ := hc
      cases a <;> first | exact absurd rfl h1 | exact absurd rfl h2 | rfl
    | marginTop m t =>
      simp only [JsCell.call, JsCellCall.wanted, margins_getD]
      rw [margins_some _ (by simp)]
    | marginLeft m t =>
      simp only [JsCell.call, JsCellCall.wanted, margins_getD]
      rw [margins_some _ (by simp)]
    | marginRight m t =>
      simp only [JsCell.call, JsCellCall.wanted, margins_getD]
      rw [margins_some _ (by simp)]
    | marginBottom m t =>
      simp only [JsCell.call, JsCellCall.wanted, margins_getD]
      rw [margins_some _ (by simp)]
    | _ => rfl

example : ∃ calls : List JsCellCall, (∀ c ∈ calls, JsCellCall.comesThrough c) ∧
    wantedCell calls =
      { width := some ⟨2000, .dxa⟩, gridSpan := some 2, verticalMerge := some .restart
        borders := some { top := some { position := .top, borderType := .double, size := 8, color := c!"FF0000" }
                          left := some { position := .left, borderType := .nil } }
        margins := some { left := some ⟨4, .pct⟩ } } := by
  refine ⟨[.width 2000, .setBorder .top ⟨some .double, 8, c!"FF0000"⟩, .clearBorder .left, .gridSpan 2, .marginLeft 4 .pct,
    .verticalMerge .restart], ?_, ?_⟩
  · intro c hc
    simp only [List.mem_cons, List.not_mem_nil, or_false] at hc
    rcases hc with h | h | h | h | h | h <;> subst h <;> simp [JsCellCall.comesThrough, knownBorders]
  · decide +kernel

/-- **C78 fails** for the lines between cells: a border set, or cleared, there changes nothing. -/
theorem C78_fails_inside (lib : ImageLib) (content : List JsCellChild) (calls : List JsCellCall) (n : Ids) (a : TableCellBorderPosition)
    (ha : a = .insideH ∨ a = .insideV) (b : JsCellBorder) :
    builtCell lib content (calls ++ [.setBorder a b]) n = builtCell lib content calls n ∧
    builtCell lib content (calls ++ [.clearBorder a]) n = builtCell lib content calls n := by
  rw [built_cell, built_cell, built_cell, List.foldl_append, List.foldl_append]
  generalize calls.foldl JsCell.call { children := content } = t
  cases t
  rcases ha with h | h <;> subst h <;> exact ⟨rfl, rfl⟩

/-- **C78 fails** for every other kind of line: a single line is drawn. -/
theorem C78_fails_line (lib : ImageLib) (content : List JsCellChild) (calls : List JsCellCall) (n : Ids) (k : BorderType)
    (hk : k ∉ knownBorders) (s : Nat) (c : Str) :
    ((builtCell lib content (calls ++ [.setBorder .top ⟨some k, s, c⟩]) n).borders.bind (·.top)) =
      some { position := .top, borderType := .single, size := s, color := c } ∧
    ((wantedCell (calls ++ [.setBorder .top ⟨some k, s, c⟩])).borders.bind (·.top)) =
      some { position := .top, borderType := k, size := s, color := c } := by
  refine ⟨?_, ?_⟩
  · rw [built_cell, List.foldl_append, List.foldl_cons, List.foldl_nil]
    have hf := framed_given content calls
    generalize calls.foldl JsCell.call { children := content } = t at hf ⊢
    rw [cell_set _ (framed_call _ hf _)]
    obtain ⟨cs, p, hn⟩ := t
    cases k <;> first | rfl | exact absurd (by decide) hk
  · rw [wantedCell, List.foldl_append]; rfl

end Docx.Props
