import Verif.Model.ReadBase
import Verif.Model.Api

/-!
# Readers of properties that hold no content (`docx-core/src/reader/*.rs`)

Readers of attributes, and loops over elements whose children are read from their attributes alone.
-/

namespace Docx

open Docx.Xml

/-- Position in the stream does not matter: a reader of attributes only. -/
abbrev AttrReader (α : Type) := Attrs → List REvent → Read α

/-! ## Attributes -/

/-- `BorderAttrs`. reader/attributes/border.rs:9-14. `size` and `space` are always `Some`. -/
structure BorderAttrs where
  borderType : BorderType := .single
  color : Str := c!"000000"
  size : Nat := 4
  space : Nat := 0

/-- `read_border`. reader/attributes/border.rs:16-39. -/
def readBorder (x : ReadEnv) : AttrReader BorderAttrs :=
  foldAttrs (fun b name v es =>
    if name = c!"color" then .ok { b with color := v } es
    else if name = c!"sz" then (orErr (parseFloat x v) es).map fun i => { b with size := toU32 i }
    else if name = c!"space" then (orErr (parseFloat x v) es).map fun i => { b with space := toU32 i }
    else if name = c!"val" then (orErr (BorderType.fromStr v) es).map fun t => { b with borderType := t }
    else .ok b es) {}

/-- Result of `read_indent`. reader/attributes/indent.rs:9-19. -/
structure IndentAttrs where
  start : Option Int := none
  end_ : Option Int := none
  special : Option SpecialIndentType := none
  startChars : Option Int := none
  hangingChars : Option Int := none
  firstLineChars : Option Int := none

/-- `read_indent`. reader/attributes/indent.rs:21-62. -/
def readIndent (x : ReadEnv) : AttrReader IndentAttrs :=
  foldAttrs (fun a name v es =>
    if name = c!"left" ∨ name = c!"start" then
      (orErr (valueToDax x v) es).map fun i => { a with start := some i }
    else if name = c!"leftChars" ∨ name = c!"startChars" then
      (orErr (parseFloat x v) es).map fun i => { a with startChars := some (toI32 i) }
    else if name = c!"end" ∨ name = c!"right" then
      (orErr (valueToDax x v) es).map fun i => { a with end_ := some i }
    else if name = c!"hanging" then
      (orErr (valueToDax x v) es).map fun i => { a with special := some (.hanging i) }
    else if name = c!"firstLine" then
      (orErr (valueToDax x v) es).map fun i => { a with special := some (.firstLine i) }
    else if name = c!"firstLineChars" then
      match parseFloat x v with
      | some i => .ok { a with firstLineChars := some (toI32 i) } es
      | none => .ok a es
    else if name = c!"hangingChars" then
      match parseFloat x v with
      | some i => .ok { a with hangingChars := some (toI32 i) } es
      | none => .ok a es
    else .ok a es) {}

/-- `read_line_spacing`. reader/attributes/line_spacing.rs:7-34. -/
def readLineSpacing (x : ReadEnv) : AttrReader LineSpacing :=
  foldAttrs (fun s name v es =>
    if name = c!"before" then (orErr (parseFloat x v) es).map fun i => { s with before := some (toU32 i) }
    else if name = c!"after" then (orErr (parseFloat x v) es).map fun i => { s with after := some (toU32 i) }
    else if name = c!"line" then (orErr (parseFloat x v) es).map fun i => { s with line := some (toI32 i) }
    else if name = c!"lineRule" then
      (orErr (LineSpacingType.fromStr v) es).map fun t => { s with lineRule := some t }
    else if name = c!"beforeLines" then
      (orErr (parseFloat x v) es).map fun i => { s with beforeLines := some (toU32 i) }
    else if name = c!"afterLines" then
      (orErr (parseFloat x v) es).map fun i => { s with afterLines := some (toU32 i) }
    else .ok s es) {}

/-- `read_width`: panics when `w` is no number. reader/attributes/width.rs:9-22. -/
def readWidth (x : ReadEnv) : AttrReader (Int × WidthType) :=
  foldAttrs (fun a name v es =>
    if name = c!"type" then (orErr (WidthType.fromStr v) es).map fun t => (a.1, t)
    else if name = c!"w" then
      match parseFloat x (v.filter (· ≠ '%')) with
      | some i => .ok (toIsize i, a.2) es
      | none => .panic
    else .ok a es) (0, .auto)

/-- `<Shading as ElementReader>::read`. reader/shading.rs:8-27. -/
def readShading (as : Attrs) : Shading :=
  as.foldl (fun s a =>
    if a.1.loc = c!"val" then
      match ShdType.fromStr a.2 with
      | some t => { s with shdType := t }
      | none => s
    else if a.1.loc = c!"color" then { s with color := a.2 }
    else if a.1.loc = c!"fill" then { s with fill := a.2 }
    else s) {}

/-- The first attribute with the name whose value is accepted: `read_leader`, `read_alignment`,
`read_custom_tab_stop_type`, … reader/positional_tab.rs:8-47, reader/tab.rs:8-47. -/
def firstAccepted {α : Type} (as : Attrs) (name : Str) (f : Str → Option α) : Option α :=
  (as.filter fun a => a.1.loc = name).findSome? fun a => f a.2

/-- A loop that waits for the end of an element: `loop { match … EndElement == e → return }`. -/
def untilEnd {σ : Type} (n : Nat) (e : El) (s : σ) (es : List REvent) : Read σ :=
  Loop.run { start := fun s _ _ es => .ok s es, close := closesAt e } n s es

/-- `<PositionalTab as ElementReader>::read`. reader/positional_tab.rs:49-77. `relative_to` is looked for
in the attribute `alignment`. -/
def readPtab (n : Nat) (as : Attrs) (es : List REvent) : Read PositionalTab :=
  untilEnd n .pTab
    { alignment := (firstAccepted as c!"alignment" PositionalTabAlignmentType.fromStr).getD .left
      relativeTo := (firstAccepted as c!"alignment" PositionalTabRelativeTo.fromStr).getD .margin
      leader := (firstAccepted as c!"leader" TabLeaderType.fromStr).getD .none_ } es

/-- `<Tab as ElementReader>::read`. reader/tab.rs:49-78. -/
def readTab (x : ReadEnv) (n : Nat) (as : Attrs) (es : List REvent) : Read Tab :=
  untilEnd n .tab
    { val := firstAccepted as c!"val" TabValueType.fromStr
      leader := firstAccepted as c!"leader" TabLeaderType.fromStr
      pos := (firstAccepted as c!"pos" (parseFloat32 x)).map toUsize } es

/-- `<Tabs as ElementReader>::read`. reader/tabs.rs:6-36. -/
def tabsLoop (x : ReadEnv) (n : Nat) : Loop (List Tab) where
  start ts q as es :=
    if elementOf q.loc = .tab then
      (readTab x n as es).caught fun t es => .ok (ts ++ t.toList) es
    else .ok ts es
  close := closesAt .tabs

/-- `<FrameProperty as ElementReader>::read`. reader/frame_property.rs:6-65. The attribute names are
looked up in the table of element names. -/
def readFrame (x : ReadEnv) (as : Attrs) : FrameProperty :=
  as.foldl (fun f a =>
    let num (g : Int → FrameProperty) : FrameProperty :=
      match parseFloat x a.2 with
      | some i => g i
      | none => f
    match elementOf a.1.loc with
    | .wrap => { f with wrap := some a.2 }
    | .heightRule => { f with hRule := some a.2 }
    | .hAnchor => { f with hAnchor := some a.2 }
    | .vAnchor => { f with vAnchor := some a.2 }
    | .hSpace => num fun i => { f with hSpace := some (toI32 i) }
    | .vSpace => num fun i => { f with vSpace := some (toI32 i) }
    | .xAlign => { f with xAlign := some a.2 }
    | .yAlign => { f with yAlign := some a.2 }
    | .w => num fun i => { f with w := some (toU32 i) }
    | .h => num fun i => { f with h := some (toU32 i) }
    | .x => num fun i => { f with x := some (toI32 i) }
    | .y => num fun i => { f with y := some (toI32 i) }
    | _ => f) {}

/-- `<NumberingProperty as ElementReader>::read`. reader/numbering_property.rs:6-57. -/
def numPrLoop : Loop NumberingProperty where
  start p q as es :=
    match elementOf q.loc with
    | .indentLevel =>
      (firstValue as es).bind fun v es => (orErr (usizeFromStr v) es).map fun n => { p with level := some n }
    | .numberingId =>
      (firstValue as es).bind fun v es => (orErr (usizeFromStr v) es).map fun n => { p with id := some n }
    | _ => .ok p es
  close := closesAt .numberingProperty

/-- Position of a paragraph border element. reader/paragraph_borders.rs:15-23. -/
def paragraphBorderPosition : El → Option ParagraphBorderPosition
  | .top => some .top
  | .left => some .left
  | .bottom => some .bottom
  | .right => some .right
  | .between => some .between
  | .bar => some .bar
  | _ => none

/-- `<ParagraphBorders as ElementReader>::read`. reader/paragraph_borders.rs:7-51. -/
def paragraphBordersLoop (x : ReadEnv) : Loop ParagraphBorders where
  start b q as es :=
    match paragraphBorderPosition (elementOf q.loc) with
    | some p => (readBorder x as es).map fun a =>
        b.set { position := p, val := a.borderType, color := a.color, size := a.size, space := a.space }
    | none => .ok b es
  close := closesAt .paragraphBorders

/-- `ParagraphBorders::with_empty`. elements/paragraph_borders.rs:135-144. -/
def ParagraphBorders.withEmpty : ParagraphBorders :=
  { left := none, right := none, top := none, bottom := none, between := none, bar := none }

/-! ## Sections -/

/-- `as u32` of an `i32`: wraps around. -/
def i32AsU32 (i : Int) : Nat := (i % 2 ^ 32).toNat

/-- `read_page_size`. reader/section_property.rs:8-23. -/
def readPageSize (x : ReadEnv) : AttrReader PageSize :=
  foldAttrs (fun s name v es =>
    if name = c!"w" then (orErr (valueToDax x v) es).map fun i => { s with w := i32AsU32 i }
    else if name = c!"h" then (orErr (valueToDax x v) es).map fun i => { s with h := i32AsU32 i }
    else .ok s es) {}

/-- `read_page_margin`. reader/section_property.rs:25-57. -/
def readPageMargin (x : ReadEnv) : AttrReader PageMargin :=
  foldAttrs (fun m name v es =>
    if name = c!"top" then (orErr (valueToDax x v) es).map fun i => { m with top := i }
    else if name = c!"right" then (orErr (valueToDax x v) es).map fun i => { m with right := i }
    else if name = c!"bottom" then (orErr (valueToDax x v) es).map fun i => { m with bottom := i }
    else if name = c!"left" then (orErr (valueToDax x v) es).map fun i => { m with left := i }
    else if name = c!"header" then (orErr (valueToDax x v) es).map fun i => { m with header := i }
    else if name = c!"footer" then (orErr (valueToDax x v) es).map fun i => { m with footer := i }
    else if name = c!"gutter" then (orErr (valueToDax x v) es).map fun i => { m with gutter := i }
    else .ok m es) {}

/-- `read_header_or_footer_reference`: the last attribute of a name counts.
reader/section_property.rs:59-77. -/
def readPartReference (as : Attrs) : PartReference :=
  as.foldl (fun r a =>
    if a.1.loc = c!"type" then { r with type := a.2 }
    else if a.1.loc = c!"id" then { r with id := a.2 }
    else r) { type := c!"default", id := [] }

/-- `<DocGrid as ElementReader>::read`. reader/doc_grid.rs:8-29. -/
def readDocGrid (x : ReadEnv) : AttrReader DocGrid :=
  foldAttrs (fun g name v es =>
    if name = c!"type" then (orErr (DocGridType.fromStr v) es).map fun t => { g with gridType := t }
    else if name = c!"linePitch" then
      (orErr (parseFloat32 x v) es).map fun i => { g with linePitch := some (toUsize i) }
    else if name = c!"charSpace" then
      (orErr (parseFloat32 x v) es).map fun i => { g with charSpace := some (toIsize i) }
    else .ok g es) { gridType := .default_, linePitch := none }

/-- `<PageNumType as ElementReader>::read`. reader/page_num_type.rs:6-24. -/
def readPageNumType (as : Attrs) : PageNumType :=
  as.foldl (fun p a =>
    if a.1.loc = c!"start" then
      match u32FromStr a.2 with
      | some n => { p with start := some n }
      | none => p
    else if a.1.loc = c!"chapStyle" then { p with chapStyle := some a.2 }
    else p) {}

/-- `<SectionProperty as ElementReader>::read`. reader/section_property.rs:79-175. -/
def sectionLoop (x : ReadEnv) : Loop SectionBase where
  start s q as es :=
    match elementOf q.loc with
    | .pageMargin => (readPageMargin x as es).map fun m => { s with pageMargin := m }
    | .pageSize => (readPageSize x as es).map fun p => { s with pageSize := p }
    | .docGrid => (readDocGrid x as es).caught fun g es =>
        match g with
        | some g => .ok { s with docGrid := some g } es
        | none => .ok s es
    | .pageNumType => .ok { s with pageNumType := some (readPageNumType as) } es
    | .headerReference =>
      let r := readPartReference as
      if r.type = c!"default" then .ok { s with headerReference := some r } es
      else if r.type = c!"first" then .ok { s with firstHeaderReference := some r } es
      else if r.type = c!"even" then .ok { s with evenHeaderReference := some r } es
      else .ok s es
    | .footerReference =>
      let r := readPartReference as
      if r.type = c!"default" then .ok { s with footerReference := some r } es
      else if r.type = c!"first" then .ok { s with firstFooterReference := some r } es
      else if r.type = c!"even" then .ok { s with evenFooterReference := some r } es
      else .ok s es
    | .«type» =>
      match (attrNamed as c!"val").bind SectionType.fromStr with
      | some t => .ok { s with sectionType := some t } es
      | none => .ok s es
    | .titlePg => .ok { s with titlePg := true } es
    | _ => .ok s es
  close := closesAt .sectionProperty

/-- `<SectionProperty as ElementReader>::read`. reader/section_property.rs:79-175. -/
def readSection (x : ReadEnv) (n : Nat) (es : List REvent) : Read SectionBase := (sectionLoop x).run n {} es

/-! ## Tables -/

/-- `TableBorders::with_empty`. elements/table_borders.rs:106-115. -/
def TableBorders.withEmpty : TableBorders :=
  { top := none, left := none, bottom := none, right := none, insideH := none, insideV := none }

/-- `TableBorders::set`. elements/table_borders.rs:117-127. -/
def TableBorders.set (b : TableBorders) (x : TableBorder) : TableBorders :=
  match x.position with
  | .top => { b with top := some x }
  | .left => { b with left := some x }
  | .bottom => { b with bottom := some x }
  | .right => { b with right := some x }
  | .insideH => { b with insideH := some x }
  | .insideV => { b with insideV := some x }

/-- Position of a table border element. reader/table_borders.rs:17-84. -/
def tableBorderPosition : El → Option TableBorderPosition
  | .top => some .top
  | .right => some .right
  | .bottom => some .bottom
  | .left => some .left
  | .insideH => some .insideH
  | .insideV => some .insideV
  | _ => none

/-- `<TableBorders as ElementReader>::read`. reader/table_borders.rs:7-98. -/
def tableBordersLoop (x : ReadEnv) : Loop TableBorders where
  start b q as es :=
    match tableBorderPosition (elementOf q.loc) with
    | some p => (readBorder x as es).map fun a =>
        b.set { position := p, borderType := a.borderType, color := a.color, size := a.size }
    | none => .ok b es
  close := closesAt .tableBorders

/-- `TableCellBorders::with_empty`. elements/table_cell_borders.rs:127-138. -/
def TableCellBorders.withEmpty : TableCellBorders :=
  { top := none, left := none, bottom := none, right := none, insideH := none, insideV := none,
    tr2bl := none, tl2br := none }

/-- `TableCellBorders::set`. elements/table_cell_borders.rs:140-152. -/
def TableCellBorders.set (b : TableCellBorders) (x : TableCellBorder) : TableCellBorders :=
  match x.position with
  | .top => { b with top := some x }
  | .left => { b with left := some x }
  | .bottom => { b with bottom := some x }
  | .right => { b with right := some x }
  | .insideH => { b with insideH := some x }
  | .insideV => { b with insideV := some x }
  | .tr2bl => { b with tr2bl := some x }
  | .tl2br => { b with tl2br := some x }

/-- Position of a cell border element. reader/table_cell_borders.rs:17-106. -/
def cellBorderPosition : El → Option TableCellBorderPosition
  | .top => some .top
  | .right | .«end» => some .right
  | .bottom => some .bottom
  | .left | .start => some .left
  | .insideH => some .insideH
  | .insideV => some .insideV
  | .tl2br => some .tl2br
  | .tr2bl => some .tr2bl
  | _ => none

/-- `<TableCellBorders as ElementReader>::read`. reader/table_cell_borders.rs:7-120. -/
def cellBordersLoop (x : ReadEnv) : Loop TableCellBorders where
  start b q as es :=
    match cellBorderPosition (elementOf q.loc) with
    | some p => (readBorder x as es).map fun a =>
        b.set { position := p, borderType := a.borderType, color := a.color, size := a.size }
    | none => .ok b es
  close := closesAt .tableCellBorders

/-- `if let Ok(width) = read_width(…) { … }`. -/
def withWidth {σ : Type} (x : ReadEnv) (s : σ) (as : Attrs) (es : List REvent) (f : Int → WidthType → σ) : Read σ :=
  (readWidth x as es).caught fun w es =>
    match w with
    | some (w, t) => .ok (f w t) es
    | none => .ok s es

/-- `<CellMargins as ElementReader>::read`. reader/cell_margins.rs:6-51. -/
def cellMarginsLoop (x : ReadEnv) : Loop CellMargins where
  start m q as es :=
    match elementOf q.loc with
    | .top => withWidth x m as es fun w t => { m with top := some ⟨isizeAsUsize w, t⟩ }
    | .right => withWidth x m as es fun w t => { m with right := some ⟨isizeAsUsize w, t⟩ }
    | .bottom => withWidth x m as es fun w t => { m with bottom := some ⟨isizeAsUsize w, t⟩ }
    | .left => withWidth x m as es fun w t => { m with left := some ⟨isizeAsUsize w, t⟩ }
    | _ => .ok m es
  close := closesAt .cellMargins

/-- `<TableCellMargins as ElementReader>::read`. reader/table_cell_margins.rs:6-51. -/
def tableCellMarginsLoop (x : ReadEnv) : Loop TableCellMargins where
  start m q as es :=
    match elementOf q.loc with
    | .top => withWidth x m as es fun w t => { m with top := ⟨isizeAsUsize w, t⟩ }
    | .right => withWidth x m as es fun w t => { m with right := ⟨isizeAsUsize w, t⟩ }
    | .bottom => withWidth x m as es fun w t => { m with bottom := ⟨isizeAsUsize w, t⟩ }
    | .left => withWidth x m as es fun w t => { m with left := ⟨isizeAsUsize w, t⟩ }
    | _ => .ok m es
  close := closesAt .tableCellMargin

/-- `<TablePositionProperty as ElementReader>::read`. reader/table_position_property.rs:6-52. -/
def readTablePosition (as : Attrs) : TablePositionProperty :=
  as.foldl (fun p a =>
    let num (g : Int → TablePositionProperty) : TablePositionProperty :=
      match parseSigned 32 a.2 with
      | some i => g i
      | none => p
    if a.1.loc = c!"leftFromText" then num fun i => { p with leftFromText := some i }
    else if a.1.loc = c!"rightFromText" then num fun i => { p with rightFromText := some i }
    else if a.1.loc = c!"vertAnchor" then { p with verticalAnchor := some a.2 }
    else if a.1.loc = c!"horzAnchor" then { p with horizontalAnchor := some a.2 }
    else if a.1.loc = c!"tblpXSpec" then { p with positionXAlignment := some a.2 }
    else if a.1.loc = c!"tblpYSpec" then { p with positionYAlignment := some a.2 }
    else if a.1.loc = c!"tblpX" then num fun i => { p with positionX := some i }
    else if a.1.loc = c!"tblpY" then num fun i => { p with positionY := some i }
    else p) {}

/-- `<TableProperty as ElementReader>::read`. reader/table_property.rs:9-75. -/
def tablePropertyLoop (x : ReadEnv) (n : Nat) : Loop TableProperty where
  start p q as es :=
    match elementOf q.loc with
    | .tableBorders => ((tableBordersLoop x).run n .withEmpty es).caught fun b es =>
        .ok { p with borders := b.getD p.borders } es
    | .tableCellMargin => ((tableCellMarginsLoop x).run n {} es).caught fun m es =>
        .ok { p with margins := m.or p.margins } es
    | .tableWidth => withWidth x p as es fun w t => { p with width := ⟨isizeAsUsize w, t⟩ }
    | .justification => (firstValue as es).bind fun v es =>
        match TableAlignmentType.fromStr v with
        | some t => .ok { p with justification := t.toStr } es
        | none => .ok p es
    | .tableIndent => withWidth x p as es fun w _ =>
        if w ≠ 0 then { p with indent := some ⟨isizeAsI32 w, .dxa⟩ } else p
    | .tableStyle => .ok { p with style := (attrNamed as c!"val").or p.style } es
    | .tablePositionProperty => .ok { p with position := some (readTablePosition as) } es
    | _ => .ok p es
  close := closesAt .tableProperty

/-- The attributes of a cell width. reader/table_cell_property.rs:20-32. -/
def readCellWidth : AttrReader Width :=
  foldAttrs (fun w name v es =>
    if name = c!"type" then (orErr (WidthType.fromStr v) es).map fun t => { w with widthType := t }
    else if name = c!"w" then (orErr (usizeFromStr v) es).map fun n => { w with width := n }
    else .ok w es) ⟨0, .auto⟩

/-- `<TableCellProperty as ElementReader>::read`. reader/table_cell_property.rs:7-86. -/
def cellPropertyLoop (x : ReadEnv) (n : Nat) : Loop TableCellProperty where
  start p q as es :=
    (ignoreElement n (elementOf q.loc) .tableCellPropertyChange es).bind fun _ es =>
    match elementOf q.loc with
    | .tableCellWidth => (readCellWidth as es).map fun w => { p with width := some w }
    | .tableGridSpan =>
      match attrFirst as with
      | some v => (orErr (usizeFromStr v) es).map fun n => { p with gridSpan := some n }
      | none => .ok p es
    | .tableVMerge =>
      match attrFirst as with
      | some v => (orErr (VMergeType.fromStr v) es).map fun t => { p with verticalMerge := some t }
      | none => .ok { p with verticalMerge := some .continue_ } es
    | .vAlign =>
      match attrFirst as with
      | some v => (orErr (VAlignType.fromStr v) es).map fun t => { p with verticalAlign := some t }
      | none => .ok p es
    | .shading => .ok { p with shading := some (readShading as) } es
    | .textDirection =>
      match (attrFirst as).bind TextDirectionType.fromStr with
      | some t => .ok { p with textDirection := some t } es
      | none => .ok p es
    | .tableCellBorders => ((cellBordersLoop x).run n .withEmpty es).map fun b => { p with borders := some b }
    | .cellMargins => ((cellMarginsLoop x).run n {} es).caught fun m es =>
        .ok { p with margins := m.or p.margins } es
    | _ => .ok p es
  close := closesAt .tableCellProperty

/-! ## Bookmarks, shapes and skipped parts -/

/-- `<BookmarkStart as ElementReader>::read`. reader/bookmark_start.rs:6-27. -/
def readBookmarkStart (as : Attrs) (es : List REvent) : Read (Nat × Str) :=
  (foldAttrs (fun (b : Option Nat × Option Str) name v es =>
    if name = c!"id" then (orErr (usizeFromStr v) es).map fun n => (some n, b.2)
    else if name = c!"name" then .ok (b.1, some v) es
    else .ok b es) (none, none) as es).bind fun b es =>
  match b with
  | (some i, some n) => .ok (i, n) es
  | _ => .err es

/-- `<BookmarkEnd as ElementReader>::read`. reader/bookmark_end.rs:6-24. -/
def readBookmarkEnd (as : Attrs) (es : List REvent) : Read Nat :=
  (foldAttrs (fun (b : Option Nat) name v es =>
    if name = c!"id" then (orErr (usizeFromStr v) es).map some else .ok b es) none as es).bind orErr

/-- `read(&attributes, "id")` parsed: the id of a comment range. reader/paragraph.rs:66-82. -/
def readCommentId (as : Attrs) : Option Nat := (attrNamed as c!"id").bind usizeFromStr

/-- `<McFallback as ElementReader>::read`. reader/mc_fallback.rs:10-33. -/
def fallbackLoop : Loop Unit where
  start s _ _ es := .ok s es
  close s q := if q.loc = c!"Fallback" then none else some s

/-- `<Shape as ElementReader>::read`. reader/shape.rs:8-41. -/
def shapeLoop : Loop Shape where
  start s q as es :=
    if q.loc = c!"imagedata" then
      match attrNamed as c!"id" with
      | some i => .ok { s with imageData := some i } es
      | none => .ok s es
    else .ok s es
  close s q := if q.loc = c!"shape" then none else some s

/-- `read_field_char`. reader/run.rs:19-45. -/
def readFieldChar (as : Attrs) : Option (FieldCharType × Bool) :=
  let r : Option FieldCharType × Bool := as.foldl (fun r a =>
    if a.1.loc = c!"fldCharType" then ((FieldCharType.fromStr a.2).or r.1, r.2)
    else if a.1.loc = c!"dirty" then (r.1, !isFalse a.2)
    else r) (none, false)
  r.1.map fun t => (t, r.2)

end Docx
