import Verif.Model.Types
import Verif.Model.Ids
import Verif.Model.Escape
import Verif.Spec.XmlTree

/-!
# Writers of the formatting properties (`BuildXML` of `docx-core/src/documents/elements/*.rs`)

A `build_to` sends a sequence of events to the XML writer. The model returns that sequence; each
`open_*` of the source is an `.opn`, each `close()` a `.cls` and each written string a `.txt`.
The events of `xml_builder/*.rs` methods are inlined and cited.

Some builders draw numbers from the id generators while they write, and some end in
`todo!`/`unimplemented!`; `B` threads the generators and returns `none` for such a panic.
-/

namespace Docx

open Docx.Spec (Tag)

/-- The generators used while writing: revision ids (history_id.rs:5-15), paragraph property change
ids (paragraph_property_change_id.rs:5-15) and paragraph ids (paragraph_id.rs:4-19). -/
structure Gen where
  history : Nat := 0
  change : Nat := 0
  para : Nat := 1
deriving DecidableEq, Repr

/-- A writer: `none` is a panic (`todo!`, `unimplemented!`). -/
abbrev B := Gen → Option (List Tag × Gen)

/-- Write fixed events. xml_builder/mod.rs:56-59. -/
def emit (ts : List Tag) : B := fun g => some (ts, g)

/-- `todo!()` or `unimplemented!()`. -/
def panicB : B := fun _ => none

/-- One writer after the other (`?` between them). xml_builder/mod.rs:119-121. -/
def B.then (a b : B) : B := fun g =>
  match a g with
  | none => none
  | some (ts, g) =>
    match b g with
    | none => none
    | some (ts', g) => some (ts ++ ts', g)

/-- A chain of calls on `XMLBuilder`. xml_builder/mod.rs:56-169. -/
def cat : List B → B
  | [] => emit []
  | b :: bs => b.then (cat bs)

/-- `apply_if`. xml_builder/mod.rs:73-83. -/
def ifB (c : Bool) (b : B) : B := if c then b else emit []

/-- `add_optional_child`, `apply_opt`. xml_builder/mod.rs:92-102,123-128. -/
def optB {α} (o : Option α) (f : α → B) : B :=
  match o with
  | some a => f a
  | none => emit []

/-- `add_children`, `apply_each`. xml_builder/mod.rs:105-114,130-135. -/
def eachB {α} (f : α → B) : List α → B
  | [] => emit []
  | a :: as => (f a).then (eachB f as)

/-- `HistoryId::generate` and go on with the id. history_id.rs:8-14. -/
def withHistory (f : Str → B) : B := fun g =>
  let i := generateId g.history
  f (historyIdText i.1) { g with history := i.2 }

/-- `ParagraphPropertyChangeId::generate`. paragraph_property_change_id.rs:8-14. -/
def withChange (f : Str → B) : B := fun g =>
  let i := generateId g.change
  f (historyIdText i.1) { g with change := i.2 }

/-- `generate_para_id` (in `Paragraph::new` and in `Section::build_to`). paragraph_id.rs:12-19. -/
def withParaId (f : Str → B) : B := fun g =>
  let i := generateParaId g.para
  f i.1 { g with para := i.2 }

/-- An element without content: `closed!`. xml_builder/macros.rs:284-468. -/
def leaf (name : Str) (attrs : List (Str × Str) := []) : List Tag := [.opn name attrs, .cls]

/-- An element with one `w:val` attribute: `closed_with_str!`, `closed_with_usize!`,
`closed_with_isize!`. xml_builder/macros.rs:470-496. -/
def valEl (name v : Str) : List Tag := leaf name [(c!"w:val", v)]

/-- An optional attribute. -/
def optAttr (name : Str) : Option Str → List (Str × Str)
  | some v => [(name, v)]
  | none => []

/-- An optional child without generators. xml_builder/mod.rs:123-128. -/
def optTags {α} (o : Option α) (f : α → List Tag) : List Tag :=
  match o with
  | some a => f a
  | none => []

/-- `format!("{}", b)` for a `bool`. -/
def boolText (b : Bool) : Str := if b then c!"true" else c!"false"

/-- `if b { "1" } else { "0" }`. -/
def bitText (b : Bool) : Str := if b then c!"1" else c!"0"

/-- `n as i32` for a `usize`: the low 32 bits as a signed number. -/
def asI32 (n : Nat) : Int :=
  let m : Nat := n % 2 ^ 32
  if m < 2 ^ 31 then (m : Int) else (m : Int) - 2 ^ 32

/-- `x as u32` for an `i32`. -/
def asU32 (x : Int) : Nat := (x % 2 ^ 32).toNat

/-! Run properties. -/

/-- color.rs:71-85, xml_builder/elements.rs:242-260. -/
def Color.tags (c : Color) : List Tag :=
  leaf c!"w:color" ([(c!"w:val", c.val)] ++ optAttr c!"w:themeColor" c.themeColor
    ++ optAttr c!"w:themeShade" c.themeShade ++ optAttr c!"w:themeTint" c.themeTint)

/-- `Bold`, `Italic`, `Strike`, `Dstrike`: a disabled toggle is written with `w:val="false"`.
bold.rs:38-49, italic.rs:38-49, strike.rs:38-49, dstrike.rs:38-49,
xml_builder/elements.rs:183-217. -/
def toggleTags (name : Str) (on : Bool) : List Tag :=
  if on then leaf name else valEl name c!"false"

/-- `BoldCs`, `ItalicCs`: the value is ignored. bold_cs.rs:37-44, italic_cs.rs:38-45. -/
def toggleCsTags (name : Str) (_on : Bool) : List Tag := leaf name

/-- run_fonts.rs:90-109, xml_builder/elements.rs:33-74. -/
def RunFonts.tags (f : RunFonts) : List Tag :=
  leaf c!"w:rFonts" (optAttr c!"w:ascii" f.ascii ++ optAttr c!"w:hAnsi" f.hiAnsi
    ++ optAttr c!"w:cs" f.cs ++ optAttr c!"w:eastAsia" f.eastAsia
    ++ optAttr c!"w:asciiTheme" f.asciiTheme ++ optAttr c!"w:hAnsiTheme" f.hiAnsiTheme
    ++ optAttr c!"w:cstheme" f.csTheme ++ optAttr c!"w:eastAsiaTheme" f.eastAsiaTheme
    ++ optAttr c!"w:hint" f.hint)

/-- `closed_border_el!`. xml_builder/macros.rs:511-530. -/
def borderTags (name : Str) (t : BorderType) (size space : Nat) (color : Str) : List Tag :=
  leaf name [(c!"w:val", t.toStr), (c!"w:sz", dec size), (c!"w:space", dec space),
    (c!"w:color", color)]

/-- text_border.rs:54-63, xml_builder/elements.rs:401. -/
def TextBorder.tags (b : TextBorder) : List Tag :=
  borderTags c!"w:bdr" b.borderType b.size b.space b.color

/-- `open_insert`/`open_delete`/`open_move_from`/`open_move_to`/`open_paragraph_property_change`.
xml_builder/elements.rs:442-452. -/
def revisionOpen (name id author date : Str) : Tag :=
  .opn name [(c!"w:id", id), (c!"w:author", author), (c!"w:date", date)]

/-- An `Insert` or `Delete` used as a mark (no children). insert.rs:146-158, delete.rs:100-116. -/
def Mark.build (name : Str) (m : Mark) : B :=
  withHistory fun id => emit [revisionOpen name id m.author m.date, .cls]

/-- fit_text.rs:25-34, xml_builder/elements.rs:309-315. -/
def FitText.tags (f : FitText) : List Tag :=
  leaf c!"w:fitText" ([(c!"w:val", dec f.val)] ++ optAttr c!"w:id" (f.id.map dec))

/-- positional_tab.rs:57-66, xml_builder/elements.rs:742-754. -/
def PositionalTab.tags (t : PositionalTab) : List Tag :=
  leaf c!"w:ptab" [(c!"w:alignment", t.alignment.toStr), (c!"w:relativeTo", t.relativeTo.toStr),
    (c!"w:leader", t.leader.toStr)]

/-- shading.rs:48-57, xml_builder/elements.rs:403. -/
def Shading.tags (s : Shading) : List Tag :=
  leaf c!"w:shd" [(c!"w:val", s.shdType.toStr), (c!"w:color", s.color), (c!"w:fill", s.fill)]

/-- run_property.rs:240-275; sz.rs:18-25, sz_cs.rs:17-24, caps.rs:40-49, highlight.rs:18-25,
underline.rs:18-25, vanish.rs:16-23, spec_vanish.rs:16-23, vert_align.rs:28-37,
character_spacing.rs:19-26, stretch.rs:18-25, run_style.rs:29-36. -/
def RunProperty.build (p : RunProperty) : B :=
  cat
    [ emit [.opn c!"w:rPr" []],
      emit (optTags p.sz fun v => valEl c!"w:sz" (dec v)),
      emit (optTags p.szCs fun v => valEl c!"w:szCs" (dec v)),
      emit (optTags p.color Color.tags),
      emit (optTags p.bold (toggleTags c!"w:b")),
      emit (optTags p.boldCs (toggleCsTags c!"w:bCs")),
      emit (optTags p.caps fun v => valEl c!"w:caps" (boolText v)),
      emit (optTags p.italic (toggleTags c!"w:i")),
      emit (optTags p.italicCs (toggleCsTags c!"w:iCs")),
      emit (optTags p.strike (toggleTags c!"w:strike")),
      emit (optTags p.dstrike (toggleTags c!"w:dstrike")),
      emit (optTags p.highlight (valEl c!"w:highlight")),
      emit (optTags p.underline (valEl c!"w:u")),
      emit (optTags p.vanish fun _ => leaf c!"w:vanish"),
      emit (optTags p.specVanish fun _ => leaf c!"w:specVanish"),
      emit (optTags p.fonts RunFonts.tags),
      emit (optTags p.textBorder TextBorder.tags),
      optB p.ins (Mark.build c!"w:ins"),
      optB p.del (Mark.build c!"w:del"),
      emit (optTags p.vertAlign fun v => valEl c!"w:vertAlign" v.toStr),
      emit (optTags p.characterSpacing fun v => valEl c!"w:spacing" (decInt v)),
      emit (optTags p.fitText FitText.tags),
      emit (optTags p.stretch fun v => valEl c!"w:w" (decInt v)),
      emit (optTags p.style (valEl c!"w:rStyle")),
      emit (optTags p.positionalTab PositionalTab.tags),
      emit (optTags p.shading Shading.tags),
      emit [.cls] ]

/-! Section properties. -/

/-- page_size.rs:57-72, xml_builder/elements.rs:425-426. -/
def PageSize.tags (s : PageSize) : List Tag :=
  leaf c!"w:pgSz" ([(c!"w:w", dec s.w), (c!"w:h", dec s.h)]
    ++ optAttr c!"w:orient" (s.orient.map PageOrientationType.toStr))

/-- page_margin.rs:56-73, xml_builder/elements.rs:427-437. -/
def PageMargin.tags (m : PageMargin) : List Tag :=
  leaf c!"w:pgMar" [(c!"w:top", decInt m.top), (c!"w:right", decInt m.right),
    (c!"w:bottom", decInt m.bottom), (c!"w:left", decInt m.left), (c!"w:header", decInt m.header),
    (c!"w:footer", decInt m.footer), (c!"w:gutter", decInt m.gutter)]

/-- doc_grid.rs:55-64, xml_builder/elements.rs:601-615. -/
def DocGrid.tags (g : DocGrid) : List Tag :=
  leaf c!"w:docGrid" ([(c!"w:type", g.gridType.toStr)] ++ optAttr c!"w:linePitch" (g.linePitch.map dec)
    ++ optAttr c!"w:charSpace" (g.charSpace.map decInt))

/-- header_reference.rs:32-41, footer_reference.rs:23-32, xml_builder/elements.rs:419-420. -/
def PartReference.tags (name : Str) (r : PartReference) : List Tag :=
  leaf name [(c!"w:type", r.type), (c!"r:id", r.id)]

/-- page_num_type.rs:37-46, xml_builder/elements.rs:706-719. -/
def PageNumType.tags (t : PageNumType) : List Tag :=
  leaf c!"w:pgNumType" (optAttr c!"w:start" (t.start.map dec) ++ optAttr c!"w:chapStyle" t.chapStyle)

/-- section_property.rs:220-246, xml_builder/elements.rs:181,418,422-423,438. -/
def SectionBase.tags (p : SectionBase) : List Tag :=
  [.opn c!"w:sectPr" []]
  ++ p.pageSize.tags
  ++ p.pageMargin.tags
  ++ leaf c!"w:cols" [(c!"w:space", dec p.space), (c!"w:num", dec p.columns)]
  ++ optTags p.docGrid DocGrid.tags
  ++ optTags p.headerReference (PartReference.tags c!"w:headerReference")
  ++ optTags p.firstHeaderReference (PartReference.tags c!"w:headerReference")
  ++ optTags p.evenHeaderReference (PartReference.tags c!"w:headerReference")
  ++ optTags p.footerReference (PartReference.tags c!"w:footerReference")
  ++ optTags p.firstFooterReference (PartReference.tags c!"w:footerReference")
  ++ optTags p.evenFooterReference (PartReference.tags c!"w:footerReference")
  ++ optTags p.pageNumType PageNumType.tags
  ++ (if p.textDirection ≠ c!"lrTb" then valEl c!"w:textDirection" p.textDirection else [])
  ++ optTags p.sectionType (fun t => valEl c!"w:type" t.toStr)
  ++ (if p.titlePg then leaf c!"w:titlePg" else [])
  ++ [.cls]

/-! Paragraph properties. -/

/-- numbering_property.rs:37-49, numbering_id.rs:18-25, indent_level.rs:16-25. -/
def NumberingProperty.tags (n : NumberingProperty) : List Tag :=
  [.opn c!"w:numPr" []] ++ optTags n.id (fun i => valEl c!"w:numId" (dec i))
    ++ optTags n.level (fun l => valEl c!"w:ilvl" (dec l)) ++ [.cls]

/-- frame_property.rs:123-130, xml_builder/elements.rs:617-662. -/
def FrameProperty.tags (p : FrameProperty) : List Tag :=
  leaf c!"w:framePr" (optAttr c!"w:wrap" p.wrap ++ optAttr c!"w:hRule" p.hRule
    ++ optAttr c!"w:hAnchor" p.hAnchor ++ optAttr c!"w:vAnchor" p.vAnchor
    ++ optAttr c!"w:xAlign" p.xAlign ++ optAttr c!"w:yAlign" p.yAlign
    ++ optAttr c!"w:x" (p.x.map decInt) ++ optAttr c!"w:y" (p.y.map decInt)
    ++ optAttr c!"w:h_space" (p.hSpace.map decInt) ++ optAttr c!"w:v_space" (p.vSpace.map decInt)
    ++ optAttr c!"w:w" (p.w.map dec) ++ optAttr c!"w:h" (p.h.map dec))

/-- indent.rs:54-68, xml_builder/elements.rs:271-294. -/
def Indent.tags (i : Indent) : List Tag :=
  leaf c!"w:ind" ([(c!"w:left", decInt (i.start.getD 0)), (c!"w:right", decInt (i.end_.getD 0))]
    ++ optAttr c!"w:leftChars" (i.startChars.map decInt)
    ++ (match i.special with
        | some (.firstLine v) => [(c!"w:firstLine", decInt v)]
        | some (.hanging v) => [(c!"w:hanging", decInt v)]
        | none => []))

/-- line_spacing.rs:61-77, xml_builder/elements.rs:318-357. -/
def LineSpacing.tags (l : LineSpacing) : List Tag :=
  leaf c!"w:spacing" (optAttr c!"w:before" (l.before.map dec) ++ optAttr c!"w:after" (l.after.map dec)
    ++ optAttr c!"w:beforeLines" (l.beforeLines.map dec)
    ++ optAttr c!"w:afterLines" (l.afterLines.map dec)
    ++ optAttr c!"w:line" (l.line.map decInt)
    ++ optAttr c!"w:lineRule" (l.lineRule.map fun
        | .auto => c!"auto"
        | .atLeast => c!"atLeast"
        | .exact => c!"exact"))

/-- The element of a paragraph border position. paragraph_borders.rs:92-99,
xml_builder/elements.rs:150-155. -/
def ParagraphBorderPosition.element : ParagraphBorderPosition → Str
  | .top => c!"w:top"
  | .left => c!"w:left"
  | .bottom => c!"w:bottom"
  | .right => c!"w:right"
  | .between => c!"w:between"
  | .bar => c!"w:bar"

/-- paragraph_borders.rs:84-104, xml_builder/macros.rs:532-551. -/
def ParagraphBorder.tags (b : ParagraphBorder) : List Tag :=
  leaf b.position.element [(c!"w:val", b.val.toStr), (c!"w:space", dec b.space),
    (c!"w:sz", dec b.size), (c!"w:color", b.color)]

/-- paragraph_borders.rs:185-201. -/
def ParagraphBorders.tags (b : ParagraphBorders) : List Tag :=
  [.opn c!"w:pBdr" []] ++ optTags b.left ParagraphBorder.tags ++ optTags b.right ParagraphBorder.tags
    ++ optTags b.top ParagraphBorder.tags ++ optTags b.bottom ParagraphBorder.tags
    ++ optTags b.between ParagraphBorder.tags ++ optTags b.bar ParagraphBorder.tags ++ [.cls]

/-- tab.rs:38-47, xml_builder/elements.rs:721-740. -/
def Tab.tags (t : Tab) : List Tag :=
  leaf c!"w:tab" (optAttr c!"w:val" (t.val.map TabValueType.toStr)
    ++ optAttr c!"w:leader" (t.leader.map TabLeaderType.toStr) ++ optAttr c!"w:pos" (t.pos.map dec))

/-- The children of `w:pPr` before the recorded change. paragraph_property.rs:229-236;
paragraph_style.rs:39-48, justification.rs:26-35, outline_lvl.rs:19-29. -/
def ParagraphBase.buildBefore (p : ParagraphBase) : B :=
  cat
    [ p.runProperty.build,
      emit (optTags p.style (valEl c!"w:pStyle")),
      emit (optTags p.numberingProperty NumberingProperty.tags),
      emit (optTags p.frameProperty FrameProperty.tags),
      emit (optTags p.alignment (valEl c!"w:jc")),
      emit (optTags p.indent Indent.tags),
      emit (optTags p.lineSpacing LineSpacing.tags),
      emit (optTags p.outlineLvl fun v => valEl c!"w:outlineLvl" (dec v)) ]

/-- The children of `w:pPr` after the recorded change. paragraph_property.rs:238-255;
text_alignment.rs:16-25, adjust_right_ind.rs:16-25, xml_builder/elements.rs:27-30,525-529. -/
def ParagraphBase.tagsAfter (p : ParagraphBase) : List Tag :=
  optTags p.borders ParagraphBorders.tags
  ++ optTags p.shading Shading.tags
  ++ optTags p.textAlignment (fun v => valEl c!"w:textAlignment" v.toStr)
  ++ optTags p.adjustRightInd (fun v => valEl c!"w:adjustRightInd" (decInt v))
  ++ optTags p.snapToGrid (fun v => valEl c!"w:snapToGrid" (boolText v))
  ++ (if p.keepNext = some true then leaf c!"w:keepNext" else [])
  ++ (if p.keepLines = some true then leaf c!"w:keepLines" else [])
  ++ (if p.pageBreakBefore = some true then leaf c!"w:pageBreakBefore" else [])
  ++ (if p.bidi = some true then leaf c!"w:bidi" else [])
  ++ optTags p.widowControl (fun v => valEl c!"w:widowControl" (bitText v))
  ++ (if p.tabs ≠ [] then [.opn c!"w:tabs" []] ++ p.tabs.flatMap Tab.tags ++ [.cls] else [])
  ++ optTags p.sectionProperty SectionBase.tags

mutual
/-- paragraph_property.rs:222-259. -/
def ParagraphProperty.build : ParagraphProperty → B
  | ⟨base, change⟩ =>
    cat [emit [.opn c!"w:pPr" []], base.buildBefore, buildChange change, emit base.tagsAfter,
      emit [.cls]]
/-- The optional change of paragraph_property.rs:237. -/
def buildChange : Option ParagraphPropertyChange → B
  | none => emit []
  | some c => c.build
/-- paragraph_property_change.rs:51-63: the id is drawn before the nested properties are written. -/
def ParagraphPropertyChange.build : ParagraphPropertyChange → B
  | ⟨author, date, property⟩ =>
    withChange fun id =>
      cat [emit [revisionOpen c!"w:pPrChange" id author date], property.build, emit [.cls]]
end

/-! Table properties. -/

/-- `closed_w_with_type_el!`. xml_builder/macros.rs:498-509. -/
def widthTags (name : Str) (w : Int) (t : WidthType) : List Tag :=
  leaf name [(c!"w:w", decInt w), (c!"w:type", t.toStr)]

/-- table_borders.rs:62-69. -/
def TableBorderPosition.element : TableBorderPosition → Str
  | .top => c!"w:top"
  | .left => c!"w:left"
  | .bottom => c!"w:bottom"
  | .right => c!"w:right"
  | .insideH => c!"w:insideH"
  | .insideV => c!"w:insideV"

/-- table_borders.rs:57-75. -/
def TableBorder.tags (b : TableBorder) : List Tag :=
  borderTags b.position.element b.borderType b.size b.space b.color

/-- table_borders.rs:157-173. -/
def TableBorders.tags (b : TableBorders) : List Tag :=
  [.opn c!"w:tblBorders" []] ++ optTags b.top TableBorder.tags ++ optTags b.left TableBorder.tags
    ++ optTags b.bottom TableBorder.tags ++ optTags b.right TableBorder.tags
    ++ optTags b.insideH TableBorder.tags ++ optTags b.insideV TableBorder.tags ++ [.cls]

/-- `margin_top` and its siblings. xml_builder/elements.rs:387-390. -/
def CellMargin.tags (name : Str) (m : CellMargin) : List Tag :=
  widthTags name (asI32 m.val) m.widthType

/-- table_cell_margins.rs:70-84. -/
def TableCellMargins.tags (m : TableCellMargins) : List Tag :=
  [.opn c!"w:tblCellMar" []] ++ m.top.tags c!"w:top" ++ m.left.tags c!"w:left"
    ++ m.bottom.tags c!"w:bottom" ++ m.right.tags c!"w:right" ++ [.cls]

/-- table_position_property.rs:76-85, xml_builder/elements.rs:664-704. -/
def TablePositionProperty.tags (p : TablePositionProperty) : List Tag :=
  leaf c!"w:tblpPr" (optAttr c!"w:leftFromText" (p.leftFromText.map decInt)
    ++ optAttr c!"w:rightFromText" (p.rightFromText.map decInt)
    ++ optAttr c!"w:vertAnchor" p.verticalAnchor ++ optAttr c!"w:horzAnchor" p.horizontalAnchor
    ++ optAttr c!"w:tblpXSpec" p.positionXAlignment ++ optAttr c!"w:tblpYSpec" p.positionYAlignment
    ++ optAttr c!"w:tblpX" (p.positionX.map decInt) ++ optAttr c!"w:tblpY" (p.positionY.map decInt))

/-- table_property.rs:153-171; table_width.rs:21-30, table_indent.rs:21-30, table_style.rs:18-27,
table_layout.rs:19-28. -/
def TableProperty.tags (p : TableProperty) : List Tag :=
  [.opn c!"w:tblPr" []]
  ++ widthTags c!"w:tblW" (asI32 p.width.width) p.width.widthType
  ++ valEl c!"w:jc" p.justification
  ++ p.borders.tags
  ++ optTags p.margins TableCellMargins.tags
  ++ optTags p.indent (fun i => widthTags c!"w:tblInd" i.width i.widthType)
  ++ optTags p.style (valEl c!"w:tblStyle")
  ++ optTags p.layout (fun l => leaf c!"w:tblLayout" [(c!"w:type", l.toStr)])
  ++ optTags p.position TablePositionProperty.tags
  ++ [.cls]

/-- `TableGrid`. table_grid.rs:17-28. -/
def gridTags (grid : List Nat) : List Tag :=
  [.opn c!"w:tblGrid" []] ++ grid.flatMap (fun w => widthTags c!"w:gridCol" (asI32 w) .dxa) ++ [.cls]

/-- table_row_property.rs:78-97; cant_split.rs:8-15, xml_builder/elements.rs:381. `HeightRule`'s
default is `atLeast` (types/height_rule.rs:11-18). -/
def TableRowProperty.build (p : TableRowProperty) : B :=
  cat
    [ emit [.opn c!"w:trPr" []],
      optB p.del (Mark.build c!"w:del"),
      optB p.ins (Mark.build c!"w:ins"),
      emit (optTags p.cantSplit fun _ => leaf c!"w:cantSplit"),
      emit (optTags p.rowHeight fun h =>
        leaf c!"w:trHeight" [(c!"w:val", h), (c!"w:hRule", (p.heightRule.getD .atLeast).toStr)]),
      emit [.cls] ]

/-- table_cell_borders.rs:76-85. -/
def TableCellBorderPosition.element : TableCellBorderPosition → Str
  | .top => c!"w:top"
  | .left => c!"w:left"
  | .bottom => c!"w:bottom"
  | .right => c!"w:right"
  | .insideH => c!"w:insideH"
  | .insideV => c!"w:insideV"
  | .tr2bl => c!"w:tr2bl"
  | .tl2br => c!"w:tl2br"

/-- table_cell_borders.rs:71-90. -/
def TableCellBorder.tags (b : TableCellBorder) : List Tag :=
  borderTags b.position.element b.borderType b.size b.space b.color

/-- table_cell_borders.rs:193-211. -/
def TableCellBorders.tags (b : TableCellBorders) : List Tag :=
  [.opn c!"w:tcBorders" []] ++ optTags b.top TableCellBorder.tags
    ++ optTags b.left TableCellBorder.tags
    ++ optTags b.bottom TableCellBorder.tags ++ optTags b.right TableCellBorder.tags
    ++ optTags b.insideH TableCellBorder.tags ++ optTags b.insideV TableCellBorder.tags
    ++ optTags b.tl2br TableCellBorder.tags ++ optTags b.tr2bl TableCellBorder.tags ++ [.cls]

/-- cell_margins.rs:69-91. -/
def CellMargins.tags (m : CellMargins) : List Tag :=
  [.opn c!"w:tcMar" []] ++ optTags m.top (CellMargin.tags c!"w:top")
    ++ optTags m.left (CellMargin.tags c!"w:left") ++ optTags m.bottom (CellMargin.tags c!"w:bottom")
    ++ optTags m.right (CellMargin.tags c!"w:right") ++ [.cls]

/-- table_cell_property.rs:127-145; table_cell_width.rs:21-30, grid_span.rs:18-25,
vertical_merge.rs:19-28, v_align.rs:19-28, text_direction.rs:19-28. -/
def TableCellProperty.tags (p : TableCellProperty) : List Tag :=
  [.opn c!"w:tcPr" []]
  ++ optTags p.width (fun w => widthTags c!"w:tcW" (asI32 w.width) w.widthType)
  ++ optTags p.borders TableCellBorders.tags
  ++ optTags p.gridSpan (fun v => valEl c!"w:gridSpan" (dec v))
  ++ optTags p.verticalMerge (fun v => valEl c!"w:vMerge" v.toStr)
  ++ optTags p.verticalAlign (fun v => valEl c!"w:vAlign" v.toStr)
  ++ optTags p.textDirection (fun v => valEl c!"w:textDirection" v.toStr)
  ++ optTags p.shading Shading.tags
  ++ optTags p.margins CellMargins.tags
  ++ [.cls]

/-! Structured data tags. -/

/-- data_binding.rs:35-48, xml_builder/elements.rs:88-105. -/
def DataBinding.tags (d : DataBinding) : List Tag :=
  leaf c!"w:dataBinding" (optAttr c!"w:xpath" d.xpath
    ++ optAttr c!"w:prefixMappings" d.prefixMappings ++ optAttr c!"w:storeItemID" d.storeItemId)

/-- structured_data_tag_property.rs:43-56. -/
def SdtProperty.build (p : SdtProperty) : B :=
  cat [emit [.opn c!"w:sdtPr" []], p.runProperty.build, emit (optTags p.dataBinding DataBinding.tags),
    emit (optTags p.alias (valEl c!"w:alias")), emit [.cls]]

end Docx
