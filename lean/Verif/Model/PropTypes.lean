import Verif.Model.Base
import Verif.Model.Enums

/-!
# Formatting properties (`docx-core/src/documents/elements/*.rs`)

One Lean structure per Rust struct, same fields. `i32`/`isize` are `Int`, `u32`/`usize` are `Nat`.
Single-field wrapper structs (`Sz`, `Highlight`, `Bold`, ...) are replaced by their field.
-/

namespace Docx

/-- `Color`. elements/color.rs:28-36. -/
structure Color where
  val : Str
  themeColor : Option Str := none
  themeShade : Option Str := none
  themeTint : Option Str := none
deriving DecidableEq

/-- `RunFonts`. elements/run_fonts.rs:18-37. -/
structure RunFonts where
  ascii : Option Str := none
  hiAnsi : Option Str := none
  eastAsia : Option Str := none
  cs : Option Str := none
  asciiTheme : Option Str := none
  hiAnsiTheme : Option Str := none
  eastAsiaTheme : Option Str := none
  csTheme : Option Str := none
  hint : Option Str := none
deriving DecidableEq

/-- `TextBorder`. elements/text_border.rs:10-15, default 43-52. -/
structure TextBorder where
  borderType : BorderType := .single
  size : Nat := 4
  color : Str := c!"auto"
  space : Nat := 0
deriving DecidableEq

/-- `FitText`. elements/fit_text.rs:8-12. -/
structure FitText where
  val : Nat
  id : Option Nat := none
deriving DecidableEq

/-- `PositionalTab`. elements/positional_tab.rs:12-26. -/
structure PositionalTab where
  alignment : PositionalTabAlignmentType := .left
  relativeTo : PositionalTabRelativeTo := .margin
  leader : TabLeaderType := .none_
deriving DecidableEq

/-- `Shading`. elements/shading.rs:11-25. -/
structure Shading where
  shdType : ShdType := .clear
  color : Str := c!"auto"
  fill : Str := c!"FFFFFF"
deriving DecidableEq

/-- Author and date of a tracked change. `Insert`/`Delete` inside run and row properties
(elements/run_property.rs:51-53, elements/table_row_property.rs:20-22), whose children are empty:
simplification, the API also accepts children there. -/
structure Mark where
  author : Str
  date : Str
deriving DecidableEq

/-- `RunProperty`. elements/run_property.rs:11-62. -/
structure RunProperty where
  style : Option Str := none
  sz : Option Nat := none
  szCs : Option Nat := none
  color : Option Color := none
  highlight : Option Str := none
  vertAlign : Option VertAlignType := none
  underline : Option Str := none
  bold : Option Bool := none
  boldCs : Option Bool := none
  caps : Option Bool := none
  italic : Option Bool := none
  italicCs : Option Bool := none
  vanish : Option Unit := none
  specVanish : Option Unit := none
  characterSpacing : Option Int := none
  fitText : Option FitText := none
  stretch : Option Int := none
  fonts : Option RunFonts := none
  textBorder : Option TextBorder := none
  del : Option Mark := none
  ins : Option Mark := none
  strike : Option Bool := none
  dstrike : Option Bool := none
  positionalTab : Option PositionalTab := none
  shading : Option Shading := none
deriving DecidableEq

/-- `SpecialIndentType`. types/special_indent_type.rs. -/
inductive SpecialIndentType where
  | firstLine (v : Int)
  | hanging (v : Int)
deriving DecidableEq

/-- `Indent`. elements/indent.rs:10-18. -/
structure Indent where
  start : Option Int := none
  end_ : Option Int := none
  special : Option SpecialIndentType := none
  startChars : Option Int := none
  hangingChars : Option Int := none
  firstLineChars : Option Int := none
deriving DecidableEq

/-- `LineSpacing`. elements/line_spacing.rs:10-23. -/
structure LineSpacing where
  lineRule : Option LineSpacingType := none
  before : Option Nat := none
  after : Option Nat := none
  beforeLines : Option Nat := none
  afterLines : Option Nat := none
  line : Option Int := none
deriving DecidableEq

/-- `FrameProperty`. elements/frame_property.rs:12-55. -/
structure FrameProperty where
  h : Option Nat := none
  hRule : Option Str := none
  hAnchor : Option Str := none
  hSpace : Option Int := none
  vAnchor : Option Str := none
  vSpace : Option Int := none
  w : Option Nat := none
  wrap : Option Str := none
  x : Option Int := none
  xAlign : Option Str := none
  y : Option Int := none
  yAlign : Option Str := none
deriving DecidableEq

/-- `NumberingProperty`. elements/numbering_property.rs:10-13. -/
structure NumberingProperty where
  id : Option Nat := none
  level : Option Nat := none
deriving DecidableEq

/-- `Tab`. elements/tab.rs:11-15. -/
structure Tab where
  val : Option TabValueType := none
  leader : Option TabLeaderType := none
  pos : Option Nat := none
deriving DecidableEq

/-- `ParagraphBorder`. elements/paragraph_borders.rs:10-37. -/
structure ParagraphBorder where
  position : ParagraphBorderPosition
  val : BorderType := .single
  size : Nat := 2
  space : Nat := 0
  color : Str := c!"auto"
deriving DecidableEq

/-- `ParagraphBorders`. elements/paragraph_borders.rs:108-128. -/
structure ParagraphBorders where
  left : Option ParagraphBorder := some { position := .left }
  right : Option ParagraphBorder := some { position := .right }
  top : Option ParagraphBorder := some { position := .top }
  bottom : Option ParagraphBorder := some { position := .bottom }
  between : Option ParagraphBorder := none
  bar : Option ParagraphBorder := none
deriving DecidableEq

/-- `PageSize`. elements/page_size.rs:10-26. -/
structure PageSize where
  w : Nat := 11906
  h : Nat := 16838
  orient : Option PageOrientationType := none
deriving DecidableEq

/-- `PageMargin`. types/page_margin.rs, default elements/page_margin.rs:8-20. -/
structure PageMargin where
  top : Int := 1985
  left : Int := 1701
  bottom : Int := 1701
  right : Int := 1701
  header : Int := 851
  footer : Int := 992
  gutter : Int := 0
deriving DecidableEq

/-- `DocGrid`. elements/doc_grid.rs:10-14, default 45-53. -/
structure DocGrid where
  gridType : DocGridType := .lines
  linePitch : Option Nat := some 360
  charSpace : Option Int := none
deriving DecidableEq

/-- `HeaderReference` and `FooterReference`. elements/header_reference.rs:9-12,
elements/footer_reference.rs:9-12. -/
structure PartReference where
  type : Str
  id : Str
deriving DecidableEq

/-- `PageNumType`. elements/page_num_type.rs:10-15. -/
structure PageNumType where
  start : Option Nat := none
  chapStyle : Option Str := none
deriving DecidableEq

/-- `SectionProperty` without the header and footer bodies. elements/section_property.rs:12-49,
default 190-218. The bodies are in `SectionProperty` (`Model/Types.lean`). -/
structure SectionBase where
  pageSize : PageSize := {}
  pageMargin : PageMargin := {}
  columns : Nat := 1
  space : Nat := 425
  titlePg : Bool := false
  textDirection : Str := c!"lrTb"
  docGrid : Option DocGrid := none
  headerReference : Option PartReference := none
  firstHeaderReference : Option PartReference := none
  evenHeaderReference : Option PartReference := none
  footerReference : Option PartReference := none
  firstFooterReference : Option PartReference := none
  evenFooterReference : Option PartReference := none
  sectionType : Option SectionType := none
  pageNumType : Option PageNumType := none
deriving DecidableEq

/-- The fields of `ParagraphProperty` except the tracked change.
elements/paragraph_property.rs:12-56. Simplification: the section property of a paragraph keeps no
header and footer bodies (they are never written for a paragraph's section property). -/
structure ParagraphBase where
  runProperty : RunProperty := {}
  style : Option Str := none
  numberingProperty : Option NumberingProperty := none
  alignment : Option Str := none
  indent : Option Indent := none
  lineSpacing : Option LineSpacing := none
  keepNext : Option Bool := none
  keepLines : Option Bool := none
  bidi : Option Bool := none
  pageBreakBefore : Option Bool := none
  widowControl : Option Bool := none
  outlineLvl : Option Nat := none
  sectionProperty : Option SectionBase := none
  tabs : List Tab := []
  borders : Option ParagraphBorders := none
  frameProperty : Option FrameProperty := none
  textAlignment : Option TextAlignmentType := none
  adjustRightInd : Option Int := none
  snapToGrid : Option Bool := none
  shading : Option Shading := none
  divId : Option Str := none
deriving DecidableEq

mutual
/-- `ParagraphProperty`. elements/paragraph_property.rs:12-56. -/
structure ParagraphProperty where
  base : ParagraphBase := {}
  change : Option ParagraphPropertyChange := none
/-- `ParagraphPropertyChange`. elements/paragraph_property_change.rs:10-14. -/
structure ParagraphPropertyChange where
  author : Str
  date : Str
  property : ParagraphProperty
end

/-- `TableBorder`. elements/table_borders.rs:22-40. -/
structure TableBorder where
  position : TableBorderPosition
  borderType : BorderType := .single
  size : Nat := 2
  color : Str := c!"000000"
  space : Nat := 0
deriving DecidableEq

/-- `TableBorders`. elements/table_borders.rs:79-99. -/
structure TableBorders where
  top : Option TableBorder := some { position := .top }
  left : Option TableBorder := some { position := .left }
  bottom : Option TableBorder := some { position := .bottom }
  right : Option TableBorder := some { position := .right }
  insideH : Option TableBorder := some { position := .insideH }
  insideV : Option TableBorder := some { position := .insideV }
deriving DecidableEq

/-- `TableCellBorder`. elements/table_cell_borders.rs:24-42. -/
structure TableCellBorder where
  position : TableCellBorderPosition
  borderType : BorderType := .single
  size : Nat := 2
  color : Str := c!"000000"
  space : Nat := 0
deriving DecidableEq

/-- `TableCellBorders`. elements/table_cell_borders.rs:96-120. -/
structure TableCellBorders where
  top : Option TableCellBorder := some { position := .top }
  left : Option TableCellBorder := some { position := .left }
  bottom : Option TableCellBorder := some { position := .bottom }
  right : Option TableCellBorder := some { position := .right }
  insideH : Option TableCellBorder := some { position := .insideH }
  insideV : Option TableCellBorder := some { position := .insideV }
  tr2bl : Option TableCellBorder := none
  tl2br : Option TableCellBorder := none
deriving DecidableEq

/-- `CellMargin`. elements/cell_margins.rs:10-30. -/
structure CellMargin where
  val : Nat := 55
  widthType : WidthType := .dxa
deriving DecidableEq

/-- `CellMargins`. elements/cell_margins.rs:32-41. -/
structure CellMargins where
  top : Option CellMargin := none
  left : Option CellMargin := none
  bottom : Option CellMargin := none
  right : Option CellMargin := none
deriving DecidableEq

/-- `TableCellMargins`. elements/table_cell_margins.rs:11-33. -/
structure TableCellMargins where
  top : CellMargin := { val := 0 }
  left : CellMargin := {}
  bottom : CellMargin := { val := 0 }
  right : CellMargin := {}
deriving DecidableEq

/-- `TablePositionProperty`. elements/table_position_property.rs:11-28. -/
structure TablePositionProperty where
  leftFromText : Option Int := none
  rightFromText : Option Int := none
  verticalAnchor : Option Str := none
  horizontalAnchor : Option Str := none
  positionXAlignment : Option Str := none
  positionYAlignment : Option Str := none
  positionX : Option Int := none
  positionY : Option Int := none
deriving DecidableEq

/-- `TableWidth`, `TableCellWidth`. elements/table_width.rs:10-13, elements/table_cell_width.rs:10-13. -/
structure Width where
  width : Nat
  widthType : WidthType
deriving DecidableEq

/-- `TableIndent`. elements/table_indent.rs:10-13. -/
structure TableIndent where
  width : Int
  widthType : WidthType
deriving DecidableEq

/-- `TableProperty`. elements/table_property.rs:14-43. -/
structure TableProperty where
  width : Width := ⟨0, .auto⟩
  justification : Str := c!"left"
  borders : TableBorders := {}
  margins : Option TableCellMargins := none
  indent : Option TableIndent := none
  style : Option Str := none
  layout : Option TableLayoutType := none
  position : Option TablePositionProperty := none
deriving DecidableEq

/-- `TableRowProperty`. elements/table_row_property.rs:10-25. Simplification: the `f32` fields hold
the decimal text that `format!("{h}")` gives (floating point formatting is not modelled). -/
structure TableRowProperty where
  gridAfter : Option Nat := none
  widthAfter : Option Str := none
  gridBefore : Option Nat := none
  widthBefore : Option Str := none
  rowHeight : Option Str := none
  heightRule : Option HeightRule := none
  del : Option Mark := none
  ins : Option Mark := none
  cantSplit : Option Unit := none
deriving DecidableEq

/-- `TableCellProperty`. elements/table_cell_property.rs:14-24. -/
structure TableCellProperty where
  width : Option Width := none
  borders : Option TableCellBorders := none
  gridSpan : Option Nat := none
  verticalMerge : Option VMergeType := none
  verticalAlign : Option VAlignType := none
  textDirection : Option TextDirectionType := none
  shading : Option Shading := none
  margins : Option CellMargins := none
deriving DecidableEq

/-- `DataBinding`. elements/data_binding.rs:8-12. -/
structure DataBinding where
  xpath : Option Str := none
  prefixMappings : Option Str := none
  storeItemId : Option Str := none
deriving DecidableEq

/-- `StructuredDataTagProperty`. elements/structured_data_tag_property.rs:11-25. -/
structure SdtProperty where
  runProperty : RunProperty := {}
  dataBinding : Option DataBinding := none
  alias : Option Str := none
deriving DecidableEq

/-- `DrawingPosition`. types/drawing_position.rs. -/
inductive DrawingPosition where
  | offset (x : Int)
  | align (a : PicAlign)
deriving DecidableEq

/-- `Pic`. elements/pic.rs:12-28, defaults 79-102. Bytes are `UInt8`. -/
structure Pic where
  id : Str
  image : List UInt8
  size : Nat × Nat
  positionType : DrawingPositionType := .inline
  simplePos : Bool := false
  simplePosX : Int := 0
  simplePosY : Int := 0
  layoutInCell : Bool := false
  relativeHeight : Nat := 190500
  allowOverlap : Bool := false
  positionH : DrawingPosition := .offset 0
  positionV : DrawingPosition := .offset 0
  relativeFromH : RelativeFromHType := .margin
  relativeFromV : RelativeFromVType := .margin
  distT : Int := 0
  distB : Int := 0
  distL : Int := 0
  distR : Int := 0
  rot : Nat := 0
deriving DecidableEq

/-- `InstrToC`. elements/instr_toc.rs:22-71. -/
structure InstrToC where
  headingStylesRange : Option (Nat × Nat) := none
  tcFieldLevelRange : Option (Nat × Nat) := none
  omitPageNumbersLevelRange : Option (Nat × Nat) := none
  entryBookmarkName : Option Str := none
  stylesWithLevels : List (Str × Nat) := []
  entryAndPageNumberSeparator : Option Str := none
  sequenceAndPageNumbersSeparator : Option Str := none
  captionLabel : Option Str := none
  captionLabelIncludingNumbers : Option Str := none
  seqFieldIdentifierForPrefix : Option Str := none
  tcFieldIdentifier : Option (Option Str) := none
  hyperlink : Bool := false
  preserveTab : Bool := false
  preserveNewLine : Bool := false
  useAppliedParagraphLineLevel : Bool := false
  hideTabAndPageNumbersInWebview : Bool := false
deriving DecidableEq

/-- `InstrTC`. elements/instr_tc.rs:11-18. -/
structure InstrTC where
  text : Str
  omitsPageNumber : Bool := false
  level : Option Nat := none
  itemTypeIdentifier : Option Str := none
deriving DecidableEq

/-- `InstrPAGEREF`. elements/instr_pageref.rs:10-14. -/
structure InstrPAGEREF where
  pageRef : Str
  hyperlink : Bool := false
  relativePosition : Bool := false
deriving DecidableEq

/-- `InstrHyperlink`. elements/instr_hyperlink.rs:8-12. -/
structure InstrHyperlink where
  target : Str
  anchor : Bool := false
deriving DecidableEq

/-- `InstrText`. elements/instr_text.rs:9-17. -/
inductive InstrText where
  | toc (i : InstrToC)
  | tc (i : InstrTC)
  | page
  | numPages
  | pageRef (i : InstrPAGEREF)
  | hyperlink (i : InstrHyperlink)
  | unsupported (s : Str)
deriving DecidableEq

/-- `DeleteInstrText`. elements/delete_instr_text.rs:9-15. -/
inductive DeleteInstrText where
  | toc (i : InstrToC)
  | tc (i : InstrTC)
  | pageRef (i : InstrPAGEREF)
  | hyperlink (i : InstrHyperlink)
  | unsupported (s : Str)
deriving DecidableEq

/-- `HyperlinkData`. elements/hyperlink.rs:13-23. -/
inductive HyperlinkData where
  | external (rid path : Str)
  | anchor (anchor : Str)
deriving DecidableEq

/-- `TableOfContentsItem`. elements/table_of_contents_item.rs:9-16. -/
structure TocItem where
  instr : InstrToC := {}
  text : Str := []
  tocKey : Str := []
  level : Nat := 1
  dirty : Bool := false
  pageRef : Option Str := none
deriving DecidableEq

end Docx
