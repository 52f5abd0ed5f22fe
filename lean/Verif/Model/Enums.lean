import Verif.Model.Base

/-!
# The `ST_*` enumerations of the API and their tokens

Models every fieldless enumeration of `docx-core/src/types/*.rs` with its `Display` (the token
written in attributes) and `FromStr` (the token read back).  `toStr` models `Display::fmt`;
`fromStr` models `FromStr::from_str` with `Err(_)` as `none` (the error payload is dropped).
The `match` on string literals is an `if` chain in source order.
-/

namespace Docx

/-- `AlignmentType`: `docx-core/src/types/alignment_type.rs:14-23`. -/
inductive AlignmentType
  | both | center | distribute | start | end_ | left | right | justified
  deriving DecidableEq, Repr

/-- `Display for AlignmentType`: `docx-core/src/types/alignment_type.rs:25-38`. -/
def AlignmentType.toStr : AlignmentType → Str
  | .center => c!"center"
  | .left => c!"left"
  | .distribute => c!"distribute"
  | .right => c!"right"
  | .start => c!"start"
  | .end_ => c!"end"
  | .both => c!"both"
  | .justified => c!"justified"

/-- `FromStr for AlignmentType`: `docx-core/src/types/alignment_type.rs:40-55`. -/
def AlignmentType.fromStr (s : Str) : Option AlignmentType :=
  if s = c!"left" then some .left else
  if s = c!"right" then some .right else
  if s = c!"distribute" then some .distribute else
  if s = c!"center" then some .center else
  if s = c!"both" then some .both else
  if s = c!"start" then some .start else
  if s = c!"end" then some .end_ else
  if s = c!"justified" then some .justified else
  some .left

/-- `TableBorderPosition`: `docx-core/src/types/border_position.rs:8-15`. -/
inductive TableBorderPosition
  | left | right | top | bottom | insideH | insideV
  deriving DecidableEq, Repr

/-- `TableCellBorderPosition`: `docx-core/src/types/border_position.rs:20-29`. -/
inductive TableCellBorderPosition
  | left | right | top | bottom | insideH | insideV | tl2br | tr2bl
  deriving DecidableEq, Repr

/-- `ParagraphBorderPosition`: `docx-core/src/types/border_position.rs:34-41`. -/
inductive ParagraphBorderPosition
  | left | right | top | bottom | between | bar
  deriving DecidableEq, Repr

/-- `BorderType`: `docx-core/src/types/border_type.rs:15-47`. -/
inductive BorderType
  | nil | none_ | single | thick | double | dotted | dashed | dotDash | dotDotDash | triple | thinThickSmallGap | thickThinSmallGap | thinThickThinSmallGap | thinThickMediumGap | thickThinMediumGap | thinThickThinMediumGap | thinThickLargeGap | thickThinLargeGap | thinThickThinLargeGap | wave | doubleWave | dashSmallGap | dashDotStroked | threeDEmboss | threeDEngrave | outset | inset | apples | archedScallops | babyPacifier | babyRattle
  deriving DecidableEq, Repr

/-- `Display for BorderType`: `docx-core/src/types/border_type.rs:49-85`. -/
def BorderType.toStr : BorderType → Str
  | .nil => c!"nil"
  | .none_ => c!"none"
  | .single => c!"single"
  | .thick => c!"thick"
  | .double => c!"double"
  | .dotted => c!"dotted"
  | .dashed => c!"dashed"
  | .dotDash => c!"dotDash"
  | .dotDotDash => c!"dotDotDash"
  | .triple => c!"triple"
  | .thinThickSmallGap => c!"thinThickSmallGap"
  | .thickThinSmallGap => c!"thickThinSmallGap"
  | .thinThickThinSmallGap => c!"thinThickThinSmallGap"
  | .thinThickMediumGap => c!"thinThickMediumGap"
  | .thickThinMediumGap => c!"thickThinMediumGap"
  | .thinThickThinMediumGap => c!"thinThickThinMediumGap"
  | .thinThickLargeGap => c!"thinThickLargeGap"
  | .thickThinLargeGap => c!"thickThinLargeGap"
  | .thinThickThinLargeGap => c!"thinThickThinLargeGap"
  | .wave => c!"wave"
  | .doubleWave => c!"doubleWave"
  | .dashSmallGap => c!"dashSmallGap"
  | .dashDotStroked => c!"dashDotStroked"
  | .threeDEmboss => c!"threeDEmboss"
  | .threeDEngrave => c!"threeDEngrave"
  | .outset => c!"outset"
  | .inset => c!"inset"
  | .apples => c!"apples"
  | .archedScallops => c!"archedScallops"
  | .babyPacifier => c!"babyPacifier"
  | .babyRattle => c!"babyRattle"

/-- `FromStr for BorderType`: `docx-core/src/types/border_type.rs:87-125`. -/
def BorderType.fromStr (s : Str) : Option BorderType :=
  if s = c!"nil" then some .nil else
  if s = c!"none" then some .none_ else
  if s = c!"single" then some .single else
  if s = c!"thick" then some .thick else
  if s = c!"double" then some .double else
  if s = c!"dotted" then some .dotted else
  if s = c!"dashed" then some .dashed else
  if s = c!"dotDash" then some .dotDash else
  if s = c!"dotDotDash" then some .dotDotDash else
  if s = c!"triple" then some .triple else
  if s = c!"thinThickSmallGap" then some .thinThickSmallGap else
  if s = c!"thickThinSmallGap" then some .thickThinSmallGap else
  if s = c!"thinThickThinSmallGap" then some .thinThickThinSmallGap else
  if s = c!"thinThickMediumGap" then some .thinThickMediumGap else
  if s = c!"thickThinMediumGap" then some .thickThinMediumGap else
  if s = c!"thinThickThinMediumGap" then some .thinThickThinMediumGap else
  if s = c!"thinThickLargeGap" then some .thinThickLargeGap else
  if s = c!"thickThinLargeGap" then some .thickThinLargeGap else
  if s = c!"thinThickThinLargeGap" then some .thinThickThinLargeGap else
  if s = c!"wave" then some .wave else
  if s = c!"doubleWave" then some .doubleWave else
  if s = c!"dashSmallGap" then some .dashSmallGap else
  if s = c!"dashDotStroked" then some .dashDotStroked else
  if s = c!"threeDEmboss" then some .threeDEmboss else
  if s = c!"threeDEngrave" then some .threeDEngrave else
  if s = c!"outset" then some .outset else
  if s = c!"inset" then some .inset else
  if s = c!"apples" then some .apples else
  if s = c!"archedScallops" then some .archedScallops else
  if s = c!"babyPacifier" then some .babyPacifier else
  if s = c!"babyRattle" then some .babyRattle else
  some .single

/-- `BreakType`: `docx-core/src/types/break_type.rs:16-21`. -/
inductive BreakType
  | page | column | textWrapping | unsupported
  deriving DecidableEq, Repr

/-- `Display for BreakType`: `docx-core/src/types/break_type.rs:23-32`. -/
def BreakType.toStr : BreakType → Str
  | .page => c!"page"
  | .column => c!"column"
  | .textWrapping => c!"textWrapping"
  | .unsupported => c!"unsupported"

/-- `FromStr for BreakType`: `docx-core/src/types/break_type.rs:34-44`. -/
def BreakType.fromStr (s : Str) : Option BreakType :=
  if s = c!"page" then some .page else
  if s = c!"column" then some .column else
  if s = c!"textWrapping" then some .textWrapping else
  some .unsupported

/-- `CharacterSpacingValues`: `docx-core/src/types/character_spacing_values.rs:12-17`. -/
inductive CharacterSpacingValues
  | doNotCompress | compressPunctuation | compressPunctuationAndJapaneseKana | unsupported
  deriving DecidableEq, Repr

/-- `Display for CharacterSpacingValues`: `docx-core/src/types/character_spacing_values.rs:19-30`. -/
def CharacterSpacingValues.toStr : CharacterSpacingValues → Str
  | .doNotCompress => c!"doNotCompress"
  | .compressPunctuation => c!"compressPunctuation"
  | .compressPunctuationAndJapaneseKana => c!"compressPunctuationAndJapaneseKana"
  | _ => c!"unsupported"

/-- `FromStr for CharacterSpacingValues`: `docx-core/src/types/character_spacing_values.rs:32-44`. -/
def CharacterSpacingValues.fromStr (s : Str) : Option CharacterSpacingValues :=
  if s = c!"doNotCompress" then some .doNotCompress else
  if s = c!"compressPunctuation" then some .compressPunctuation else
  if s = c!"compressPunctuationAndJapaneseKana" then some .compressPunctuationAndJapaneseKana else
  none

/-- `DocGridType`: `docx-core/src/types/doc_grid_type.rs:13-18`. -/
inductive DocGridType
  | default_ | lines | linesAndChars | snapToChars
  deriving DecidableEq, Repr

/-- `Display for DocGridType`: `docx-core/src/types/doc_grid_type.rs:20-29`. -/
def DocGridType.toStr : DocGridType → Str
  | .default_ => c!"default"
  | .lines => c!"lines"
  | .linesAndChars => c!"linesAndChars"
  | .snapToChars => c!"snapToChars"

/-- `FromStr for DocGridType`: `docx-core/src/types/doc_grid_type.rs:31-42`. -/
def DocGridType.fromStr (s : Str) : Option DocGridType :=
  if s = c!"default" then some .default_ else
  if s = c!"lines" then some .lines else
  if s = c!"linesAndChars" then some .linesAndChars else
  if s = c!"snapToChars" then some .snapToChars else
  none

/-- `DrawingPositionType`: `docx-core/src/types/drawing_position.rs:12-15`. -/
inductive DrawingPositionType
  | anchor | inline
  deriving DecidableEq, Repr

/-- `PicAlign`: `docx-core/src/types/drawing_position.rs:22-28`. -/
inductive PicAlign
  | left | right | center | bottom | top
  deriving DecidableEq, Repr

/-- `Display for PicAlign`: `docx-core/src/types/drawing_position.rs:30-40`. -/
def PicAlign.toStr : PicAlign → Str
  | .left => c!"left"
  | .right => c!"right"
  | .center => c!"center"
  | .bottom => c!"bottom"
  | .top => c!"top"

/-- `FieldCharType`: `docx-core/src/types/field_char_type.rs:18-23`. -/
inductive FieldCharType
  | begin | separate | end_ | unsupported
  deriving DecidableEq, Repr

/-- `Display for FieldCharType`: `docx-core/src/types/field_char_type.rs:25-34`. -/
def FieldCharType.toStr : FieldCharType → Str
  | .begin => c!"begin"
  | .separate => c!"separate"
  | .end_ => c!"end"
  | .unsupported => c!"unsupported"

/-- `FromStr for FieldCharType`: `docx-core/src/types/field_char_type.rs:36-46`. -/
def FieldCharType.fromStr (s : Str) : Option FieldCharType :=
  if s = c!"begin" then some .begin else
  if s = c!"separate" then some .separate else
  if s = c!"end" then some .end_ else
  some .unsupported

/-- `FontPitchType`: `docx-core/src/types/font_pitch_type.rs:7-11`. -/
inductive FontPitchType
  | default_ | fixed | variable
  deriving DecidableEq, Repr

/-- `Display for FontPitchType`: `docx-core/src/types/font_pitch_type.rs:13-21`. -/
def FontPitchType.toStr : FontPitchType → Str
  | .default_ => c!"default"
  | .fixed => c!"fixed"
  | .variable => c!"variable"

/-- `HeightRule`: `docx-core/src/types/height_rule.rs:13-18`. -/
inductive HeightRule
  | auto | atLeast | exact
  deriving DecidableEq, Repr

/-- `Display for HeightRule`: `docx-core/src/types/height_rule.rs:20-28`. -/
def HeightRule.toStr : HeightRule → Str
  | .auto => c!"auto"
  | .atLeast => c!"atLeast"
  | .exact => c!"exact"

/-- `FromStr for HeightRule`: `docx-core/src/types/height_rule.rs:30-40`. -/
def HeightRule.fromStr (s : Str) : Option HeightRule :=
  if s = c!"auto" then some .auto else
  if s = c!"atLeast" then some .atLeast else
  if s = c!"exact" then some .exact else
  some .atLeast

/-- `HyperlinkType`: `docx-core/src/types/hyperlink_type.rs:15-18`. -/
inductive HyperlinkType
  | anchor | external
  deriving DecidableEq, Repr

/-- `Display for HyperlinkType`: `docx-core/src/types/hyperlink_type.rs:20-27`. -/
def HyperlinkType.toStr : HyperlinkType → Str
  | .anchor => c!"anchor"
  | .external => c!"external"

/-- `FromStr for HyperlinkType`: `docx-core/src/types/hyperlink_type.rs:29-38`. -/
def HyperlinkType.fromStr (s : Str) : Option HyperlinkType :=
  if s = c!"anchor" then some .anchor else
  if s = c!"external" then some .external else
  some .anchor

/-- `LevelSuffixType`: `docx-core/src/types/level_suffix_type.rs:13-17`. -/
inductive LevelSuffixType
  | nothing | space | tab
  deriving DecidableEq, Repr

/-- `Display for LevelSuffixType`: `docx-core/src/types/level_suffix_type.rs:19-27`. -/
def LevelSuffixType.toStr : LevelSuffixType → Str
  | .nothing => c!"nothing"
  | .space => c!"space"
  | .tab => c!"tab"

/-- `FromStr for LevelSuffixType`: `docx-core/src/types/level_suffix_type.rs:29-39`. -/
def LevelSuffixType.fromStr (s : Str) : Option LevelSuffixType :=
  if s = c!"nothing" then some .nothing else
  if s = c!"space" then some .space else
  if s = c!"tab" then some .tab else
  some .tab

/-- `LineSpacingType`: `docx-core/src/types/line_spacing_type.rs:11-15`. -/
inductive LineSpacingType
  | auto | atLeast | exact
  deriving DecidableEq, Repr

/-- `FromStr for LineSpacingType`: `docx-core/src/types/line_spacing_type.rs:17-27`. -/
def LineSpacingType.fromStr (s : Str) : Option LineSpacingType :=
  if s = c!"auto" then some .auto else
  if s = c!"atLeast" then some .atLeast else
  if s = c!"exact" then some .exact else
  none

/-- `PageOrientationType`: `docx-core/src/types/page_orientation_type.rs:13-16`. -/
inductive PageOrientationType
  | landscape | portrait
  deriving DecidableEq, Repr

/-- `Display for PageOrientationType`: `docx-core/src/types/page_orientation_type.rs:18-25`. -/
def PageOrientationType.toStr : PageOrientationType → Str
  | .landscape => c!"landscape"
  | .portrait => c!"portrait"

/-- `FromStr for PageOrientationType`: `docx-core/src/types/page_orientation_type.rs:27-36`. -/
def PageOrientationType.fromStr (s : Str) : Option PageOrientationType :=
  if s = c!"landscape" then some .landscape else
  if s = c!"portrait" then some .portrait else
  some .portrait

/-- `PositionalTabAlignmentType`: `docx-core/src/types/positional_tab_alignment_type.rs:15-19`. -/
inductive PositionalTabAlignmentType
  | center | left | right
  deriving DecidableEq, Repr

/-- `Display for PositionalTabAlignmentType`: `docx-core/src/types/positional_tab_alignment_type.rs:21-29`. -/
def PositionalTabAlignmentType.toStr : PositionalTabAlignmentType → Str
  | .center => c!"center"
  | .left => c!"left"
  | .right => c!"right"

/-- `FromStr for PositionalTabAlignmentType`: `docx-core/src/types/positional_tab_alignment_type.rs:31-41`. -/
def PositionalTabAlignmentType.fromStr (s : Str) : Option PositionalTabAlignmentType :=
  if s = c!"center" then some .center else
  if s = c!"right" then some .right else
  if s = c!"left" then some .left else
  none

/-- `PositionalTabRelativeTo`: `docx-core/src/types/positional_tab_relative_to.rs:15-18`. -/
inductive PositionalTabRelativeTo
  | indent | margin
  deriving DecidableEq, Repr

/-- `Display for PositionalTabRelativeTo`: `docx-core/src/types/positional_tab_relative_to.rs:20-27`. -/
def PositionalTabRelativeTo.toStr : PositionalTabRelativeTo → Str
  | .indent => c!"indent"
  | .margin => c!"margin"

/-- `FromStr for PositionalTabRelativeTo`: `docx-core/src/types/positional_tab_relative_to.rs:29-38`. -/
def PositionalTabRelativeTo.fromStr (s : Str) : Option PositionalTabRelativeTo :=
  if s = c!"indent" then some .indent else
  if s = c!"margin" then some .margin else
  none

/-- `RelativeFromHType`: `docx-core/src/types/relative_from_type.rs:16-46`. -/
inductive RelativeFromHType
  | character | column | insideMargin | leftMargin | margin | outsizeMargin | page | rightMargin
  deriving DecidableEq, Repr

/-- `Display for RelativeFromHType`: `docx-core/src/types/relative_from_type.rs:48-61`. -/
def RelativeFromHType.toStr : RelativeFromHType → Str
  | .character => c!"character"
  | .column => c!"column"
  | .insideMargin => c!"insideMargin"
  | .leftMargin => c!"leftMargin"
  | .margin => c!"margin"
  | .outsizeMargin => c!"outsizeMargin"
  | .page => c!"page"
  | .rightMargin => c!"rightMargin"

/-- `FromStr for RelativeFromHType`: `docx-core/src/types/relative_from_type.rs:63-78`. -/
def RelativeFromHType.fromStr (s : Str) : Option RelativeFromHType :=
  if s = c!"character" then some .character else
  if s = c!"column" then some .column else
  if s = c!"insideMargin" then some .insideMargin else
  if s = c!"leftMargin" then some .leftMargin else
  if s = c!"margin" then some .margin else
  if s = c!"outsizeMargin" then some .outsizeMargin else
  if s = c!"page" then some .page else
  if s = c!"rightMargin" then some .rightMargin else
  some .margin

/-- `RelativeFromVType`: `docx-core/src/types/relative_from_type.rs:85-95`. -/
inductive RelativeFromVType
  | bottomMargin | insideMargin | line | margin | outsizeMargin | page | paragraph | topMargin
  deriving DecidableEq, Repr

/-- `Display for RelativeFromVType`: `docx-core/src/types/relative_from_type.rs:97-110`. -/
def RelativeFromVType.toStr : RelativeFromVType → Str
  | .bottomMargin => c!"bottomMargin"
  | .insideMargin => c!"insideMargin"
  | .line => c!"line"
  | .margin => c!"margin"
  | .outsizeMargin => c!"outsideMargin"
  | .page => c!"page"
  | .paragraph => c!"paragraph"
  | .topMargin => c!"topMargin"

/-- `FromStr for RelativeFromVType`: `docx-core/src/types/relative_from_type.rs:112-127`. -/
def RelativeFromVType.fromStr (s : Str) : Option RelativeFromVType :=
  if s = c!"bottomMargin" then some .bottomMargin else
  if s = c!"insideMargin" then some .insideMargin else
  if s = c!"line" then some .line else
  if s = c!"margin" then some .margin else
  if s = c!"outsizeMargin" then some .outsizeMargin else
  if s = c!"page" then some .page else
  if s = c!"paragraph" then some .paragraph else
  if s = c!"topMargin" then some .topMargin else
  some .margin

/-- `SectionType`: `docx-core/src/types/section_type.rs:22-28`. -/
inductive SectionType
  | nextPage | nextColumn | continuous | evenPage | oddPage
  deriving DecidableEq, Repr

/-- `Display for SectionType`: `docx-core/src/types/section_type.rs:30-40`. -/
def SectionType.toStr : SectionType → Str
  | .nextPage => c!"nextPage"
  | .nextColumn => c!"nextColumn"
  | .continuous => c!"continuous"
  | .evenPage => c!"evenPage"
  | .oddPage => c!"oddPage"

/-- `FromStr for SectionType`: `docx-core/src/types/section_type.rs:42-54`. -/
def SectionType.fromStr (s : Str) : Option SectionType :=
  if s = c!"nextPage" then some .nextPage else
  if s = c!"nextColumn" then some .nextColumn else
  if s = c!"continuous" then some .continuous else
  if s = c!"evenPage" then some .evenPage else
  if s = c!"oddPage" then some .oddPage else
  some .continuous

/-- `ShdType`: `docx-core/src/types/shd_type.rs:53-92`. -/
inductive ShdType
  | nil | clear | solid | horzStripe | vertStripe | reverseDiagStripe | diagStripe | horzCross | diagCross | thinHorzStripe | thinVertStripe | thinReverseDiagStripe | thinDiagStripe | thinHorzCross | thinDiagCross | pct5 | pct10 | pct12 | pct15 | pct20 | pct25 | pct30 | pct35 | pct37 | pct40 | pct45 | pct50 | pct55 | pct60 | pct62 | pct65 | pct70 | pct75 | pct80 | pct85 | pct87 | pct90 | pct95
  deriving DecidableEq, Repr

/-- `Display for ShdType`: `docx-core/src/types/shd_type.rs:94-137`. -/
def ShdType.toStr : ShdType → Str
  | .nil => c!"nil"
  | .clear => c!"clear"
  | .solid => c!"solid"
  | .horzStripe => c!"horzStripe"
  | .vertStripe => c!"vertStripe"
  | .reverseDiagStripe => c!"reverseDiagStripe"
  | .diagStripe => c!"diagStripe"
  | .horzCross => c!"horzCross"
  | .diagCross => c!"diagCross"
  | .thinHorzStripe => c!"thinHorzStripe"
  | .thinVertStripe => c!"thinVertStripe"
  | .thinReverseDiagStripe => c!"thinReverseDiagStripe"
  | .thinDiagStripe => c!"thinDiagStripe"
  | .thinHorzCross => c!"thinHorzCross"
  | .thinDiagCross => c!"thinDiagCross"
  | .pct5 => c!"pct5"
  | .pct10 => c!"pct10"
  | .pct12 => c!"pct12"
  | .pct15 => c!"pct15"
  | .pct20 => c!"pct20"
  | .pct25 => c!"pct25"
  | .pct30 => c!"pct30"
  | .pct35 => c!"pct35"
  | .pct37 => c!"pct37"
  | .pct40 => c!"pct40"
  | .pct45 => c!"pct45"
  | .pct50 => c!"pct50"
  | .pct55 => c!"pct55"
  | .pct60 => c!"pct60"
  | .pct62 => c!"pct62"
  | .pct65 => c!"pct65"
  | .pct70 => c!"pct70"
  | .pct75 => c!"pct75"
  | .pct80 => c!"pct80"
  | .pct85 => c!"pct85"
  | .pct87 => c!"pct87"
  | .pct90 => c!"pct90"
  | .pct95 => c!"pct95"

/-- `FromStr for ShdType`: `docx-core/src/types/shd_type.rs:139-184`. -/
def ShdType.fromStr (s : Str) : Option ShdType :=
  if s = c!"nil" then some .nil else
  if s = c!"clear" then some .clear else
  if s = c!"solid" then some .solid else
  if s = c!"horzStripe" then some .horzStripe else
  if s = c!"vertStripe" then some .vertStripe else
  if s = c!"reverseDiagStripe" then some .reverseDiagStripe else
  if s = c!"diagStripe" then some .diagStripe else
  if s = c!"horzCross" then some .horzCross else
  if s = c!"diagCross" then some .diagCross else
  if s = c!"thinHorzStripe" then some .thinHorzStripe else
  if s = c!"thinVertStripe" then some .thinVertStripe else
  if s = c!"thinReverseDiagStripe" then some .thinReverseDiagStripe else
  if s = c!"thinDiagStripe" then some .thinDiagStripe else
  if s = c!"thinHorzCross" then some .thinHorzCross else
  if s = c!"thinDiagCross" then some .thinDiagCross else
  if s = c!"pct5" then some .pct5 else
  if s = c!"pct10" then some .pct10 else
  if s = c!"pct12" then some .pct12 else
  if s = c!"pct15" then some .pct15 else
  if s = c!"pct20" then some .pct20 else
  if s = c!"pct25" then some .pct25 else
  if s = c!"pct30" then some .pct30 else
  if s = c!"pct35" then some .pct35 else
  if s = c!"pct37" then some .pct37 else
  if s = c!"pct40" then some .pct40 else
  if s = c!"pct45" then some .pct45 else
  if s = c!"pct50" then some .pct50 else
  if s = c!"pct55" then some .pct55 else
  if s = c!"pct60" then some .pct60 else
  if s = c!"pct62" then some .pct62 else
  if s = c!"pct65" then some .pct65 else
  if s = c!"pct70" then some .pct70 else
  if s = c!"pct75" then some .pct75 else
  if s = c!"pct80" then some .pct80 else
  if s = c!"pct85" then some .pct85 else
  if s = c!"pct87" then some .pct87 else
  if s = c!"pct90" then some .pct90 else
  if s = c!"pct95" then some .pct95 else
  none

/-- `SpecialIndentKind`: `docx-core/src/types/special_indent_type.rs:17-20`. -/
inductive SpecialIndentKind
  | firstLine | hanging
  deriving DecidableEq, Repr

/-- `StyleType`: `docx-core/src/types/style_type.rs:12-18`. -/
inductive StyleType
  | paragraph | character | numbering | table | unsupported
  deriving DecidableEq, Repr

/-- `Display for StyleType`: `docx-core/src/types/style_type.rs:20-30`. -/
def StyleType.toStr : StyleType → Str
  | .paragraph => c!"paragraph"
  | .character => c!"character"
  | .numbering => c!"numbering"
  | .table => c!"table"
  | .unsupported => c!"unsupported"

/-- `FromStr for StyleType`: `docx-core/src/types/style_type.rs:32-43`. -/
def StyleType.fromStr (s : Str) : Option StyleType :=
  if s = c!"paragraph" then some .paragraph else
  if s = c!"character" then some .character else
  if s = c!"numbering" then some .numbering else
  if s = c!"table" then some .table else
  some .unsupported

/-- `TabLeaderType`: `docx-core/src/types/tab_leader_type.rs:15-22`. -/
inductive TabLeaderType
  | dot | heavy | hyphen | middleDot | none_ | underscore
  deriving DecidableEq, Repr

/-- `Display for TabLeaderType`: `docx-core/src/types/tab_leader_type.rs:24-35`. -/
def TabLeaderType.toStr : TabLeaderType → Str
  | .dot => c!"dot"
  | .heavy => c!"heavy"
  | .hyphen => c!"hyphen"
  | .middleDot => c!"middleDot"
  | .none_ => c!"none"
  | .underscore => c!"underscore"

/-- `FromStr for TabLeaderType`: `docx-core/src/types/tab_leader_type.rs:37-50`. -/
def TabLeaderType.fromStr (s : Str) : Option TabLeaderType :=
  if s = c!"dot" then some .dot else
  if s = c!"heavy" then some .heavy else
  if s = c!"hyphen" then some .hyphen else
  if s = c!"middleDot" then some .middleDot else
  if s = c!"none" then some .none_ else
  if s = c!"underscore" then some .underscore else
  none

/-- `TabValueType`: `docx-core/src/types/tab_value_type.rs:15-25`. -/
inductive TabValueType
  | bar | center | clear | decimal | end_ | right | num | start | left
  deriving DecidableEq, Repr

/-- `Display for TabValueType`: `docx-core/src/types/tab_value_type.rs:27-41`. -/
def TabValueType.toStr : TabValueType → Str
  | .bar => c!"bar"
  | .center => c!"center"
  | .clear => c!"clear"
  | .decimal => c!"decimal"
  | .end_ => c!"end"
  | .right => c!"right"
  | .num => c!"num"
  | .start => c!"start"
  | .left => c!"left"

/-- `FromStr for TabValueType`: `docx-core/src/types/tab_value_type.rs:43-59`. -/
def TabValueType.fromStr (s : Str) : Option TabValueType :=
  if s = c!"bar" then some .bar else
  if s = c!"center" then some .center else
  if s = c!"clear" then some .clear else
  if s = c!"decimal" then some .decimal else
  if s = c!"end" then some .end_ else
  if s = c!"right" then some .right else
  if s = c!"num" then some .num else
  if s = c!"start" then some .start else
  if s = c!"left" then some .left else
  none

/-- `TableAlignmentType`: `docx-core/src/types/table_alignment_type.rs:10-14`. -/
inductive TableAlignmentType
  | center | left | right
  deriving DecidableEq, Repr

/-- `Display for TableAlignmentType`: `docx-core/src/types/table_alignment_type.rs:16-24`. -/
def TableAlignmentType.toStr : TableAlignmentType → Str
  | .center => c!"center"
  | .left => c!"left"
  | .right => c!"right"

/-- `FromStr for TableAlignmentType`: `docx-core/src/types/table_alignment_type.rs:26-36`. -/
def TableAlignmentType.fromStr (s : Str) : Option TableAlignmentType :=
  if s = c!"start" ∨ s = c!"left" then some .left else
  if s = c!"right" ∨ s = c!"end" then some .right else
  if s = c!"center" then some .center else
  some .left

/-- `TableLayoutType`: `docx-core/src/types/table_layout_type.rs:12-15`. -/
inductive TableLayoutType
  | fixed | autofit
  deriving DecidableEq, Repr

/-- `Display for TableLayoutType`: `docx-core/src/types/table_layout_type.rs:17-24`. -/
def TableLayoutType.toStr : TableLayoutType → Str
  | .fixed => c!"fixed"
  | .autofit => c!"autofit"

/-- `FromStr for TableLayoutType`: `docx-core/src/types/table_layout_type.rs:26-34`. -/
def TableLayoutType.fromStr (s : Str) : Option TableLayoutType :=
  if s = c!"fixed" then some .fixed else
  some .autofit

/-- `TextAlignmentType`: `docx-core/src/types/text_alignment_type.rs:13-19`. -/
inductive TextAlignmentType
  | auto | baseline | bottom | center | top
  deriving DecidableEq, Repr

/-- `Display for TextAlignmentType`: `docx-core/src/types/text_alignment_type.rs:21-31`. -/
def TextAlignmentType.toStr : TextAlignmentType → Str
  | .auto => c!"auto"
  | .baseline => c!"baseline"
  | .bottom => c!"bottom"
  | .center => c!"center"
  | .top => c!"top"

/-- `FromStr for TextAlignmentType`: `docx-core/src/types/text_alignment_type.rs:33-45`. -/
def TextAlignmentType.fromStr (s : Str) : Option TextAlignmentType :=
  if s = c!"auto" then some .auto else
  if s = c!"baseline" then some .baseline else
  if s = c!"bottom" then some .bottom else
  if s = c!"center" then some .center else
  if s = c!"top" then some .top else
  none

/-- `TextDirectionType`: `docx-core/src/types/text_direction_type.rs:15-26`. -/
inductive TextDirectionType
  | lr | lrV | rl | rlV | tb | tbV | tbRlV | tbRl | btLr | lrTbV
  deriving DecidableEq, Repr

/-- `Display for TextDirectionType`: `docx-core/src/types/text_direction_type.rs:28-43`. -/
def TextDirectionType.toStr : TextDirectionType → Str
  | .lr => c!"lr"
  | .lrV => c!"lrV"
  | .rl => c!"rl"
  | .rlV => c!"rlV"
  | .tb => c!"tb"
  | .tbV => c!"tbV"
  | .tbRlV => c!"tbRlV"
  | .tbRl => c!"tbRl"
  | .btLr => c!"btLr"
  | .lrTbV => c!"lrTbV"

/-- `FromStr for TextDirectionType`: `docx-core/src/types/text_direction_type.rs:45-62`. -/
def TextDirectionType.fromStr (s : Str) : Option TextDirectionType :=
  if s = c!"lr" then some .lr else
  if s = c!"lrV" then some .lrV else
  if s = c!"rl" then some .rl else
  if s = c!"rlV" then some .rlV else
  if s = c!"tb" then some .tb else
  if s = c!"tbV" then some .tbV else
  if s = c!"tbRlV" then some .tbRlV else
  if s = c!"tbRl" then some .tbRl else
  if s = c!"btLr" then some .btLr else
  if s = c!"lrTbV" then some .lrTbV else
  none

/-- `ThemeColor`: `docx-core/src/types/theme_color.rs:25-62`. -/
inductive ThemeColor
  | dark1 | light1 | dark2 | light2 | accent1 | accent2 | accent3 | accent4 | accent5 | accent6 | hyperlink | followedHyperlink | none_ | background1 | text1 | background2 | text2 | unsupported
  deriving DecidableEq, Repr

/-- `Display for ThemeColor`: `docx-core/src/types/theme_color.rs:64-87`. -/
def ThemeColor.toStr : ThemeColor → Str
  | .dark1 => c!"dark1"
  | .light1 => c!"light1"
  | .dark2 => c!"dark2"
  | .light2 => c!"light2"
  | .accent1 => c!"accent1"
  | .accent2 => c!"accent2"
  | .accent3 => c!"accent3"
  | .accent4 => c!"accent4"
  | .accent5 => c!"accent5"
  | .accent6 => c!"accent6"
  | .hyperlink => c!"hyperlink"
  | .followedHyperlink => c!"followedHyperlink"
  | .none_ => c!"none"
  | .background1 => c!"background1"
  | .text1 => c!"text1"
  | .background2 => c!"background2"
  | .text2 => c!"text2"
  | .unsupported => c!"unsupported"

/-- `FromStr for ThemeColor`: `docx-core/src/types/theme_color.rs:89-116`. -/
def ThemeColor.fromStr (s : Str) : Option ThemeColor :=
  if s = c!"dark1" then some .dark1 else
  if s = c!"light1" then some .light1 else
  if s = c!"dark2" then some .dark2 else
  if s = c!"light2" then some .light2 else
  if s = c!"accent1" then some .accent1 else
  if s = c!"accent2" then some .accent2 else
  if s = c!"accent3" then some .accent3 else
  if s = c!"accent4" then some .accent4 else
  if s = c!"accent5" then some .accent5 else
  if s = c!"accent6" then some .accent6 else
  if s = c!"hyperlink" then some .hyperlink else
  if s = c!"followedHyperlink" then some .followedHyperlink else
  if s = c!"none" then some .none_ else
  if s = c!"background1" then some .background1 else
  if s = c!"text1" then some .text1 else
  if s = c!"background2" then some .background2 else
  if s = c!"text2" then some .text2 else
  some .unsupported

/-- `VertAlignType`: `docx-core/src/types/vert_align_type.rs:10-15`. -/
inductive VertAlignType
  | baseline | superScript | subScript | unsupported
  deriving DecidableEq, Repr

/-- `Display for VertAlignType`: `docx-core/src/types/vert_align_type.rs:20-29`. -/
def VertAlignType.toStr : VertAlignType → Str
  | .superScript => c!"superscript"
  | .subScript => c!"subscript"
  | .baseline => c!"baseline"
  | _ => c!"unsupported"

/-- `FromStr for VertAlignType`: `docx-core/src/types/vert_align_type.rs:31-41`. -/
def VertAlignType.fromStr (s : Str) : Option VertAlignType :=
  if s = c!"subscript" then some .subScript else
  if s = c!"superscript" then some .superScript else
  if s = c!"baseline" then some .baseline else
  some .unsupported

/-- `VAlignType`: `docx-core/src/types/vertical_align_type.rs:10-15`. -/
inductive VAlignType
  | top | center | bottom | unsupported
  deriving DecidableEq, Repr

/-- `Display for VAlignType`: `docx-core/src/types/vertical_align_type.rs:17-26`. -/
def VAlignType.toStr : VAlignType → Str
  | .top => c!"top"
  | .center => c!"center"
  | .bottom => c!"bottom"
  | .unsupported => c!"unsupported"

/-- `FromStr for VAlignType`: `docx-core/src/types/vertical_align_type.rs:28-38`. -/
def VAlignType.fromStr (s : Str) : Option VAlignType :=
  if s = c!"top" then some .top else
  if s = c!"center" then some .center else
  if s = c!"bottom" then some .bottom else
  some .unsupported

/-- `VMergeType`: `docx-core/src/types/vertical_merge_type.rs:10-14`. -/
inductive VMergeType
  | continue_ | restart | unsupported
  deriving DecidableEq, Repr

/-- `Display for VMergeType`: `docx-core/src/types/vertical_merge_type.rs:16-24`. -/
def VMergeType.toStr : VMergeType → Str
  | .continue_ => c!"continue"
  | .restart => c!"restart"
  | .unsupported => c!"unsupported"

/-- `FromStr for VMergeType`: `docx-core/src/types/vertical_merge_type.rs:26-35`. -/
def VMergeType.fromStr (s : Str) : Option VMergeType :=
  if s = c!"continue" then some .continue_ else
  if s = c!"restart" then some .restart else
  some .unsupported

/-- `WidthType`: `docx-core/src/types/width_type.rs:12-18`. -/
inductive WidthType
  | dxa | auto | pct | nil | unsupported
  deriving DecidableEq, Repr

/-- `Display for WidthType`: `docx-core/src/types/width_type.rs:20-30`. -/
def WidthType.toStr : WidthType → Str
  | .dxa => c!"dxa"
  | .auto => c!"auto"
  | .pct => c!"pct"
  | .nil => c!"nil"
  | .unsupported => c!"unsupported"

/-- `FromStr for WidthType`: `docx-core/src/types/width_type.rs:32-44`. -/
def WidthType.fromStr (s : Str) : Option WidthType :=
  if s = c!"DXA" ∨ s = c!"dxa" then some .dxa else
  if s = c!"Auto" ∨ s = c!"auto" then some .auto else
  if s = c!"Pct" ∨ s = c!"pct" then some .pct else
  if s = c!"Nil" ∨ s = c!"nil" then some .nil else
  some .unsupported

end Docx
