import Verif.Model.Enums

/-!
# C31  Every enumeration value is read back as itself

For each enumeration of the API that has both a written token (`Display`) and a reader (`FromStr`):
writing a value and reading the token gives the same value.  Two enumerations fail for one value
each; for those the failure is proved, and the positive theorem (suffix `_partial`) excludes exactly
that value.  `C31_tokens_plain` says no written token contains a character that XML would require to
be escaped, so the tokens can go into attributes unescaped.
-/

namespace Docx.Props
open Docx

/-- The token alphabet: ASCII letters and digits. -/
def PlainToken (s : Str) : Prop := s ≠ [] ∧ ∀ c ∈ s, c.isAlphanum = true

theorem C31_AlignmentType (v : AlignmentType) : AlignmentType.fromStr v.toStr = some v := by
  cases v <;> decide

theorem C31_BorderType (v : BorderType) : BorderType.fromStr v.toStr = some v := by
  cases v <;> decide

theorem C31_BreakType (v : BreakType) : BreakType.fromStr v.toStr = some v := by
  cases v <;> decide

/-- The property fails for `CharacterSpacingValues` at `unsupported`: its token is not read back. -/
theorem C31_CharacterSpacingValues_unsupported_lost : CharacterSpacingValues.fromStr (CharacterSpacingValues.toStr .unsupported) = none := by decide

/-- `CharacterSpacingValues` round trips for every value but `unsupported`.  Missing: `unsupported`, which really is lost
(see `C31_CharacterSpacingValues_unsupported_lost`). -/
theorem C31_CharacterSpacingValues_partial (v : CharacterSpacingValues) (h : v ≠ .unsupported) : CharacterSpacingValues.fromStr v.toStr = some v := by
  cases v <;> first | decide | exact absurd rfl h

theorem C31_DocGridType (v : DocGridType) : DocGridType.fromStr v.toStr = some v := by
  cases v <;> decide

theorem C31_FieldCharType (v : FieldCharType) : FieldCharType.fromStr v.toStr = some v := by
  cases v <;> decide

theorem C31_HeightRule (v : HeightRule) : HeightRule.fromStr v.toStr = some v := by
  cases v <;> decide

theorem C31_HyperlinkType (v : HyperlinkType) : HyperlinkType.fromStr v.toStr = some v := by
  cases v <;> decide

theorem C31_LevelSuffixType (v : LevelSuffixType) : LevelSuffixType.fromStr v.toStr = some v := by
  cases v <;> decide

theorem C31_PageOrientationType (v : PageOrientationType) : PageOrientationType.fromStr v.toStr = some v := by
  cases v <;> decide

theorem C31_PositionalTabAlignmentType (v : PositionalTabAlignmentType) : PositionalTabAlignmentType.fromStr v.toStr = some v := by
  cases v <;> decide

theorem C31_PositionalTabRelativeTo (v : PositionalTabRelativeTo) : PositionalTabRelativeTo.fromStr v.toStr = some v := by
  cases v <;> decide

theorem C31_RelativeFromHType (v : RelativeFromHType) : RelativeFromHType.fromStr v.toStr = some v := by
  cases v <;> decide

/-- The property fails for `RelativeFromVType` at `outsizeMargin`: its token is not read back. -/
theorem C31_RelativeFromVType_outsizeMargin_lost : RelativeFromVType.fromStr (RelativeFromVType.toStr .outsizeMargin) = some .margin := by decide

/-- `RelativeFromVType` round trips for every value but `outsizeMargin`.  Missing: `outsizeMargin`, which really is lost
(see `C31_RelativeFromVType_outsizeMargin_lost`). -/
theorem C31_RelativeFromVType_partial (v : RelativeFromVType) (h : v ≠ .outsizeMargin) : RelativeFromVType.fromStr v.toStr = some v := by
  cases v <;> first | decide | exact absurd rfl h

theorem C31_SectionType (v : SectionType) : SectionType.fromStr v.toStr = some v := by
  cases v <;> decide

theorem C31_ShdType (v : ShdType) : ShdType.fromStr v.toStr = some v := by
  cases v <;> decide

theorem C31_StyleType (v : StyleType) : StyleType.fromStr v.toStr = some v := by
  cases v <;> decide

theorem C31_TabLeaderType (v : TabLeaderType) : TabLeaderType.fromStr v.toStr = some v := by
  cases v <;> decide

theorem C31_TabValueType (v : TabValueType) : TabValueType.fromStr v.toStr = some v := by
  cases v <;> decide

theorem C31_TableAlignmentType (v : TableAlignmentType) : TableAlignmentType.fromStr v.toStr = some v := by
  cases v <;> decide

theorem C31_TableLayoutType (v : TableLayoutType) : TableLayoutType.fromStr v.toStr = some v := by
  cases v <;> decide

theorem C31_TextAlignmentType (v : TextAlignmentType) : TextAlignmentType.fromStr v.toStr = some v := by
  cases v <;> decide

theorem C31_TextDirectionType (v : TextDirectionType) : TextDirectionType.fromStr v.toStr = some v := by
  cases v <;> decide

theorem C31_ThemeColor (v : ThemeColor) : ThemeColor.fromStr v.toStr = some v := by
  cases v <;> decide

theorem C31_VertAlignType (v : VertAlignType) : VertAlignType.fromStr v.toStr = some v := by
  cases v <;> decide

theorem C31_VAlignType (v : VAlignType) : VAlignType.fromStr v.toStr = some v := by
  cases v <;> decide

theorem C31_VMergeType (v : VMergeType) : VMergeType.fromStr v.toStr = some v := by
  cases v <;> decide

theorem C31_WidthType (v : WidthType) : WidthType.fromStr v.toStr = some v := by
  cases v <;> decide

/-- No written token contains a character needing XML escaping. -/
theorem C31_tokens_plain :
    (∀ v : AlignmentType, PlainToken v.toStr) ∧
    (∀ v : BorderType, PlainToken v.toStr) ∧
    (∀ v : BreakType, PlainToken v.toStr) ∧
    (∀ v : CharacterSpacingValues, PlainToken v.toStr) ∧
    (∀ v : DocGridType, PlainToken v.toStr) ∧
    (∀ v : PicAlign, PlainToken v.toStr) ∧
    (∀ v : FieldCharType, PlainToken v.toStr) ∧
    (∀ v : FontPitchType, PlainToken v.toStr) ∧
    (∀ v : HeightRule, PlainToken v.toStr) ∧
    (∀ v : HyperlinkType, PlainToken v.toStr) ∧
    (∀ v : LevelSuffixType, PlainToken v.toStr) ∧
    (∀ v : PageOrientationType, PlainToken v.toStr) ∧
    (∀ v : PositionalTabAlignmentType, PlainToken v.toStr) ∧
    (∀ v : PositionalTabRelativeTo, PlainToken v.toStr) ∧
    (∀ v : RelativeFromHType, PlainToken v.toStr) ∧
    (∀ v : RelativeFromVType, PlainToken v.toStr) ∧
    (∀ v : SectionType, PlainToken v.toStr) ∧
    (∀ v : ShdType, PlainToken v.toStr) ∧
    (∀ v : StyleType, PlainToken v.toStr) ∧
    (∀ v : TabLeaderType, PlainToken v.toStr) ∧
    (∀ v : TabValueType, PlainToken v.toStr) ∧
    (∀ v : TableAlignmentType, PlainToken v.toStr) ∧
    (∀ v : TableLayoutType, PlainToken v.toStr) ∧
    (∀ v : TextAlignmentType, PlainToken v.toStr) ∧
    (∀ v : TextDirectionType, PlainToken v.toStr) ∧
    (∀ v : ThemeColor, PlainToken v.toStr) ∧
    (∀ v : VertAlignType, PlainToken v.toStr) ∧
    (∀ v : VAlignType, PlainToken v.toStr) ∧
    (∀ v : VMergeType, PlainToken v.toStr) ∧
    (∀ v : WidthType, PlainToken v.toStr) := by
  refine ⟨?_, ?_, ?_, ?_, ?_, ?_, ?_, ?_, ?_, ?_, ?_, ?_, ?_, ?_, ?_, ?_, ?_, ?_, ?_, ?_, ?_, ?_, ?_, ?_, ?_, ?_, ?_, ?_, ?_, ?_⟩ <;> intro v <;> cases v <;>
    (refine ⟨by decide, ?_⟩; decide)

/-- Instances: a token that is not the first in its table, and the fallback on an unknown token. -/
example : BorderType.fromStr (BorderType.toStr .dashSmallGap) = some .dashSmallGap := by decide
example : BorderType.fromStr c!"balloons3Colors" = some .single := by decide
example : RelativeFromVType.toStr .outsizeMargin = c!"outsideMargin" := by decide

end Docx.Props
