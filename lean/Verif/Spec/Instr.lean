import Verif.Model.PropTypes

/-!
# Which table of contents instructions can be read back
-/

namespace Docx.Spec

open Docx

/-- An argument that can be read back. -/
def PlainArg (s : Str) : Prop := ' ' ∉ s ∧ '"' ∉ s ∧ '&' ∉ s

/-- Every argument is without spaces, quotation marks and `&`, names of styles are also without commas, and numbers
fit 64 bits. -/
structure TocReadable (i : InstrToC) : Prop where
  captionLabel : ∀ s, i.captionLabel = some s → PlainArg s
  entryBookmarkName : ∀ s, i.entryBookmarkName = some s → PlainArg s
  captionLabelIncludingNumbers : ∀ s, i.captionLabelIncludingNumbers = some s → PlainArg s
  sequenceAndPageNumbersSeparator : ∀ s, i.sequenceAndPageNumbersSeparator = some s → PlainArg s
  tcFieldIdentifier : ∀ s, i.tcFieldIdentifier = some (some s) → PlainArg s
  tcFieldLevelRange : ∀ r, i.tcFieldLevelRange = some r → r.1 < 2 ^ 64 ∧ r.2 < 2 ^ 64
  omitPageNumbersLevelRange : ∀ r, i.omitPageNumbersLevelRange = some r → r.1 < 2 ^ 64 ∧ r.2 < 2 ^ 64
  headingStylesRange : ∀ r, i.headingStylesRange = some r → r.1 < 2 ^ 64 ∧ r.2 < 2 ^ 64
  entryAndPageNumberSeparator : ∀ s, i.entryAndPageNumberSeparator = some s → PlainArg s
  seqFieldIdentifierForPrefix : ∀ s, i.seqFieldIdentifierForPrefix = some s → PlainArg s
  stylesWithLevels : ∀ s ∈ i.stylesWithLevels, PlainArg s.1 ∧ ',' ∉ s.1 ∧ s.2 < 2 ^ 64

/-- No argument holds `<`. -/
structure NoLess (i : InstrToC) : Prop where
  captionLabel : ∀ s, i.captionLabel = some s → '<' ∉ s
  entryBookmarkName : ∀ s, i.entryBookmarkName = some s → '<' ∉ s
  captionLabelIncludingNumbers : ∀ s, i.captionLabelIncludingNumbers = some s → '<' ∉ s
  sequenceAndPageNumbersSeparator : ∀ s, i.sequenceAndPageNumbersSeparator = some s → '<' ∉ s
  tcFieldIdentifier : ∀ s, i.tcFieldIdentifier = some (some s) → '<' ∉ s
  entryAndPageNumberSeparator : ∀ s, i.entryAndPageNumberSeparator = some s → '<' ∉ s
  seqFieldIdentifierForPrefix : ∀ s, i.seqFieldIdentifierForPrefix = some s → '<' ∉ s
  stylesWithLevels : ∀ s ∈ i.stylesWithLevels, '<' ∉ s.1

/-- `\f` stands alone and no switch is written after it. -/
def LoneF (i : InstrToC) : Prop :=
  i.tcFieldIdentifier = some none ∧ i.tcFieldLevelRange = none ∧ i.omitPageNumbersLevelRange = none ∧
    i.headingStylesRange = none ∧ i.entryAndPageNumberSeparator = none ∧ i.seqFieldIdentifierForPrefix = none ∧
    i.stylesWithLevels = [] ∧ i.hyperlink = false ∧ i.useAppliedParagraphLineLevel = false ∧
    i.preserveTab = false ∧ i.preserveNewLine = false ∧ i.hideTabAndPageNumbersInWebview = false

instance (i : InstrToC) : Decidable (LoneF i) := by unfold LoneF; infer_instance

end Docx.Spec
