import Verif.Spec.JsStyle
import Verif.Spec.KeptStyles

/-!
# Styles made in JavaScript that survive a file

Written without reference to the reader.
-/

namespace Docx.Spec

/-- A style with formatting of tables only if it is a style for tables. -/
def ownFormat (s : Style) : Style := if s.styleType = .table then s else { s with tableProperty := {}, tableCellProperty := {} }

/-- The names in the fonts of a document. -/
def fontNames (f : JsFonts) : List Str := f.ascii.toList ++ f.hiAnsi.toList ++ f.cs.toList ++ f.eastAsia.toList

/-- Defaults a program asks for that survive: numbers that fit, and names of fonts that attributes keep. -/
structure DefaultsKept (cs : List JsFileCall) : Prop where
  size : ∀ n, .defaultSize n ∈ cs → n ≤ 2 ^ 53
  spacing : ∀ i, .defaultCharacterSpacing i ∈ cs → -(2 ^ 31) ≤ i ∧ i < 2 ^ 31
  fonts : ∀ f, .defaultFonts f ∈ cs → ∀ s ∈ fontNames f, KeptText s
  line : ∀ l, .defaultLineSpacing l ∈ cs → (∀ n, l.before = some n → n < 2 ^ 32) ∧ (∀ n, l.after = some n → n < 2 ^ 32) ∧
    (∀ n, l.beforeLines = some n → n < 2 ^ 32) ∧ (∀ n, l.afterLines = some n → n < 2 ^ 32) ∧ ∀ i, l.line = some i → InI32 i

end Docx.Spec
