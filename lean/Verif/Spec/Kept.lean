import Verif.Model.PropTypes
import Verif.Model.Escape
import Verif.Spec.Strings

/-!
# Formatting that can survive writing and reading

Written without reference to the reader: limits on numbers and characters, and what must not be set.
-/

namespace Docx.Spec

/-- Text the caller hands over to be escaped that XML attributes keep: no tab and no carriage return. -/
def KeptText (t : Str) : Prop := '\t' ∉ t ∧ '\r' ∉ t

/-- A stored string that was escaped when it was handed over, from such a text. -/
def EscapedFrom (s : Str) : Prop := ∃ t, KeptText t ∧ s = escapeOwned t

/-- A stored string that is written as it is: no character with a meaning in XML. -/
def PlainValue (s : Str) : Prop := ∀ c ∈ s, c ≠ '&' ∧ c ≠ '<' ∧ c ≠ '"' ∧ c ≠ '\r' ∧ c ≠ '\t' ∧ c ≠ '\n'

/-- Run formatting that survives: the conditions on each part. -/
structure RunProperty.Kept (p : RunProperty) : Prop where
  style : ∀ s, p.style = some s → EscapedFrom s
  size : ∀ n, p.sz = some n → n ≤ 2 ^ 53
  sizeCs : p.szCs = p.sz
  color : ∀ c, p.color = some c → PlainValue c.val ∧ (∀ t, c.themeColor = some t → ∃ k : ThemeColor, t = k.toStr) ∧
    (∀ t, c.themeShade = some t → PlainValue t) ∧ ∀ t, c.themeTint = some t → PlainValue t
  highlight : ∀ s, p.highlight = some s → PlainValue s
  underline : ∀ s, p.underline = some s → PlainValue s
  boldCs : p.boldCs = p.bold
  italicCs : p.italicCs = p.italic
  /-- Single strike is not mentioned at all when double strike is on. -/
  strike : p.dstrike = some true → p.strike = none
  /-- An `i32`. -/
  spacing : ∀ i, p.characterSpacing = some i → -(2 ^ 31) ≤ i ∧ i < 2 ^ 31
  /-- A `usize` and a `u32`. -/
  fitText : ∀ f, p.fitText = some f → f.val < 2 ^ 64 ∧ ∀ i, f.id = some i → i < 2 ^ 32
  /-- Character scaling is not set. -/
  stretch : p.stretch = none
  fonts : ∀ f, p.fonts = some f → ∀ s ∈ f.strings, EscapedFrom s
  /-- A `usize` below the limit, and no space around the border. -/
  textBorder : ∀ b, p.textBorder = some b → b.size < 2 ^ 32 ∧ b.space = 0 ∧ PlainValue b.color
  ins : ∀ m, p.ins = some m → EscapedFrom m.author ∧ PlainValue m.date
  del : ∀ m, p.del = some m → EscapedFrom m.author ∧ PlainValue m.date
  /-- Positional tabs are relative to the margin. -/
  positionalTab : ∀ t, p.positionalTab = some t → t.relativeTo = .margin
  shading : ∀ s, p.shading = some s → PlainValue s.color ∧ PlainValue s.fill

end Docx.Spec
