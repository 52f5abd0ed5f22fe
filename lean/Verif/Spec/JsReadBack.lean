import Verif.Spec.JsStyleKept
import Verif.Spec.JsSetup
import Verif.Spec.PartsRead

/-!
# The set-up of a document made in JavaScript, as someone reading the file is to find it

Written without reference to the reader.
-/

namespace Docx.Spec

/-- Settings a program asks for that survive: a tab stop that is a number of an `f32`, texts that need no escaping. -/
structure SettingsKept (cs : List JsFileCall) : Prop where
  tab : ∀ n, .defaultTabStop n ∈ cs → n ≤ 2 ^ 24
  id : ∀ s, .docId s ∈ cs → PlainValue s
  vars : ∀ a b, .addDocVar a b ∈ cs → PlainValue a ∧ PlainValue b

/-- The settings to be read: what was given last, variables in order; no braces in the id, and no spacing control that is `unsupported`. -/
def settingsAsked (cs : List JsFileCall) : Settings where
  defaultTabStop := (lastSet givesTabStop cs).getD 840
  docId := ((lastSet givesDocId cs).filter fun s => decide (s ≠ [])).map unbraced
  docVars := cs.filterMap givesDocVar
  evenAndOddHeaders := cs.any givesEven
  adjustLineHeightInTable := cs.any asksAdjust
  characterSpacingControl := (lastSet givesSpacingControl cs).filter fun v => decide (v ≠ .unsupported)

/-- A level of a list that survives: numbers that fit and texts that need no escaping. -/
structure LevelKept (l : JsLevel) : Prop where
  id : l.id < 2 ^ 64
  start : l.start < 2 ^ 64
  format : PlainValue l.format
  text : PlainValue l.text
  jc : PlainValue l.jc
  size : ∀ n, l.runProperty.size = some n → n ≤ 2 ^ 53
  color : ∀ c, l.runProperty.color = some c → PlainValue c
  spacing : ∀ i, l.runProperty.characterSpacing = some i → -(2 ^ 31) ≤ i ∧ i < 2 ^ 31
  fonts : ∀ f, l.runProperty.fonts = some f → ∀ s ∈ fontNames f, KeptText s
  indent : ∀ a k n, l.indent = some (a, k, n) → InI32 a ∧ ∀ i, n = some i → InI32 i

/-- A level as it is to be read: with a right side of 0 for an indent, which JavaScript does not give. -/
structure LevelFound (l : JsLevel) (x : Level) : Prop where
  level : x.level = l.id
  start : x.start = l.start
  format : x.format = l.format
  text : x.text = l.text
  jc : x.jc = l.jc
  suffix : x.suffix = l.suffix
  bold : x.runProperty.bold = l.runProperty.bold
  italic : x.runProperty.italic = l.runProperty.italic
  strike : x.runProperty.strike = l.runProperty.strike
  size : x.runProperty.sz = l.runProperty.size
  color : x.runProperty.color = l.runProperty.color.map Color.new
  spacing : x.runProperty.characterSpacing = l.runProperty.characterSpacing
  fonts : x.runProperty.fonts = l.runProperty.fonts.map JsFonts.build
  indent : x.paragraphProperty.base.indent =
    l.indent.map fun i => { start := some i.1, end_ := some 0, special := createSpecialIndent i.2.1 i.2.2 }

/-- Lists a program adds that survive. -/
structure ListsKept (cs : List JsFileCall) : Prop where
  definitions : ∀ a, .addAbstractNumbering a ∈ cs → a.id < 2 ^ 64 ∧ ∀ l ∈ a.levels, LevelKept l ∧ LevelPlain l
  numberings : ∀ x, .addNumbering x ∈ cs → Numbering.Kept x ∧ ∀ o ∈ x.overrides, OverridePlain o

/-- Page set-up a program asks for that survives: no orientation, numbers that fit. -/
structure PageKept (cs : List JsFileCall) : Prop where
  size : ∀ w h, .pageSize w h ∈ cs → w < 2 ^ 31 ∧ h < 2 ^ 31
  orient : ∀ o, .pageOrientation o ∉ cs
  margins : ∀ m, .pageMargin m ∈ cs → InI32 m.top ∧ InI32 m.left ∧ InI32 m.bottom ∧ InI32 m.right ∧ InI32 m.header ∧ InI32 m.footer ∧ InI32 m.gutter
  grid : ∀ t l c, .docGrid t l c ∈ cs → (∀ n, l = some n → n ≤ 2 ^ 24) ∧ ∀ i, c = some i → -(2 ^ 24) ≤ i ∧ i ≤ 2 ^ 24

/-- The page set-up to be read: what was given last. -/
structure PageFound (cs : List JsFileCall) (p : SectionBase) : Prop where
  size : (p.pageSize.w, p.pageSize.h) = (lastSet givesSize cs).getD (11906, 16838)
  margin : p.pageMargin = (lastSet givesMargin cs).getD {}
  grid : p.docGrid = lastSet givesGrid cs
  title : p.titlePg = (cs.any asksTitlePage || cs.any givesFirst)

end Docx.Spec
