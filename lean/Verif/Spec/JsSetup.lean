import Verif.Spec.JsFile

/-!
# Specification: the set-up of a document given in JavaScript
-/

namespace Docx.Spec

open Docx Docx.Xml

/-- The value given last by the calls `g` looks at. -/
def lastSet {α : Type} (g : JsFileCall → Option α) (cs : List JsFileCall) : Option α := (cs.filterMap g).getLast?

/-! What a call gives, if it is the one that is looked for. -/

def givesTabStop : JsFileCall → Option Nat | .defaultTabStop n => some n | _ => none
def givesDocId : JsFileCall → Option Str | .docId s => some s | _ => none
def givesDocVar : JsFileCall → Option (Str × Str) | .addDocVar a b => some (a, b) | _ => none
def givesSpacingControl : JsFileCall → Option CharacterSpacingValues | .characterSpacingControl v => some v | _ => none
def asksAdjust : JsFileCall → Bool | .adjustLineHeightInTable => true | _ => false
def givesSize : JsFileCall → Option (Nat × Nat) | .pageSize w h => some (w, h) | _ => none
def givesOrient : JsFileCall → Option PageOrientationType | .pageOrientation o => some o | _ => none
def givesMargin : JsFileCall → Option PageMargin | .pageMargin m => some m | _ => none
def givesGrid : JsFileCall → Option DocGrid | .docGrid t l c => some ⟨t, l, c⟩ | _ => none
def asksTitlePage : JsFileCall → Bool | .titlePg => true | _ => false
def givesDefaultSize : JsFileCall → Option Nat | .defaultSize n => some n | _ => none
def givesDefaultFonts : JsFileCall → Option JsFonts | .defaultFonts f => some f | _ => none
def givesDefaultSpacing : JsFileCall → Option Int | .defaultCharacterSpacing n => some n | _ => none
def givesDefaultLine : JsFileCall → Option LineSpacing | .defaultLineSpacing s => some s | _ => none
def givesCreated : JsFileCall → Option Str | .createdAt s => some s | _ => none
def givesUpdated : JsFileCall → Option Str | .updatedAt s => some s | _ => none
def givesProperty (name : Str) : JsFileCall → Option Str | .customProperty a b => if a = name then some b else none | _ => none
def givesExtension : JsFileCall → Option WebExtension | .webExtension e => some e | _ => none
def asksTaskpanes : JsFileCall → Bool | .taskpanes => true | _ => false
def givesItem : JsFileCall → Option (Str × Str) | .addCustomItem a b => some (a, b) | _ => none
def givesAbstract : JsFileCall → Option JsAbstractNumbering | .addAbstractNumbering a => some a | _ => none
def givesNumbering : JsFileCall → Option Numbering | .addNumbering a => some a | _ => none
def givesEven : JsFileCall → Bool | .evenHeader _ | .evenFooter _ => true | _ => false
def givesFirst : JsFileCall → Bool | .firstHeader _ | .firstFooter _ => true | _ => false

/-- The text of a custom item is XML the library can read. -/
def ItemReads (xml : Str) (x : List XmlData) : Prop := xmlDocumentFromStr xml = some (.ok x)

/-- The level of a list that was asked for arrived: number, first number, format, text, place, what follows, and the formatting JavaScript has
methods for. The font is taken without themes and hint. -/
structure LevelArrived (l : JsLevel) (x : Level) : Prop where
  level : x.level = l.id
  start : x.start = l.start
  format : x.format = l.format
  text : x.text = l.text
  jc : x.jc = l.jc
  suffix : x.suffix = l.suffix
  bold : x.runProperty.bold = l.runProperty.bold
  italic : x.runProperty.italic = l.runProperty.italic
  strike : x.runProperty.strike = l.runProperty.strike
  size : x.runProperty.sz = l.runProperty.size
  color : x.runProperty.color = l.runProperty.color.map Color.new
  spacing : x.runProperty.characterSpacing = l.runProperty.characterSpacing
  fonts : x.runProperty.fonts = l.runProperty.fonts.map JsFonts.build
  highlight : x.runProperty.highlight = l.runProperty.highlight
  underline : x.runProperty.underline = l.runProperty.underline
  vanish : x.runProperty.vanish.isSome = (l.runProperty.vanish == some true)
  indent : x.paragraphProperty.base.indent =
    l.indent.map fun i => { start := some i.1, special := createSpecialIndent i.2.1 i.2.2 }

/-- Formatting of a level that comes through: no size 0, no empty colour, no themes or hint for fonts, and none of the three methods whose
value is not handed over. -/
structure LevelPlain (l : JsLevel) : Prop where
  size : l.runProperty.size ≠ some 0
  color : l.runProperty.color ≠ some []
  fonts : ∀ f, l.runProperty.fonts = some f →
    f.asciiTheme = none ∧ f.hiAnsiTheme = none ∧ f.csTheme = none ∧ f.eastAsiaTheme = none ∧ f.hint = none
  highlight : l.runProperty.highlight = none
  underline : l.runProperty.underline = none
  vanish : l.runProperty.vanish ≠ some true

/-- A level put in place of another that has nothing but number, first number, format, text and place. -/
def OverridePlain (o : LevelOverride) : Prop :=
  ∀ l, o.overrideLevel = some l → l = { level := l.level, start := l.start, format := l.format, text := l.text, jc := l.jc }

end Docx.Spec
