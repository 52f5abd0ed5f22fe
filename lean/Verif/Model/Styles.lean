import Verif.Model.Api
import Verif.Model.Numbers

/-!
# Styles and heading levels (`documents/styles.rs`, `documents/elements/style.rs`, `documents/elements/name.rs`)
-/

namespace Docx

/-- `Style`. elements/style.rs:12-35. `Name`, `BasedOn`, `Next`, `Link` are the strings they wrap. -/
structure Style where
  styleId : Str := []
  name : Str := []
  styleType : StyleType := .paragraph
  runProperty : RunProperty := {}
  paragraphProperty : ParagraphProperty := {}
  tableProperty : TableProperty := {}
  tableCellProperty : TableCellProperty := {}
  basedOn : Option Str := none
  next : Option Str := none
  link : Option Str := none
  qFormat : Bool := true
  uiPriority : Option Nat := none
  semiHidden : Bool := false
  unhideWhenUsed : Bool := false

/-- `Style::new`. elements/style.rs:68-75. -/
def Style.new (id : Str) (t : StyleType) : Style := { styleId := escapeOwned id, styleType := t }
/-- `Style::name`. elements/style.rs:77-80, elements/name.rs:15-19. -/
def Style.setName (s : Style) (n : Str) : Style := { s with name := escapeOwned n }

/-- `Name::is_heading`. elements/name.rs:25-27. Simplification: `to_lowercase` is modelled by ASCII
lowercasing. No other character has a lowercase form that begins with one of the letters of `heading`, except
`U+0130`, whose form is `i` and a combining dot, which is not followed by `n`; so the prefix test is the same. -/
def isHeading (name : Str) : Bool := c!"heading".isPrefixOf (asciiLower name)

/-- `Name::get_heading_number`. elements/name.rs:29-32. Simplification: ASCII lowercasing, as above; a
character outside ASCII makes the parse fail either way. -/
def headingNumber (name : Str) : Option Nat := parseUsize (removeAll c!"heading " (asciiLower name))

/-- The level of one style in `Styles::create_heading_style_map`. styles.rs:58-65. -/
def Style.headingLevel (s : Style) : Option Nat := if isHeading s.name then headingNumber s.name else none

/-- `Styles::create_heading_style_map`. styles.rs:55-67. The pairs that are collected into the map. -/
def headingStyleMap (styles : List Style) : List (Str × Nat) :=
  styles.filterMap fun s => s.headingLevel.map fun n => (s.styleId, n)

end Docx
