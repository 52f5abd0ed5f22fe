import Verif.Spec.KeptParts

/-!
# Styles that can survive writing and reading

Written without reference to the reader.
-/

namespace Docx.Spec

/-- A style that survives, but for what `styleSeen` leaves out. -/
structure Style.Kept (s : Style) : Prop where
  id : EscapedFrom s.styleId
  name : EscapedFrom s.name
  basedOn : ∀ t, s.basedOn = some t → EscapedFrom t
  link : ∀ t, s.link = some t → EscapedFrom t
  next : ∀ t, s.next = some t → EscapedFrom t
  run : RunProperty.Kept s.runProperty
  paragraph : ParagraphProperty.Kept (withSides s.paragraphProperty)
  table : TableProperty.Kept s.tableProperty
  cell : TableCellProperty.Kept s.tableCellProperty

/-- What comes back of a style: its id, name, kind, formatting, and the styles it is based on and linked to; formatting of tables only
if it is a style for tables. -/
def styleSeen (s : Style) : Style where
  styleId := s.styleId
  name := s.name
  styleType := s.styleType
  runProperty := s.runProperty
  paragraphProperty := withSides s.paragraphProperty
  tableProperty := if s.styleType = .table then s.tableProperty else {}
  tableCellProperty := if s.styleType = .table then s.tableCellProperty else {}
  basedOn := s.basedOn
  link := s.link

/-- Default formatting and styles that survive. -/
structure Styles.Kept (s : Styles) : Prop where
  run : RunProperty.Kept s.docDefaults.runProperty
  paragraph : ParagraphProperty.Kept (withSides s.docDefaults.paragraphProperty)
  styles : ∀ t ∈ s.styles, Style.Kept t

/-- The paragraph style that every style part has. -/
def standardStyle : Style := { styleId := c!"Normal", name := c!"Normal" }

/-- What the style part holds: the defaults, the standing style, and what the caller added. -/
def stylesSeen (s : Styles) : Styles where
  docDefaults := ⟨s.docDefaults.runProperty, withSides s.docDefaults.paragraphProperty⟩
  styles := standardStyle :: s.styles.map styleSeen

end Docx.Spec
