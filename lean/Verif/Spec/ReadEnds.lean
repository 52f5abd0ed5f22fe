import Verif.Model.ReadDocx

/-!
# Texts that reading is at ease with

Which texts are well-formed, by the events the parser reports, and which elements the readers cannot do without attributes.
-/

namespace Docx.Spec

open Docx.Xml

/-- The events that are still to come while elements with these local names are open, the innermost first: every start has its end, and the
document ends when all are closed. -/
def Nested : List Str → List REvent → Prop
  | st, [] => st = []
  | st, .start q _ :: es => Nested (q.loc :: st) es
  | st, .«end» q :: es =>
    match st with
    | [] => False
    | n :: st => q.loc = n ∧ Nested st es
  | st, .chars _ :: es => Nested st es
  | st, .whitespace _ :: es => Nested st es
  | st, .endDocument :: es => st = [] ∧ es = []
  | _, .error :: _ => False

/-- A text without errors in which all elements are closed. -/
def WellFormed (s : Str) : Prop := Nested [] (readEvents s)

/-- The first element of the text has this local name. -/
def RootIs (name s : Str) : Prop :=
  ∃ before q as rest, readEvents s = before ++ .start q as :: rest ∧ (∀ e ∈ before, ∃ t, e = .chars t ∨ e = .whitespace t) ∧ q.loc = name

/-- Elements whose readers take the first attribute without asking whether there is one: `w:highlight`, `w:vertAlign`, `w:sz`, `w:u`, `w:jc`,
`w:textAlignment`, `w:pStyle`, `w:ilvl`, `w:numId`, `w:start`, `w:numFmt`, `w:suff`, `w:lvlText`, `w:lvlRestart`, `w:lvlJc`, `w:startOverride`,
`w:lvlOverride`, `w:styleLink`, `w:numStyleLink`, `w:abstractNumId` and `w:name`. -/
def needAttribute : List El :=
  [.highlight, .vertAlign, .size, .underline, .justification, .textAlignment, .paragraphStyle, .indentLevel, .numberingId, .start, .numberFormat,
   .suffix, .levelText, .levelRestart, .levelJustification, .startOverride, .lvlOverride, .styleLink, .numStyleLink, .abstractNumberingId, .name]

/-- Elements whose width must be a number: `w:tblW`, `w:tblInd`, `w:gridCol`, `w:wBefore`, `w:wAfter`, and the sides of a margin. -/
def needWidth : List El := [.tableWidth, .tableIndent, .gridCol, .widthBefore, .widthAfter, .top, .left, .bottom, .right]

/-- An event that no reader panics at. -/
def Safe (x : ReadEnv) : REvent → Prop
  | .start q as =>
    (elementOf q.loc ∈ needAttribute → as ≠ []) ∧
    (elementOf q.loc ∈ needWidth → ∀ a ∈ as, a.1.loc = c!"w" → ∃ i, parseFloat x (a.2.filter (· ≠ '%')) = some i) ∧
    (elementOf q.loc = .comment → ∃ a ∈ as, a.1.loc = c!"id") ∧
    (elementOf q.loc = .commentExtended → ∃ a ∈ as, a.1.loc = c!"paraId")
  | _ => True

/-- All the events are such. -/
def Calm (x : ReadEnv) (es : List REvent) : Prop := ∀ e ∈ es, Safe x e

/-- What a value has to be for a reader to take it: a number, a measure (a number of twentieths of a point, or a number with a unit), a whole
number of at most 64 bits, or one of at most 32 bits. -/
inductive Need
  | number
  | measure
  | whole
  | small
  deriving DecidableEq

/-- The value is such. -/
def Need.met (x : ReadEnv) : Need → Str → Prop
  | .number, v => ∃ i, parseFloat x v = some i
  | .measure, v => ∃ i, valueToDax x v = some i
  | .whole, v => ∃ n, usizeFromStr v = some n
  | .small, v => ∃ n, u32FromStr v = some n

/-- What the readers need of attributes, by their local names, where they do not go on without. -/
def needs : El → List (Str × Need)
  | .gridAfter => [(c!"val", .small)]
  | .gridBefore => [(c!"val", .small)]
  | .comment => [(c!"id", .whole)]
  | .bookmarkStart => [(c!"id", .whole)]
  | .bookmarkEnd => [(c!"id", .whole)]
  | .abstractNumbering => [(c!"abstractNumId", .whole)]
  | .num => [(c!"numId", .whole)]
  | .level => [(c!"ilvl", .whole)]
  | .pageSize => [(c!"w", .measure), (c!"h", .measure)]
  | .pageMargin => [(c!"top", .measure), (c!"right", .measure), (c!"bottom", .measure), (c!"left", .measure), (c!"header", .measure),
      (c!"footer", .measure), (c!"gutter", .measure)]
  | .indent => [(c!"left", .measure), (c!"start", .measure), (c!"leftChars", .number), (c!"startChars", .number), (c!"end", .measure),
      (c!"right", .measure), (c!"hanging", .measure), (c!"firstLine", .measure)]
  | _ => []

/-- What they need of the first attribute. -/
def needsFirst : El → Option Need
  | .size => some .number
  | .start => some .whole
  | .abstractNumberingId => some .whole
  | _ => none

/-- An event that no reader gives up at. -/
def Taken (x : ReadEnv) : REvent → Prop
  | .start q as =>
    (∀ a ∈ as, ∀ n, (a.1.loc, n) ∈ needs (elementOf q.loc) → n.met x a.2) ∧
    (∀ a ∈ as.head?, ∀ n ∈ needsFirst (elementOf q.loc), n.met x a.2) ∧
    (elementOf q.loc = .bookmarkStart → (∃ a ∈ as, a.1.loc = c!"id") ∧ ∃ a ∈ as, a.1.loc = c!"name") ∧
    (elementOf q.loc = .bookmarkEnd → ∃ a ∈ as, a.1.loc = c!"id")
  | _ => True

/-- All the events are such. -/
def Sure (x : ReadEnv) (es : List REvent) : Prop := ∀ e ∈ es, Taken x e

/-- A number that is not too large for a value that has to be such. -/
def Need.inRange : Need → Str → Prop
  | .whole, v => ∀ n : Nat, v = dec n → n < 2 ^ 64
  | .small, v => ∀ n : Nat, v = dec n → n < 2 ^ 32
  | _, _ => True

/-- The numbers that the readers need of the event are not too large. -/
def InRange : REvent → Prop
  | .start q as =>
    (∀ a ∈ as, ∀ n, (a.1.loc, n) ∈ needs (elementOf q.loc) → n.inRange a.2) ∧
    (∀ a ∈ as.head?, ∀ n ∈ needsFirst (elementOf q.loc), n.inRange a.2)
  | _ => True

/-- The numbers that the readers need in an archive are not too large. -/
def NumbersFit (es : List Entry) : Prop :=
  ∀ e ∈ es, ∀ s, e.content.withoutBom = .text s → ∀ ev ∈ readEvents s, InRange ev

/-- How many elements are open behind these events. -/
def depthBehind (es : List REvent) : Int :=
  (es.countP fun e => match e with | .start _ _ => true | _ => false) - (es.countP fun e => match e with | .«end» _ => true | _ => false)

/-- Content types in which every declaration has two attributes. -/
def TypesFull (s : Str) : Prop :=
  ∀ before q as rest, readEvents s = before ++ .start q as :: rest → depthBehind before = 1 → 2 ≤ as.length

/-- An archive whose texts are well-formed, whose parts for relationships have `Relationships` as their root, and whose part for the styles,
as the relationships of the main document give it, has `styles` (`n` steps are enough to read the relationships if it is large). -/
structure Tidy (es : List Entry) : Prop where
  wellFormed : ∀ e ∈ es, ∀ s, e.content.withoutBom = .text s → WellFormed s
  rels : ∀ part path s, relsFileName part = some path → readText es path = some s → RootIs c!"Relationships" s
  styles : ∃ k, ∀ n, k ≤ n → ∀ text rels m t s, readText es c!"_rels/.rels" = some text → (readPackageRels n text).got = .ok rels →
    readPartRels n es (documentPath rels) = .ok m → firstTarget m (officeType c!"styles") = some t → readText es t.path = some s →
    RootIs c!"styles" s

/-- An archive in which no reader meets an element it would panic at. -/
structure Harmless (x : ReadEnv) (es : List Entry) : Prop where
  calm : ∀ e ∈ es, ∀ s, e.content.withoutBom = .text s → Calm x (readEvents s)
  types : ∀ s, readText es c!"[Content_Types].xml" = some s → TypesFull s

/-- An archive in which no reader meets an element it would give up at and which has the parts that are needed: the content types, the
relationships of the package and of the main document, the main document, and those of the styles, the numbering, the settings and the settings
for the web that the relationships of the main document name (`n` steps are enough to read the relationships if it is large). -/
structure Complete (x : ReadEnv) (es : List Entry) : Prop where
  sure : ∀ e ∈ es, ∀ s, e.content.withoutBom = .text s → Sure x (readEvents s)
  types : ∃ s, readText es c!"[Content_Types].xml" = some s
  rels : ∃ s, readText es c!"_rels/.rels" = some s
  document : ∃ k, ∀ n, k ≤ n → ∀ text rels, readText es c!"_rels/.rels" = some text → (readPackageRels n text).got = .ok rels →
    (∃ s, readText es (documentPath rels) = some s) ∧
    (∃ dir path s, pathParent (documentPath rels) = some dir ∧ relsFileName (documentPath rels) = some path ∧ readText es path = some s) ∧
    ∀ m, readPartRels n es (documentPath rels) = .ok m →
      ∀ kind ∈ [c!"styles", c!"numbering", c!"settings", c!"webSettings"], ∀ t, firstTarget m (officeType kind) = some t →
        ∃ s, readText es t.path = some s

end Docx.Spec
