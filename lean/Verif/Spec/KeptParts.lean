import Verif.Spec.KeptTable
import Verif.Model.PackageParts

/-!
# Numbering definitions and styles that can survive writing and reading

Written without reference to the reader.
-/

namespace Docx.Spec

/-- Paragraph formatting in which an indent names both sides: a side that was left open is `0`. -/
def withSides : ParagraphProperty → ParagraphProperty
  | ⟨base, change⟩ =>
    ⟨{ base with indent := base.indent.map fun i => { i with start := some (i.start.getD 0), end_ := some (i.end_.getD 0) } }, change⟩

/-- A numbering level that survives, but for the sides of its indent. -/
structure Level.Kept (l : Level) : Prop where
  level : l.level < 2 ^ 64
  start : l.start < 2 ^ 64
  restart : ∀ n, l.levelRestart = some n → n < 2 ^ 32
  format : PlainValue l.format
  text : PlainValue l.text
  jc : PlainValue l.jc
  paragraph : ParagraphProperty.Kept (withSides l.paragraphProperty)
  run : RunProperty.Kept l.runProperty
  style : ∀ s, l.pstyle = some s → EscapedFrom s

/-- A level with both sides of its indent. -/
def Level.sides (l : Level) : Level := { l with paragraphProperty := withSides l.paragraphProperty }

/-- A numbering definition with levels that survive. -/
structure AbstractNumbering.Kept (a : AbstractNumbering) : Prop where
  id : a.id < 2 ^ 64
  kind : ∀ t, a.multiLevelType = some t → PlainValue t
  levels : ∀ l ∈ a.levels, Level.Kept l

/-- The number and the levels of a definition. -/
def AbstractNumbering.core (a : AbstractNumbering) : AbstractNumbering := { id := a.id, levels := a.levels.map Level.sides }

/-- A numbering with overrides that survive. -/
structure Numbering.Kept (n : Numbering) : Prop where
  id : n.id < 2 ^ 64
  definition : n.abstractNumId < 2 ^ 64
  overrides : ∀ o ∈ n.overrides, o.level < 2 ^ 64 ∧ (∀ i, o.overrideStart = some i → i < 2 ^ 64) ∧
    ∀ l, o.overrideLevel = some l → Level.Kept l

/-- A numbering with both sides of every indent. -/
def Numbering.sides (n : Numbering) : Numbering :=
  { n with overrides := n.overrides.map fun o => { o with overrideLevel := o.overrideLevel.map Level.sides } }

/-- Everything in the numbering part survives. -/
structure Numberings.Kept (n : Numberings) : Prop where
  definitions : ∀ a ∈ n.abstractNums, AbstractNumbering.Kept a
  numberings : ∀ m ∈ n.numberings, Numbering.Kept m

/-- The definition that every numbering part has: nine levels, indented by 420 more each, hanging by 420. -/
def standardLevel (n : Nat) (format text : Str) : Level :=
  { level := n, start := 1, format := format, text := text, jc := c!"left",
    paragraphProperty :=
      ⟨{ indent := some { start := some (420 * ((n + 1 : Nat) : Int)), end_ := some 0, special := some (.hanging 420) } }, none⟩ }

/-- The definition that every numbering part has. -/
def standardDefinition : AbstractNumbering :=
  { id := 1,
    levels :=
      [ standardLevel 0 c!"decimal" c!"%1.", standardLevel 1 c!"decimal" c!"(%2)",
        standardLevel 2 c!"decimalEnclosedCircle" c!"%3", standardLevel 3 c!"decimal" c!"%4.",
        standardLevel 4 c!"decimal" c!"(%5)", standardLevel 5 c!"decimalEnclosedCircle" c!"%6",
        standardLevel 6 c!"decimal" c!"%7.", standardLevel 7 c!"decimal" c!"(%8)",
        standardLevel 8 c!"decimalEnclosedCircle" c!"%9" ] }

/-- What the numbering part holds: the standing definition and numbering, and what the caller added. -/
def numberingSeen (n : Numberings) : Numberings where
  abstractNums := standardDefinition :: n.abstractNums.map AbstractNumbering.core
  numberings := { id := 1, abstractNumId := 1 } :: n.numberings.map Numbering.sides

end Docx.Spec
