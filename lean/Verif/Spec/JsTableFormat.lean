import Verif.Model.JsTableCalls
import Verif.Spec.JsFormat

/-!
# Specification: what a formatting method of a table in JavaScript stands for

For every method the setter of the Rust library of the same name.
-/

namespace Docx.Spec

open Docx

/-- How a table built in JavaScript begins: no indent, the default margins. -/
def plainTable : List Nat × TableProperty := ([], { indent := some ⟨0, .dxa⟩, margins := some {} })

/-- What a formatting method of `Table` stands for, on the grid and the property. -/
def JsTableCall.wanted (x : List Nat × TableProperty) : JsTableCall → List Nat × TableProperty
  | .style s => (x.1, { x.2 with style := some s })
  | .setGrid g => (g, x.2)
  | .indent n => (x.1, { x.2 with indent := some ⟨n, .dxa⟩ })
  | .align a => (x.1, { x.2 with justification := a.toStr })
  | .layout l => (x.1, { x.2 with layout := some l })
  | .width n => (x.1, { x.2 with width := ⟨n, .dxa⟩ })
  | .cellMargins t r b l =>
    (x.1, { x.2 with margins := some { top := ⟨t, .dxa⟩, right := ⟨r, .dxa⟩, bottom := ⟨b, .dxa⟩, left := ⟨l, .dxa⟩ } })
  | .cellMarginTop n t => (x.1, { x.2 with margins := some { x.2.margins.getD {} with top := ⟨n, t⟩ } })
  | .cellMarginLeft n t => (x.1, { x.2 with margins := some { x.2.margins.getD {} with left := ⟨n, t⟩ } })
  | .cellMarginRight n t => (x.1, { x.2 with margins := some { x.2.margins.getD {} with right := ⟨n, t⟩ } })
  | .cellMarginBottom n t => (x.1, { x.2 with margins := some { x.2.margins.getD {} with bottom := ⟨n, t⟩ } })
  | .position p => (x.1, { x.2 with position := some p })

/-- What the methods called on a table stand for together. -/
def wantedTable (calls : List JsTableCall) : List Nat × TableProperty := calls.foldl JsTableCall.wanted plainTable

/-- The calls that come through: no width, no empty style, no distance to the text on the right. -/
def JsTableCall.comesThrough : JsTableCall → Prop
  | .width _ => False
  | .style s => s ≠ []
  | .position p => p.rightFromText = none
  | _ => True

/-- What a formatting method of `TableRow` stands for. -/
def JsRowCall.wanted (p : TableRowProperty) : JsRowCall → TableRowProperty
  | .rowHeight n => { p with rowHeight := some (dec n) }
  | .heightRule r => { p with heightRule := some r }
  | .delete a d => { p with del := some (.new a d) }
  | .insert a d => { p with ins := some (.new a d) }

/-- What the methods called on a row stand for together. -/
def wantedRow (calls : List JsRowCall) : TableRowProperty := calls.foldl JsRowCall.wanted {}

/-- The calls that come through: no height 0. -/
def JsRowCall.comesThrough : JsRowCall → Prop
  | .rowHeight n => n ≠ 0
  | _ => True

/-- How a cell built in JavaScript begins: with the default borders. -/
def plainCell : TableCellProperty := { borders := some {} }

/-- What a formatting method of `TableCell` stands for. A border without a kind is a single line. -/
def JsCellCall.wanted (p : TableCellProperty) : JsCellCall → TableCellProperty
  | .verticalMerge t => { p with verticalMerge := some t }
  | .verticalAlign t => { p with verticalAlign := some t }
  | .gridSpan n => { p with gridSpan := some n }
  | .width n => { p with width := some ⟨n, .dxa⟩ }
  | .shading k c f => { p with shading := some { shdType := (ShdType.fromStr k).getD .clear, color := c, fill := f } }
  | .textDirection t => { p with textDirection := some t }
  | .setBorder a b =>
    { p with borders := some ((p.borders.getD {}).set { position := a, borderType := b.kind.getD .single, size := b.size, color := b.color }) }
  | .clearBorder a => { p with borders := some ((p.borders.getD {}).set { position := a, borderType := .nil }) }
  | .marginTop n t => { p with margins := some { p.margins.getD {} with top := some ⟨n, t⟩ } }
  | .marginLeft n t => { p with margins := some { p.margins.getD {} with left := some ⟨n, t⟩ } }
  | .marginRight n t => { p with margins := some { p.margins.getD {} with right := some ⟨n, t⟩ } }
  | .marginBottom n t => { p with margins := some { p.margins.getD {} with bottom := some ⟨n, t⟩ } }

/-- What the methods called on a cell stand for together. -/
def wantedCell (calls : List JsCellCall) : TableCellProperty := calls.foldl JsCellCall.wanted plainCell

/-- The calls that come through: no border between cells, one of ten kinds of lines. (The two kinds called `unsupported`
cannot be asked for in JavaScript.) -/
def JsCellCall.comesThrough : JsCellCall → Prop
  | .verticalMerge t => t ≠ .unsupported
  | .verticalAlign t => t ≠ .unsupported
  | .setBorder a b => a ≠ .insideH ∧ a ≠ .insideV ∧ ∀ k, b.kind = some k → k ∈ knownBorders
  | .clearBorder a => a ≠ .insideH ∧ a ≠ .insideV
  | _ => True

end Docx.Spec
