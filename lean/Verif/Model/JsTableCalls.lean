import Verif.Model.Js

/-!
# The methods of the JavaScript interface that format tables
-/

namespace Docx

/-- The formatting methods of `Table`. docx-wasm/js/table.ts:126-188. -/
inductive JsTableCall where
  | style (s : Str) | setGrid (g : List Nat) | indent (n : Int) | align (a : TableAlignmentType) | layout (l : TableLayoutType)
  | width (n : Nat) | cellMargins (top right bottom left : Nat) | cellMarginTop (n : Nat) (t : WidthType)
  | cellMarginLeft (n : Nat) (t : WidthType) | cellMarginRight (n : Nat) (t : WidthType) | cellMarginBottom (n : Nat) (t : WidthType)
  | position (p : TablePositionProperty)

/-- One of them. docx-wasm/js/table.ts:126-188. -/
def JsTable.call : JsTable → JsTableCall → JsTable
  | ⟨rs, g, p, h⟩, .style s => ⟨rs, g, { p with styleId := some s }, h⟩
  | ⟨rs, _, p, h⟩, .setGrid g => ⟨rs, g, p, h⟩
  | ⟨rs, g, p, h⟩, .indent n => ⟨rs, g, { p with indent := some n }, h⟩
  | ⟨rs, g, p, h⟩, .align a => ⟨rs, g, { p with align := some a }, h⟩
  | ⟨rs, g, p, h⟩, .layout l => ⟨rs, g, { p with layout := some l }, h⟩
  | ⟨rs, g, p, h⟩, .width n => ⟨rs, g, { p with width := some n }, h⟩
  | ⟨rs, g, p, h⟩, .cellMargins t r b l => ⟨rs, g, { p with cellMargins := ⟨⟨t, .dxa⟩, ⟨l, .dxa⟩, ⟨b, .dxa⟩, ⟨r, .dxa⟩⟩ }, h⟩
  | ⟨rs, g, p, h⟩, .cellMarginTop n t => ⟨rs, g, { p with cellMargins := { p.cellMargins with top := ⟨n, t⟩ } }, h⟩
  | ⟨rs, g, p, h⟩, .cellMarginLeft n t => ⟨rs, g, { p with cellMargins := { p.cellMargins with left := ⟨n, t⟩ } }, h⟩
  | ⟨rs, g, p, h⟩, .cellMarginRight n t => ⟨rs, g, { p with cellMargins := { p.cellMargins with right := ⟨n, t⟩ } }, h⟩
  | ⟨rs, g, p, h⟩, .cellMarginBottom n t => ⟨rs, g, { p with cellMargins := { p.cellMargins with bottom := ⟨n, t⟩ } }, h⟩
  | ⟨rs, g, p, h⟩, .position x => ⟨rs, g, { p with position := some x }, h⟩

/-- The formatting methods of `TableRow`. docx-wasm/js/table-row.ts:21-39. -/
inductive JsRowCall where
  | rowHeight (n : Nat) | heightRule (r : HeightRule) | delete (author date : Str) | insert (author date : Str)

/-- One of them. docx-wasm/js/table-row.ts:21-39. -/
def JsRow.call : JsRow → JsRowCall → JsRow
  | ⟨cs, p, h⟩, .rowHeight n => ⟨cs, { p with height := some n }, h⟩
  | ⟨cs, p, h⟩, .heightRule r => ⟨cs, { p with hRule := some r }, h⟩
  | ⟨cs, p, h⟩, .delete a d => ⟨cs, { p with del := some (a, d) }, h⟩
  | ⟨cs, p, h⟩, .insert a d => ⟨cs, { p with ins := some (a, d) }, h⟩

/-- The formatting methods of `TableCell`. docx-wasm/js/table-cell.ts:101-177. -/
inductive JsCellCall where
  | verticalMerge (t : VMergeType) | verticalAlign (t : VAlignType) | gridSpan (n : Nat) | width (n : Nat)
  | shading (kind color fill : Str) | textDirection (t : TextDirectionType) | setBorder (at_ : TableCellBorderPosition) (b : JsCellBorder)
  | clearBorder (at_ : TableCellBorderPosition) | marginTop (n : Nat) (t : WidthType) | marginLeft (n : Nat) (t : WidthType)
  | marginRight (n : Nat) (t : WidthType) | marginBottom (n : Nat) (t : WidthType)

/-- One of them. docx-wasm/js/table-cell.ts:101-177. -/
def JsCell.call : JsCell → JsCellCall → JsCell
  | ⟨cs, p, h⟩, .verticalMerge t => ⟨cs, { p with verticalMerge := some t }, h⟩
  | ⟨cs, p, h⟩, .verticalAlign t => ⟨cs, { p with verticalAlign := some t }, h⟩
  | ⟨cs, p, h⟩, .gridSpan n => ⟨cs, { p with gridSpan := some n }, h⟩
  | ⟨cs, p, h⟩, .width n => ⟨cs, { p with width := some n }, h⟩
  | ⟨cs, p, h⟩, .shading k c f => ⟨cs, { p with shading := some (k, c, f) }, h⟩
  | ⟨cs, p, h⟩, .textDirection t => ⟨cs, { p with textDirection := some t }, h⟩
  | ⟨cs, p, h⟩, .setBorder a b => ⟨cs, { p with borders := p.borders.set b a }, h⟩
  | ⟨cs, p, h⟩, .clearBorder a => ⟨cs, { p with borders := p.borders.set { kind := some .nil } a }, h⟩
  | ⟨cs, p, h⟩, .marginTop n t => ⟨cs, { p with margins := { p.margins with top := some ⟨n, t⟩ } }, h⟩
  | ⟨cs, p, h⟩, .marginLeft n t => ⟨cs, { p with margins := { p.margins with left := some ⟨n, t⟩ } }, h⟩
  | ⟨cs, p, h⟩, .marginRight n t => ⟨cs, { p with margins := { p.margins with right := some ⟨n, t⟩ } }, h⟩
  | ⟨cs, p, h⟩, .marginBottom n t => ⟨cs, { p with margins := { p.margins with bottom := some ⟨n, t⟩ } }, h⟩

end Docx
