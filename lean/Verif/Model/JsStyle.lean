import Verif.Model.JsCalls
import Verif.Model.Styles

/-!
# Styles made in JavaScript

`Style` of docx-wasm/js/style.ts and how it is handed to the Rust library (docx-wasm/src/style.rs).
-/

namespace Docx

/-- The methods of `ParagraphProperty` itself. docx-wasm/js/paragraph-property.ts:94-128. -/
inductive JsFormatCall where
  | tabs (ts : List Tab) | align (a : AlignmentType) | textAlignment (a : TextAlignmentType) | adjustRightInd (n : Int) | snapToGrid (v : Bool)
  | style (s : Str)

/-- One of them. docx-wasm/js/paragraph-property.ts:94-128. -/
def JsParagraphProperty.ownCall (p : JsParagraphProperty) : JsFormatCall → JsParagraphProperty
  | .tabs ts => { p with tabs := ts }
  | .align a => { p with align := some a }
  | .textAlignment a => { p with textAlignment := some a }
  | .adjustRightInd n => { p with adjustRightInd := some n }
  | .snapToGrid v => { p with snapToGrid := some v }
  | .style s => { p with styleId := some s }

/-- `Style`. docx-wasm/js/style.ts:30-58. -/
structure JsStyle where
  styleId : Str
  styleType : StyleType
  name : Str := []
  runProperty : JsRunProperty := {}
  paragraphProperty : JsParagraphProperty := {}
  tableProperty : JsTableProperty := {}
  basedOn : Option Str := none
  link : Option Str := none
  qFormat : Bool := true
  uiPriority : Option Nat := none
  semiHidden : Bool := false
  unhideWhenUsed : Bool := false

/-- The methods of `Style`. docx-wasm/js/style.ts:60-305. `run` stands for the ones that go to the run property; `caps` and `shading` are not
among them there. Simplification: the records given to `runProperty` and `paragraphProperty` are given by the methods
called on new ones, all of them before. -/
inductive JsStyleCall where
  | name (s : Str) | basedOn (s : Str) | link (s : Str) | qFormat (v : Bool) | uiPriority (n : Nat) | semiHidden | unhideWhenUsed
  | run (c : JsRunCall) | runProperty (calls : List JsRunCall)
  | align (a : AlignmentType) | indent (left : Int) (kind : Option SpecialIndentKind) (size : Option Int) | numbering (id level : Nat)
  | lineSpacing (s : LineSpacing) | keepNext (v : Bool) | keepLines (v : Bool) | snapToGrid (v : Bool) | pageBreakBefore (v : Bool)
  | widowControl (v : Bool) | outlineLevel (n : Nat) | paragraphProperty (calls : List JsFormatCall)
  | tableIndent (n : Int) | tableAlign (a : TableAlignmentType) | layout (l : TableLayoutType) | width (n : Nat)
  | cellMargins (top right bottom left : Nat) | cellMarginTop (n : Nat) (t : WidthType) | cellMarginLeft (n : Nat) (t : WidthType)
  | cellMarginRight (n : Nat) (t : WidthType) | cellMarginBottom (n : Nat) (t : WidthType)

/-- A method of `RunProperty` itself: there `insert` records an insertion. docx-wasm/js/run-property.ts:51-171. -/
def JsRunProperty.ownCall (p : JsRunProperty) : JsRunCall → JsRunProperty
  | .insert a d => { p with ins := some (a, d) }
  | c => p.call c

/-- `disableBold`. docx-wasm/js/run-property.ts:81-84. -/
def JsRunProperty.disableBold (p : JsRunProperty) : JsRunProperty := { p with bold := some false }

/-- `disableItalic`. docx-wasm/js/run-property.ts:111-114. -/
def JsRunProperty.disableItalic (p : JsRunProperty) : JsRunProperty := { p with italic := some false }

/-- `disableStrike`. docx-wasm/js/run-property.ts:91-94. -/
def JsRunProperty.disableStrike (p : JsRunProperty) : JsRunProperty := { p with strike := some false }

/-- Apply a change to the paragraph property. docx-wasm/js/style.ts:192-248. -/
def JsStyle.onParagraph (s : JsStyle) (f : JsParagraphProperty → JsParagraphProperty) : JsStyle :=
  { s with paragraphProperty := f s.paragraphProperty }

/-- Apply a change to the table property. docx-wasm/js/style.ts:257-305. -/
def JsStyle.onTable (s : JsStyle) (f : JsTableProperty → JsTableProperty) : JsStyle := { s with tableProperty := f s.tableProperty }

/-- One of them. docx-wasm/js/style.ts:60-305. -/
def JsStyle.call (s : JsStyle) : JsStyleCall → JsStyle
  | .name n => { s with name := n }
  | .basedOn n => { s with basedOn := some n }
  | .link n => { s with link := some n }
  | .qFormat v => { s with qFormat := v }
  | .uiPriority n => { s with uiPriority := some n }
  | .semiHidden => { s with semiHidden := true }
  | .unhideWhenUsed => { s with unhideWhenUsed := true }
  | .run c => { s with runProperty := s.runProperty.ownCall c }
  | .runProperty cs => { s with runProperty := cs.foldl JsRunProperty.ownCall {} }
  | .align a => s.onParagraph fun p => { p with align := some a }
  | .indent l k n => s.onParagraph fun p => { p with indent := some (l, k, n, none) }
  | .numbering i l => s.onParagraph fun p => { p with numbering := some (i, l) }
  | .lineSpacing x => s.onParagraph fun p => { p with lineSpacing := some x }
  | .keepNext v => s.onParagraph fun p => { p with keepNext := v }
  | .keepLines v => s.onParagraph fun p => { p with keepLines := v }
  | .snapToGrid v => s.onParagraph fun p => { p with snapToGrid := some v }
  | .pageBreakBefore v => s.onParagraph fun p => { p with pageBreakBefore := v }
  | .widowControl v => s.onParagraph fun p => { p with widowControl := v }
  | .outlineLevel n => s.onParagraph fun p => { p with outlineLvl := some n }
  | .paragraphProperty cs => { s with paragraphProperty := cs.foldl JsParagraphProperty.ownCall {} }
  | .tableIndent n => s.onTable fun p => { p with indent := some n }
  | .tableAlign a => s.onTable fun p => { p with align := some a }
  | .layout l => s.onTable fun p => { p with layout := some l }
  | .width n => s.onTable fun p => { p with width := some n }
  | .cellMargins t r b l => s.onTable fun p => { p with cellMargins := ⟨⟨t, .dxa⟩, ⟨l, .dxa⟩, ⟨b, .dxa⟩, ⟨r, .dxa⟩⟩ }
  | .cellMarginTop n t => s.onTable fun p => { p with cellMargins := { p.cellMargins with top := ⟨n, t⟩ } }
  | .cellMarginLeft n t => s.onTable fun p => { p with cellMargins := { p.cellMargins with left := ⟨n, t⟩ } }
  | .cellMarginRight n t => s.onTable fun p => { p with cellMargins := { p.cellMargins with right := ⟨n, t⟩ } }
  | .cellMarginBottom n t => s.onTable fun p => { p with cellMargins := { p.cellMargins with bottom := ⟨n, t⟩ } }

/-- `createParagraphProperty`: flags are handed over only when they are on. docx-wasm/js/paragraph-property.ts:506-678,
docx-wasm/src/paragraph_property.rs:22-109. Simplification: formatting of the paragraph mark and frame, which no method of `Style` or
`ParagraphProperty` sets, are left out. -/
def createParagraphProperty (j : JsParagraphProperty) : ParagraphProperty :=
  let p := ({} : ParagraphProperty)
    |> onSome (j.align.bind createParagraphAlignment) ParagraphProperty.setAlign
    |> onSome j.textAlignment ParagraphProperty.setTextAlignment
    |> onSome j.adjustRightInd ParagraphProperty.setAdjustRightInd
    |> onSome j.indent (fun p x => p.setIndent (some x.1) (createSpecialIndent x.2.1 x.2.2.1) x.2.2.2 none)
    |> onSome j.lineSpacing ParagraphProperty.setLineSpacing
    |> onSome j.numbering (fun p x => p.setNumbering x.1 x.2)
    |> onTrue (some j.keepLines) (·.setKeepLines true)
    |> onSome j.snapToGrid ParagraphProperty.setSnapToGrid
    |> onTrue (some j.keepNext) (·.setKeepNext true)
    |> onTrue (some j.pageBreakBefore) (·.setPageBreakBefore true)
    |> onTrue (some j.widowControl) (·.setWidowControl true)
    |> onSome j.outlineLvl ParagraphProperty.setOutlineLvl
    |> onSome (truthy j.styleId) ParagraphProperty.setStyle
  j.tabs.foldl (fun p t => p.addTab { t with leader := t.leader.map paragraphTabLeader }) p

/-- `Style.buildWasmObject`: a style is handed over to runs only, so the style of the run property is not. docx-wasm/js/style.ts:307-366,
docx-wasm/js/run-property.ts:304-306, docx-wasm/src/style.rs:9-45,96-99,232-240, docx-core elements/based_on.rs:14-18, elements/link.rs:14-18.
For the run and table properties see `setRunProperty` and `setTableProperty`. -/
def JsStyle.build (s : JsStyle) : Style :=
  let x := Style.new s.styleId s.styleType
    |> onSome (truthy (some s.name)) Style.setName
    |> onSome (truthy s.basedOn) (fun x n => { x with basedOn := some (escapeOwned n) })
    |> onSome (truthy s.link) (fun x n => { x with link := some (escapeOwned n) })
    |> onTrue (some !s.qFormat) (fun x => { x with qFormat := false })
    |> onSome s.uiPriority (fun x n => { x with uiPriority := some n })
    |> onTrue (some s.semiHidden) (fun x => { x with semiHidden := true })
    |> onTrue (some s.unhideWhenUsed) (fun x => { x with unhideWhenUsed := true })
  let x := { x with runProperty := setRunProperty x.runProperty { s.runProperty with style := none } }
  let x := { x with paragraphProperty := createParagraphProperty s.paragraphProperty }
  { x with tableProperty := setTableProperty x.tableProperty s.tableProperty }

end Docx
