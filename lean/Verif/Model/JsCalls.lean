import Verif.Model.Js

/-!
# The methods of the JavaScript interface that format paragraphs
-/

namespace Docx

/-- A formatting method of `Run`: `this.property ??= createDefaultRunProperty()`, then the method of the property.
docx-wasm/js/run.ts:73-186. -/
def JsRun.call (r : JsRun) (c : JsRunCall) : JsRun := { r with property := some ((r.property.getD {}).call c) }

/-- The methods that set the frame of a paragraph. docx-wasm/js/paragraph.ts:225-295. -/
inductive JsFrameCall where
  | h (n : Nat) | hRule (s : Str) | hAnchor (s : Str) | hSpace (n : Int) | vAnchor (s : Str) | vSpace (n : Int) | w (n : Nat)
  | wrap (s : Str) | x (n : Int) | xAlign (s : Str) | y (n : Int) | yAlign (s : Str)

/-- One of them. docx-wasm/js/paragraph.ts:225-295. -/
def JsFrameCall.on (f : FrameProperty) : JsFrameCall → FrameProperty
  | .h n => { f with h := some n }
  | .hRule s => { f with hRule := some s }
  | .hAnchor s => { f with hAnchor := some s }
  | .hSpace n => { f with hSpace := some n }
  | .vAnchor s => { f with vAnchor := some s }
  | .vSpace n => { f with vSpace := some n }
  | .w n => { f with w := some n }
  | .wrap s => { f with wrap := some s }
  | .x n => { f with x := some n }
  | .xAlign s => { f with xAlign := some s }
  | .y n => { f with y := some n }
  | .yAlign s => { f with yAlign := some s }

/-- The formatting methods of `Paragraph`. docx-wasm/js/paragraph.ts:91-295. Not here: `paragraphPropertyChange`. -/
inductive JsParagraphCall where
  | tabs (ts : List Tab) | align (a : AlignmentType) | textAlignment (a : TextAlignmentType) | adjustRightInd (n : Int)
  | style (s : Str) | indent (left : Int) (kind : Option SpecialIndentKind) (size right : Option Int)
  | numbering (id level : Nat) | lineSpacing (s : LineSpacing) | characterSpacing (n : Int) | snapToGrid (v : Bool)
  | keepNext (v : Bool) | keepLines (v : Bool) | pageBreakBefore (v : Bool) | widowControl (v : Bool) | size (n : Nat)
  | color (s : Str) | bold | italic | fonts (f : JsFonts) | delete (author date : Str) | insert (author date : Str)
  | outlineLevel (n : Nat) | frame (c : JsFrameCall)

/-- One of them. docx-wasm/js/paragraph.ts:91-295. -/
def JsParagraph.call : JsParagraph → JsParagraphCall → JsParagraph
  | ⟨cs, p, h⟩, .tabs ts => ⟨cs, { p with tabs := ts }, h⟩
  | ⟨cs, p, h⟩, .align a => ⟨cs, { p with align := some a }, h⟩
  | ⟨cs, p, h⟩, .textAlignment a => ⟨cs, { p with textAlignment := some a }, h⟩
  | ⟨cs, p, h⟩, .adjustRightInd n => ⟨cs, { p with adjustRightInd := some n }, h⟩
  | ⟨cs, p, h⟩, .style s => ⟨cs, { p with styleId := some s }, h⟩
  | ⟨cs, p, h⟩, .indent l k s r => ⟨cs, { p with indent := some (l, k, s, r) }, h⟩
  | ⟨cs, p, _⟩, .numbering i l => ⟨cs, { p with numbering := some (i, l) }, true⟩
  | ⟨cs, p, h⟩, .lineSpacing s => ⟨cs, { p with lineSpacing := some s }, h⟩
  | ⟨cs, p, h⟩, .characterSpacing n => ⟨cs, { p with runProperty := { p.runProperty with characterSpacing := some n } }, h⟩
  | ⟨cs, p, h⟩, .snapToGrid v => ⟨cs, { p with snapToGrid := some v }, h⟩
  | ⟨cs, p, h⟩, .keepNext v => ⟨cs, { p with keepNext := v }, h⟩
  | ⟨cs, p, h⟩, .keepLines v => ⟨cs, { p with keepLines := v }, h⟩
  | ⟨cs, p, h⟩, .pageBreakBefore v => ⟨cs, { p with pageBreakBefore := v }, h⟩
  | ⟨cs, p, h⟩, .widowControl v => ⟨cs, { p with widowControl := v }, h⟩
  | ⟨cs, p, h⟩, .size n => ⟨cs, { p with runProperty := { p.runProperty with size := some n } }, h⟩
  | ⟨cs, p, h⟩, .color s => ⟨cs, { p with runProperty := { p.runProperty with color := some s } }, h⟩
  | ⟨cs, p, h⟩, .bold => ⟨cs, { p with runProperty := { p.runProperty with bold := some true } }, h⟩
  | ⟨cs, p, h⟩, .italic => ⟨cs, { p with runProperty := { p.runProperty with italic := some true } }, h⟩
  | ⟨cs, p, h⟩, .fonts f => ⟨cs, { p with runProperty := { p.runProperty with fonts := some f } }, h⟩
  | ⟨cs, p, h⟩, .delete a d => ⟨cs, { p with runProperty := { p.runProperty with del := some (a, d) } }, h⟩
  | ⟨cs, p, h⟩, .insert a d => ⟨cs, { p with runProperty := { p.runProperty with ins := some (a, d) } }, h⟩
  | ⟨cs, p, h⟩, .outlineLevel n => ⟨cs, { p with outlineLvl := some n }, h⟩
  | ⟨cs, p, h⟩, .frame c => ⟨cs, { p with frame := c.on p.frame }, h⟩

end Docx
