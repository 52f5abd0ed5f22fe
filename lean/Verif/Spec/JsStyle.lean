import Verif.Model.JsFile
import Verif.Spec.JsFormat
import Verif.Spec.JsTableFormat

/-!
# Specification: what the methods of a style of the JavaScript interface stand for

For every method the setter of the Rust library of the same name.
-/

namespace Docx.Spec

open Docx

/-- How a style made in JavaScript begins: tables have no indent and the default margins. -/
def plainStyle (id : Str) (t : StyleType) : Style := { Style.new id t with tableProperty := plainTable.2 }

/-- Apply a change to the formatting of paragraphs. -/
def styleParagraph (s : Style) (f : ParagraphProperty → ParagraphProperty) : Style := { s with paragraphProperty := f s.paragraphProperty }

/-- Apply a change to the formatting of tables. -/
def styleTable (s : Style) (c : JsTableCall) : Style := { s with tableProperty := (JsTableCall.wanted ([], s.tableProperty) c).2 }

/-- What a method of `ParagraphProperty` stands for. -/
def JsFormatCall.wanted (p : ParagraphProperty) : JsFormatCall → ParagraphProperty
  | .tabs ts => p.upd fun b => { b with tabs := ts }
  | .align a => p.setAlign a
  | .textAlignment a => p.setTextAlignment a
  | .adjustRightInd n => p.setAdjustRightInd n
  | .snapToGrid v => p.setSnapToGrid v
  | .style s => p.setStyle s

/-- The calls that come through: not the alignment `start`, no tab led by underscores, no empty style. -/
def JsFormatCall.comesThrough : JsFormatCall → Prop
  | .tabs ts => ∀ t ∈ ts, t.leader ≠ some .underscore
  | .align a => a ≠ .start
  | .style s => s ≠ []
  | _ => True

/-- What a method of `Style` stands for. -/
def JsStyleCall.wanted (s : Style) : JsStyleCall → Style
  | .name n => { s with name := escapeOwned n }
  | .basedOn n => { s with basedOn := some (escapeOwned n) }
  | .link n => { s with link := some (escapeOwned n) }
  | .qFormat v => { s with qFormat := v }
  | .uiPriority n => { s with uiPriority := some n }
  | .semiHidden => { s with semiHidden := true }
  | .unhideWhenUsed => { s with unhideWhenUsed := true }
  | .run c => { s with runProperty := JsRunCall.wanted s.runProperty c }
  | .runProperty cs => { s with runProperty := cs.foldl JsRunCall.wanted {} }
  | .align a => styleParagraph s (·.setAlign a)
  | .indent l none _ => styleParagraph s (·.setIndent (some l) none none none)
  | .indent l (some .firstLine) n => styleParagraph s (·.setIndent (some l) (some (.firstLine (n.getD 0))) none none)
  | .indent l (some .hanging) n => styleParagraph s (·.setIndent (some l) (some (.hanging (n.getD 0))) none none)
  | .numbering i l => styleParagraph s (·.setNumbering i l)
  | .lineSpacing x => styleParagraph s (·.setLineSpacing x)
  | .keepNext v => styleParagraph s (·.setKeepNext v)
  | .keepLines v => styleParagraph s (·.setKeepLines v)
  | .snapToGrid v => styleParagraph s (·.setSnapToGrid v)
  | .pageBreakBefore v => styleParagraph s (·.setPageBreakBefore v)
  | .widowControl v => styleParagraph s (·.setWidowControl v)
  | .outlineLevel n => styleParagraph s (·.setOutlineLvl n)
  | .paragraphProperty cs => { s with paragraphProperty := cs.foldl JsFormatCall.wanted {} }
  | .tableIndent n => styleTable s (.indent n)
  | .tableAlign a => styleTable s (.align a)
  | .layout l => styleTable s (.layout l)
  | .width n => styleTable s (.width n)
  | .cellMargins t r b l => styleTable s (.cellMargins t r b l)
  | .cellMarginTop n t => styleTable s (.cellMarginTop n t)
  | .cellMarginLeft n t => styleTable s (.cellMarginLeft n t)
  | .cellMarginRight n t => styleTable s (.cellMarginRight n t)
  | .cellMarginBottom n t => styleTable s (.cellMarginBottom n t)

/-- The style asked for by the methods called on a new one. -/
def wantedStyle (id : Str) (t : StyleType) (calls : List JsStyleCall) : Style := calls.foldl JsStyleCall.wanted (plainStyle id t)

/-- The methods of runs that come through in a style: not the style, and those that do on runs. -/
def runInStyle : JsRunCall → Prop
  | .style _ => False
  | c => JsRunCall.comesThrough c

/-- The methods of runs that a call on a style is or brings with it. -/
def runsOf : JsStyleCall → List JsRunCall
  | .run c => [c]
  | .runProperty cs => cs
  | _ => []

/-- The calls that come through: no empty base or link, no style for runs and no run formatting that is lost on runs, not the alignment
`start`, no flag turned off, no width. -/
def JsStyleCall.comesThrough : JsStyleCall → Prop
  | .basedOn s | .link s => s ≠ []
  | .run c => runInStyle c
  | .runProperty cs => ∀ c ∈ cs, runInStyle c
  | .align a => a ≠ .start
  | .keepNext v | .keepLines v | .pageBreakBefore v | .widowControl v => v = true
  | .width _ => False
  | .paragraphProperty cs => ∀ c ∈ cs, JsFormatCall.comesThrough c
  | _ => True

/-- The style a call adds. -/
def givesStyle : JsFileCall → Option JsStyle | .addStyle s => some s | _ => none

end Docx.Spec
