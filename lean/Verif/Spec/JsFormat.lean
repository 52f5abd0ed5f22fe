import Verif.Model.JsCalls

/-!
# Specification: what a formatting method of the JavaScript interface stands for

For every method the setter of the Rust library of the same name.
-/

namespace Docx.Spec

open Docx

/-- What a method of `RunFonts` stands for. -/
def JsFontCall.wanted (f : RunFonts) : JsFontCall → RunFonts
  | .ascii s => f.setAscii s
  | .hiAnsi s => f.setHiAnsi s
  | .cs s => f.setCs s
  | .eastAsia s => f.setEastAsia s
  | .asciiTheme s => f.setAsciiTheme s
  | .hiAnsiTheme s => f.setHiAnsiTheme s
  | .csTheme s => f.setCsTheme s
  | .eastAsiaTheme s => f.setEastAsiaTheme s
  | .hint s => f.setHint s

/-- The text given to a method of `RunFonts`. -/
def JsFontCall.given : JsFontCall → Str
  | .ascii s | .hiAnsi s | .cs s | .eastAsia s | .asciiTheme s | .hiAnsiTheme s | .csTheme s | .eastAsiaTheme s | .hint s => s

/-- The method is `eastAsiaTheme`. -/
def JsFontCall.isEastAsiaTheme : JsFontCall → Bool
  | .eastAsiaTheme _ => true
  | _ => false

/-- What a formatting method of `Run` stands for; the fonts are those `JsFontCall.wanted` speaks about. -/
def JsRunCall.wanted (p : RunProperty) : JsRunCall → RunProperty
  | .style s => p.setStyle s
  | .size n => p.setSize n
  | .color s => p.setColor s
  | .highlight s => p.setHighlight s
  | .vertAlign a => p.setVertAlign a
  | .bold => p.setBold
  | .strike => p.setStrike
  | .dstrike => p.setDstrike
  | .italic => p.setItalic
  | .underline s => p.setUnderline s
  | .vanish => p.setVanish
  | .caps => p.setCaps
  | .fonts f => p.setFonts f.build
  | .spacing n => p.setSpacing n
  | .fitText n i => p.setFitText n i
  | .delete a d => p.setDelete (.new a d)
  | .insert a d => p.setInsert (.new a d)
  | .textBorder k s sp c => p.setTextBorder ⟨k, s, c, sp⟩
  | .shading k c f => p.setShading { shdType := (ShdType.fromStr k).getD .clear, color := c, fill := f }

/-- The ten kinds of lines JavaScript programs can ask for. -/
def knownBorders : List BorderType :=
  [.nil, .none_, .single, .thick, .double, .dotted, .dashed, .dotDash, .dotDotDash, .triple]

/-- The calls that come through: no empty text, no mark of an insertion or deletion, a position above or below the line,
one of ten kinds of lines. -/
def JsRunCall.comesThrough : JsRunCall → Prop
  | .style s | .color s | .highlight s | .underline s => s ≠ []
  | .vertAlign a => a = .superScript ∨ a = .subScript
  | .delete _ _ | .insert _ _ => False
  | .textBorder k _ _ _ => k ∈ knownBorders
  | _ => True

/-- What a method that sets the frame stands for. -/
def JsFrameCall.wanted (p : ParagraphProperty) (c : JsFrameCall) : ParagraphProperty :=
  p.setFrameProperty (c.on (p.base.frameProperty.getD {}))

/-- What a formatting method of `Paragraph` stands for. -/
def JsParagraphCall.wanted (p : ParagraphProperty) : JsParagraphCall → ParagraphProperty
  | .tabs ts => p.upd fun b => { b with tabs := ts }
  | .align a => p.setAlign a
  | .textAlignment a => p.setTextAlignment a
  | .adjustRightInd n => p.setAdjustRightInd n
  | .style s => p.setStyle s
  | .indent l none _ r => p.setIndent (some l) none r none
  | .indent l (some .firstLine) s r => p.setIndent (some l) (some (.firstLine (s.getD 0))) r none
  | .indent l (some .hanging) s r => p.setIndent (some l) (some (.hanging (s.getD 0))) r none
  | .numbering i l => p.setNumbering i l
  | .lineSpacing s => p.setLineSpacing s
  | .characterSpacing n => p.setCharacterSpacing n
  | .snapToGrid v => p.setSnapToGrid v
  | .keepNext v => p.setKeepNext v
  | .keepLines v => p.setKeepLines v
  | .pageBreakBefore v => p.setPageBreakBefore v
  | .widowControl v => p.setWidowControl v
  | .size n => p.setRunProperty (p.base.runProperty.setSize n)
  | .color s => p.setRunProperty (p.base.runProperty.setColor s)
  | .bold => p.setRunProperty p.base.runProperty.setBold
  | .italic => p.setRunProperty p.base.runProperty.setItalic
  | .fonts f => p.setRunProperty (p.base.runProperty.setFonts f.build)
  | .delete a d => p.setRunProperty (p.base.runProperty.setDelete (.new a d))
  | .insert a d => p.setRunProperty (p.base.runProperty.setInsert (.new a d))
  | .outlineLevel n => p.setOutlineLvl n
  | .frame c => JsFrameCall.wanted p c

/-- The calls that come through: not the alignment `start`, no tab led by underscores, no flag turned off, no size 0, no
empty colour, no themes or hint for fonts. -/
def JsParagraphCall.comesThrough : JsParagraphCall → Prop
  | .tabs ts => ∀ t ∈ ts, t.leader ≠ some .underscore
  | .align a => a ≠ .start
  | .keepNext v | .keepLines v | .pageBreakBefore v | .widowControl v => v = true
  | .size n => n ≠ 0
  | .color s => s ≠ []
  | .fonts f => f.asciiTheme = none ∧ f.hiAnsiTheme = none ∧ f.csTheme = none ∧ f.eastAsiaTheme = none ∧ f.hint = none
  | _ => True

end Docx.Spec
