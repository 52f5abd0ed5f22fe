import Verif.Spec.Kept
import Verif.Model.PropTypes

/-!
# Paragraph formatting and page set-up that can survive writing and reading

Written without reference to the reader.
-/

namespace Docx.Spec

/-- The range of `i32`. -/
def InI32 (i : Int) : Prop := -(2 ^ 31) ≤ i ∧ i < 2 ^ 31

/-- A reference to a header or footer part, in the field for its type. -/
def KeptReference (type : Str) (o : Option PartReference) : Prop := ∀ r, o = some r → r.type = type ∧ PlainValue r.id

/-- Page set-up that survives: no orientation, and the defaults for columns and text direction. -/
structure SectionBase.Kept (p : SectionBase) : Prop where
  width : p.pageSize.w < 2 ^ 31
  height : p.pageSize.h < 2 ^ 31
  orient : p.pageSize.orient = none
  margins : InI32 p.pageMargin.top ∧ InI32 p.pageMargin.left ∧ InI32 p.pageMargin.bottom ∧ InI32 p.pageMargin.right ∧
    InI32 p.pageMargin.header ∧ InI32 p.pageMargin.footer ∧ InI32 p.pageMargin.gutter
  columns : p.columns = 1
  space : p.space = 425
  textDirection : p.textDirection = c!"lrTb"
  grid : ∀ d, p.docGrid = some d → (∀ n, d.linePitch = some n → n ≤ 2 ^ 24) ∧
    ∀ i, d.charSpace = some i → -(2 ^ 24) ≤ i ∧ i ≤ 2 ^ 24
  header : KeptReference c!"default" p.headerReference
  firstHeader : KeptReference c!"first" p.firstHeaderReference
  evenHeader : KeptReference c!"even" p.evenHeaderReference
  footer : KeptReference c!"default" p.footerReference
  firstFooter : KeptReference c!"first" p.firstFooterReference
  evenFooter : KeptReference c!"even" p.evenFooterReference
  pageNumber : ∀ t, p.pageNumType = some t → (∀ n, t.start = some n → n < 2 ^ 32) ∧ ∀ s, t.chapStyle = some s → PlainValue s

/-- A border in the field for its place, with numbers a `u32` holds. -/
def KeptBorder (place : ParagraphBorderPosition) (o : Option ParagraphBorder) : Prop :=
  ∀ b, o = some b → b.position = place ∧ b.size < 2 ^ 32 ∧ b.space < 2 ^ 32 ∧ PlainValue b.color

/-- Paragraph formatting that survives, apart from the tracked change. -/
structure ParagraphBase.Kept (p : ParagraphBase) : Prop where
  runProperty : RunProperty.Kept p.runProperty
  style : ∀ s, p.style = some s → EscapedFrom s
  numbering : ∀ n, p.numberingProperty = some n →
    (∀ i, n.id = some i → i < 2 ^ 64) ∧ ∀ l, n.level = some l → l < 2 ^ 64
  alignment : ∀ s, p.alignment = some s → ∃ k : AlignmentType, s = k.toStr
  /-- Both sides are given, and no indent in characters except at the start. -/
  indent : ∀ i, p.indent = some i → (∃ a, i.start = some a ∧ InI32 a) ∧ (∃ a, i.end_ = some a ∧ InI32 a) ∧
    (∀ a, i.special = some (.firstLine a) → InI32 a) ∧ (∀ a, i.special = some (.hanging a) → InI32 a) ∧
    (∀ a, i.startChars = some a → InI32 a) ∧ i.hangingChars = none ∧ i.firstLineChars = none
  lineSpacing : ∀ l, p.lineSpacing = some l → (∀ n, l.before = some n → n < 2 ^ 32) ∧
    (∀ n, l.after = some n → n < 2 ^ 32) ∧ (∀ n, l.beforeLines = some n → n < 2 ^ 32) ∧
    (∀ n, l.afterLines = some n → n < 2 ^ 32) ∧ ∀ i, l.line = some i → InI32 i
  /-- Switches are on or not set. -/
  keepNext : p.keepNext ≠ some false
  keepLines : p.keepLines ≠ some false
  pageBreakBefore : p.pageBreakBefore ≠ some false
  widowControl : p.widowControl ≠ some false
  bidi : p.bidi = none
  outlineLvl : ∀ n, p.outlineLvl = some n → n ≤ 9
  section_ : ∀ s, p.sectionProperty = some s → SectionBase.Kept s
  tabs : ∀ t ∈ p.tabs, ∀ n, t.pos = some n → n ≤ 2 ^ 24
  borders : ∀ b, p.borders = some b → KeptBorder .left b.left ∧ KeptBorder .right b.right ∧ KeptBorder .top b.top ∧
    KeptBorder .bottom b.bottom ∧ KeptBorder .between b.between ∧ KeptBorder .bar b.bar
  /-- No spaces around the frame. -/
  frame : ∀ f, p.frameProperty = some f → f.hSpace = none ∧ f.vSpace = none ∧ (∀ s ∈ f.strings, PlainValue s) ∧
    (∀ n, f.h = some n → n < 2 ^ 32) ∧ (∀ n, f.w = some n → n < 2 ^ 32) ∧ (∀ i, f.x = some i → InI32 i) ∧
    ∀ i, f.y = some i → InI32 i
  adjustRightInd : ∀ i, p.adjustRightInd = some i → -(2 ^ 63) ≤ i ∧ i < 2 ^ 63
  shading : ∀ s, p.shading = some s → PlainValue s.color ∧ PlainValue s.fill
  divId : p.divId = none

mutual
/-- Paragraph formatting that survives. -/
def ParagraphProperty.Kept : ParagraphProperty → Prop
  | ⟨base, change⟩ => ParagraphBase.Kept base ∧ KeptChange change
/-- A recorded change that survives. -/
def KeptChange : Option ParagraphPropertyChange → Prop
  | none => True
  | some c => ParagraphPropertyChange.Kept c
/-- A recorded change that survives. -/
def ParagraphPropertyChange.Kept : ParagraphPropertyChange → Prop
  | ⟨author, date, property⟩ => EscapedFrom author ∧ PlainValue date ∧ ParagraphProperty.Kept property
end

end Docx.Spec
