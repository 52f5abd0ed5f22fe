import Verif.Spec.KeptParagraph

/-!
# Table, row and cell formatting that can survive writing and reading

Written without reference to the reader.
-/

namespace Docx.Spec

/-- A table border in the field for its place, without a space around it. -/
def KeptTableBorder (place : TableBorderPosition) (o : Option TableBorder) : Prop :=
  ∀ b, o = some b → b.position = place ∧ b.size < 2 ^ 32 ∧ b.space = 0 ∧ PlainValue b.color

/-- A cell border in the field for its place, without a space around it. -/
def KeptCellBorder (place : TableCellBorderPosition) (o : Option TableCellBorder) : Prop :=
  ∀ b, o = some b → b.position = place ∧ b.size < 2 ^ 32 ∧ b.space = 0 ∧ PlainValue b.color

/-- Table formatting that survives. -/
structure TableProperty.Kept (p : TableProperty) : Prop where
  width : p.width.width < 2 ^ 31
  justification : ∃ k : TableAlignmentType, p.justification = k.toStr
  top : KeptTableBorder .top p.borders.top
  left : KeptTableBorder .left p.borders.left
  bottom : KeptTableBorder .bottom p.borders.bottom
  right : KeptTableBorder .right p.borders.right
  insideH : KeptTableBorder .insideH p.borders.insideH
  insideV : KeptTableBorder .insideV p.borders.insideV
  margins : ∀ m, p.margins = some m → m.top.val < 2 ^ 31 ∧ m.left.val < 2 ^ 31 ∧ m.bottom.val < 2 ^ 31 ∧ m.right.val < 2 ^ 31
  /-- Not zero, and in twentieths of a point. -/
  indent : ∀ i, p.indent = some i → InI32 i.width ∧ i.width ≠ 0 ∧ i.widthType = .dxa
  style : ∀ s, p.style = some s → PlainValue s
  layout : p.layout = none
  position : ∀ t, p.position = some t → (∀ s ∈ t.strings, PlainValue s) ∧ (∀ i, t.leftFromText = some i → InI32 i) ∧
    (∀ i, t.rightFromText = some i → InI32 i) ∧ (∀ i, t.positionX = some i → InI32 i) ∧ ∀ i, t.positionY = some i → InI32 i

/-- Cell formatting that survives. -/
structure TableCellProperty.Kept (p : TableCellProperty) : Prop where
  width : ∀ w, p.width = some w → w.width < 2 ^ 31
  borders : ∀ b, p.borders = some b → KeptCellBorder .top b.top ∧ KeptCellBorder .left b.left ∧
    KeptCellBorder .bottom b.bottom ∧ KeptCellBorder .right b.right ∧ KeptCellBorder .insideH b.insideH ∧
    KeptCellBorder .insideV b.insideV ∧ KeptCellBorder .tr2bl b.tr2bl ∧ KeptCellBorder .tl2br b.tl2br
  /-- A `usize`. -/
  gridSpan : ∀ n, p.gridSpan = some n → n < 2 ^ 64
  shading : ∀ s, p.shading = some s → PlainValue s.color ∧ PlainValue s.fill
  margins : ∀ m, p.margins = some m → (∀ c, m.top = some c → c.val < 2 ^ 31) ∧ (∀ c, m.left = some c → c.val < 2 ^ 31) ∧
    (∀ c, m.bottom = some c → c.val < 2 ^ 31) ∧ ∀ c, m.right = some c → c.val < 2 ^ 31

/-- Row formatting that survives: a height comes with its rule, and a rule with its height. -/
structure TableRowProperty.Kept (p : TableRowProperty) : Prop where
  gridAfter : p.gridAfter = none
  widthAfter : p.widthAfter = none
  gridBefore : p.gridBefore = none
  widthBefore : p.widthBefore = none
  cantSplit : p.cantSplit = none
  rowHeight : ∀ h, p.rowHeight = some h → ∃ n, n ≤ 2 ^ 24 ∧ h = dec n
  heightRule : p.heightRule.isSome = p.rowHeight.isSome
  ins : ∀ m, p.ins = some m → EscapedFrom m.author ∧ PlainValue m.date
  del : ∀ m, p.del = some m → EscapedFrom m.author ∧ PlainValue m.date

end Docx.Spec
