import Verif.Lemmas.Build

/-!
# Induction over what formatting is written as

`contentNames` are the elements that carry content: paragraphs, runs, texts, tables, anchors, pictures.
`revisionNames` are the tracked changes. `PlainF f`: none of either occurs in the nodes `f`.
`Formats Q`: the predicate `Q` on tree writers is closed under the ways formatting is put together.
-/

namespace Docx

set_option linter.unusedSimpArgs false

open Docx.Spec

/-- Elements that carry content. -/
def contentNames : List Str :=
  [c!"w:t", c!"w:delText", c!"w:instrText", c!"w:delInstrText", c!"w:p", c!"w:hyperlink",
   c!"w:commentRangeStart", c!"w:commentRangeEnd", c!"w:commentReference", c!"w:footnoteReference",
   c!"a:blip", c!"w:bookmarkStart", c!"w:bookmarkEnd", c!"w:tbl", c!"w:tr", c!"w:tc", c!"w:r", c!"w:sdt",
   c!"w:sdtContent", c!"w:fldChar", c!"w:drawing", c!"w:br", c!"w:cr", c!"w:sym", c!"w:comment", c!"w:footnote"]

/-- Elements that carry a tracked change. -/
def revisionNames : List Str := [c!"w:ins", c!"w:del", c!"w:moveFrom", c!"w:moveTo", c!"w:pPrChange"]

/-- Neither the name of a content element nor of a tracked change. -/
def PlainName (n : Str) : Prop := n ∉ contentNames ++ revisionNames
instance (n : Str) : Decidable (PlainName n) := by unfold PlainName; infer_instance

theorem plainName_lit {n : Str} (h : decide (PlainName n) = true) : PlainName n := of_decide_eq_true h

/-- No content element and no tracked change in these nodes. -/
def PlainF (f : List Node) : Prop := ∀ n as, Tag.opn n as ∈ tagsForest f → PlainName n

theorem PlainF.nil : PlainF [] := by intro n as h; simp [tagsForest] at h
theorem PlainF.elem {n : Str} {as : List (Str × Str)} {cs : List Node} (h1 : PlainName n) (h2 : PlainF cs) :
    PlainF [.elem n as cs] := by
  intro m bs h
  simp only [tagsForest, Node.tags, List.append_nil, List.cons_append, List.mem_cons, List.mem_append,
    List.not_mem_nil, or_false] at h
  rcases h with h | h | h
  · cases h; exact h1
  · exact h2 _ _ h
  · cases h
theorem PlainF.append {f f' : List Node} (h : PlainF f) (h' : PlainF f') : PlainF (f ++ f') := by
  intro n as h2
  rw [tagsForest_append', List.mem_append] at h2
  rcases h2 with h2 | h2
  · exact h _ _ h2
  · exact h' _ _ h2
theorem PlainF.cons {x : Node} {f : List Node} (h : PlainF [x]) (h' : PlainF f) : PlainF (x :: f) := h.append h'
theorem PlainF.text (s : Str) : PlainF [.text s] := by
  intro n as h
  simp [tagsForest, Node.tags] at h
theorem PlainF.leaf {n : Str} {as : List (Str × Str)} (h : PlainName n) : PlainF (leafN n as) := .elem h .nil
theorem PlainF.val {n v : Str} (h : PlainName n) : PlainF (valN n v) := .leaf h
theorem PlainF.opt {α} {o : Option α} {f : α → List Node} (h : ∀ a, PlainF (f a)) : PlainF (optN o f) := by
  cases o
  · exact .nil
  · exact h _
theorem PlainF.ite {c : Prop} [Decidable c] {f f' : List Node} (h : PlainF f) (h' : PlainF f') :
    PlainF (if c then f else f') := by
  split <;> assumption
theorem PlainF.flatMap {α} {l : List α} {f : α → List Node} (h : ∀ a, PlainF (f a)) : PlainF (l.flatMap f) := by
  induction l with
  | nil => exact .nil
  | cons a l ih => rw [List.flatMap_cons]; exact (h a).append ih


/-- `Q` is closed under the ways formatting is put together. -/
structure Formats (Q : N → Prop) : Prop where
  emit : ∀ {f}, PlainF f → Q (emitN f)
  panic : Q panicN
  thenN : ∀ {m n : N}, Q m → Q n → Q (m.thenN n)
  elem : ∀ {name as m}, PlainName name → Q m → Q (elemN name as m)
  mark : ∀ name ∈ [c!"w:ins", c!"w:del"], ∀ m : Mark, Q (m.nodes name)
  change : ∀ a d (m : N), Q m → Q (withChangeN fun i => elemN c!"w:pPrChange" (revisionAttrs i a d) m)

theorem Formats.catNil {Q : N → Prop} (hQ : Formats Q) : Q (catN []) := hQ.emit .nil
theorem Formats.catCons {Q : N → Prop} (hQ : Formats Q) {m : N} {l : List N} (hm : Q m) (hl : Q (catN l)) :
    Q (catN (m :: l)) := hQ.thenN hm hl
theorem Formats.ifN {Q : N → Prop} (hQ : Formats Q) {c : Bool} {m : N} (h : Q m) : Q (Docx.ifN c m) := by
  cases c
  · exact hQ.emit .nil
  · exact h
theorem Formats.opt {Q : N → Prop} (hQ : Formats Q) {α} {o : Option α} {f : α → N} (h : ∀ a, Q (f a)) :
    Q (optNB o f) := by
  cases o with
  | none => exact hQ.emit .nil
  | some a => exact h a

/-- Split a goal along the shape of the nodes. -/
macro "plain" : tactic => `(tactic| repeat' first
  | with_reducible assumption
  | with_reducible apply Formats.emit ‹_› | with_reducible exact Formats.panic ‹_›
  | with_reducible exact Formats.catNil ‹_› | with_reducible apply Formats.catCons ‹_›
  | with_reducible apply Formats.elem ‹_› | with_reducible apply Formats.ifN ‹_›
  | with_reducible apply Formats.thenN ‹_›
  | (with_reducible apply Formats.opt ‹_›; intro _)
  | with_reducible exact PlainF.nil | with_reducible apply PlainF.val
  | with_reducible apply PlainF.leaf
  | (with_reducible apply PlainF.opt; intro _)
  | with_reducible apply PlainF.ite | with_reducible apply PlainF.append
  | with_reducible apply PlainF.elem | with_reducible apply PlainF.text | with_reducible apply PlainF.cons
  | (with_reducible apply plainName_lit; rw [String.toList_ofList]; decide))

theorem toggle_plain {n : Str} (h : PlainName n) (b : Bool) : PlainF (toggleNodes n b) := by
  unfold toggleNodes; plain
theorem toggleCs_plain {n : Str} (h : PlainName n) (b : Bool) : PlainF (toggleCsNodes n b) := .leaf h
theorem border_plain {n : Str} (h : PlainName n) (t : BorderType) (a b : Nat) (c : Str) :
    PlainF (borderNodes n t a b c) := .leaf h
theorem width_plain {n : Str} (h : PlainName n) (w : Int) (t : WidthType) : PlainF (widthNodes n w t) := .leaf h
theorem PartReference.plain {n : Str} (hn : PlainName n) (x : PartReference) : PlainF (x.nodes n) := by
  unfold PartReference.nodes; plain
theorem CellMargin.plain {n : Str} (h : PlainName n) (x : CellMargin) : PlainF (x.nodes n) := width_plain h _ _
theorem Color.plain (x : Color) : PlainF x.nodes := by
  unfold Color.nodes
  plain
theorem RunFonts.plain (x : RunFonts) : PlainF x.nodes := by
  unfold RunFonts.nodes
  plain
theorem FitText.plain (x : FitText) : PlainF x.nodes := by
  unfold FitText.nodes
  plain
theorem PositionalTab.plain (x : PositionalTab) : PlainF x.nodes := by
  unfold PositionalTab.nodes
  plain
theorem Shading.plain (x : Shading) : PlainF x.nodes := by
  unfold Shading.nodes
  plain
theorem TextBorder.plain (x : TextBorder) : PlainF x.nodes := border_plain (by decide) _ _ _ _
theorem RunProperty.formats {Q : N → Prop} (hQ : Formats Q) (x : RunProperty) : Q x.nodes := by
  unfold RunProperty.nodes
  plain
  all_goals first
    | with_reducible exact toggle_plain (by decide) _
    | with_reducible exact toggleCs_plain (by decide) _
    | with_reducible exact FitText.plain _
    | with_reducible exact PositionalTab.plain _
    | with_reducible exact Color.plain _
    | with_reducible exact RunFonts.plain _
    | with_reducible exact TextBorder.plain _
    | with_reducible exact Shading.plain _
    | with_reducible exact hQ.mark _ (by decide) _
theorem PageSize.plain (x : PageSize) : PlainF x.nodes := by
  unfold PageSize.nodes
  plain
theorem PageMargin.plain (x : PageMargin) : PlainF x.nodes := by
  unfold PageMargin.nodes
  plain
theorem DocGrid.plain (x : DocGrid) : PlainF x.nodes := by
  unfold DocGrid.nodes
  plain
theorem PageNumType.plain (x : PageNumType) : PlainF x.nodes := by
  unfold PageNumType.nodes
  plain
theorem SectionBase.plain (x : SectionBase) : PlainF x.nodes := by
  unfold SectionBase.nodes
  plain
  all_goals first
    | with_reducible exact PageSize.plain _
    | with_reducible exact PageMargin.plain _
    | with_reducible exact DocGrid.plain _
    | with_reducible exact PageNumType.plain _
    | with_reducible exact PartReference.plain (by decide) _
theorem NumberingProperty.plain (x : NumberingProperty) : PlainF x.nodes := by
  unfold NumberingProperty.nodes
  plain
theorem FrameProperty.plain (x : FrameProperty) : PlainF x.nodes := by
  unfold FrameProperty.nodes
  plain
theorem Indent.plain (x : Indent) : PlainF x.nodes := by
  unfold Indent.nodes
  plain
theorem LineSpacing.plain (x : LineSpacing) : PlainF x.nodes := by
  unfold LineSpacing.nodes
  plain
theorem ParagraphBorderPosition.plainName (t : ParagraphBorderPosition) : PlainName t.element := plainName_lit (by cases t <;> decide)
theorem TableBorderPosition.plainName (t : TableBorderPosition) : PlainName t.element := plainName_lit (by cases t <;> decide)
theorem TableCellBorderPosition.plainName (t : TableCellBorderPosition) : PlainName t.element := plainName_lit (by cases t <;> decide)
theorem ParagraphBorder.plain (x : ParagraphBorder) : PlainF x.nodes := by
  unfold ParagraphBorder.nodes
  have := x.position.plainName
  plain
theorem ParagraphBorders.plain (x : ParagraphBorders) : PlainF x.nodes := by
  unfold ParagraphBorders.nodes
  plain
  all_goals first
    | with_reducible exact ParagraphBorder.plain _
theorem Tab.plain (x : Tab) : PlainF x.nodes := by
  unfold Tab.nodes
  plain
theorem ParagraphBase.formatsBefore {Q : N → Prop} (hQ : Formats Q) (x : ParagraphBase) : Q x.nodesBefore := by
  unfold ParagraphBase.nodesBefore
  plain
  all_goals first
    | with_reducible exact NumberingProperty.plain _
    | with_reducible exact Indent.plain _
    | with_reducible exact LineSpacing.plain _
    | with_reducible exact RunProperty.formats hQ _
    | with_reducible exact FrameProperty.plain _
theorem ParagraphBase.plainAfter (x : ParagraphBase) : PlainF x.nodesAfter := by
  unfold ParagraphBase.nodesAfter
  plain
  all_goals first
    | (with_reducible apply PlainF.flatMap; intro t; exact t.plain)
    | with_reducible exact ParagraphBorders.plain _
    | with_reducible exact Shading.plain _
    | with_reducible exact SectionBase.plain _

mutual
theorem ParagraphProperty.formats {Q : N → Prop} (hQ : Formats Q) : (p : ParagraphProperty) → Q p.nodes
  | ⟨base, change⟩ => by
    have h1 := base.formatsBefore hQ
    have h2 := changeFormats hQ change
    have h3 := base.plainAfter
    simp only [ParagraphProperty.nodes]
    plain
theorem changeFormats {Q : N → Prop} (hQ : Formats Q) : (c : Option ParagraphPropertyChange) → Q (nodesChange c)
  | none => by simp only [nodesChange]; plain
  | some c => by
    have := ParagraphPropertyChange.formats hQ c; simpa only [nodesChange]
theorem ParagraphPropertyChange.formats {Q : N → Prop} (hQ : Formats Q) : (c : ParagraphPropertyChange) → Q c.nodes
  | ⟨author, date, property⟩ => by
    have := ParagraphProperty.formats hQ property
    simp only [ParagraphPropertyChange.nodes]
    exact hQ.change _ _ _ this
end

theorem TableBorder.plain (x : TableBorder) : PlainF x.nodes := border_plain x.position.plainName _ _ _ _
theorem TableBorders.plain (x : TableBorders) : PlainF x.nodes := by
  unfold TableBorders.nodes
  plain
  all_goals first
    | with_reducible exact TableBorder.plain _
theorem TableCellBorder.plain (x : TableCellBorder) : PlainF x.nodes := border_plain x.position.plainName _ _ _ _
theorem TableCellBorders.plain (x : TableCellBorders) : PlainF x.nodes := by
  unfold TableCellBorders.nodes
  plain
  all_goals first
    | with_reducible exact TableCellBorder.plain _
theorem TableCellMargins.plain (x : TableCellMargins) : PlainF x.nodes := by
  unfold TableCellMargins.nodes
  plain
  all_goals first
    | with_reducible exact CellMargin.plain (by decide) _
theorem CellMargins.plain (x : CellMargins) : PlainF x.nodes := by
  unfold CellMargins.nodes
  plain
  all_goals first
    | with_reducible exact CellMargin.plain (by decide) _
theorem TablePositionProperty.plain (x : TablePositionProperty) : PlainF x.nodes := by
  unfold TablePositionProperty.nodes
  plain
theorem TableProperty.plain (x : TableProperty) : PlainF x.nodes := by
  unfold TableProperty.nodes
  plain
  all_goals first
    | with_reducible exact width_plain (by decide) _ _
    | with_reducible exact TableCellMargins.plain _
    | with_reducible exact TableBorders.plain _
    | with_reducible exact TablePositionProperty.plain _
theorem grid_plain (l : List Nat) : PlainF (gridNodes l) := by
  unfold gridNodes
  plain
  apply PlainF.flatMap
  intro _
  exact width_plain (by decide) _ _
theorem TableRowProperty.formats {Q : N → Prop} (hQ : Formats Q) (x : TableRowProperty) : Q x.nodes := by
  unfold TableRowProperty.nodes
  plain
  all_goals first
    | with_reducible exact hQ.mark _ (by decide) _
theorem TableCellProperty.plain (x : TableCellProperty) : PlainF x.nodes := by
  unfold TableCellProperty.nodes
  plain
  all_goals first
    | with_reducible exact width_plain (by decide) _ _
    | with_reducible exact CellMargins.plain _
    | with_reducible exact TableCellBorders.plain _
    | with_reducible exact Shading.plain _
theorem DataBinding.plain (x : DataBinding) : PlainF x.nodes := by
  unfold DataBinding.nodes
  plain
theorem SdtProperty.formats {Q : N → Prop} (hQ : Formats Q) (x : SdtProperty) : Q x.nodes := by
  unfold SdtProperty.nodes
  plain
  all_goals first
    | with_reducible exact RunProperty.formats hQ _
    | with_reducible exact DataBinding.plain _

end Docx
