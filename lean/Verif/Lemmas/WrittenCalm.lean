import Verif.Spec.ReadEnds
import Verif.Lemmas.BuildOk
import Verif.Lemmas.PackageXml
import Verif.Lemmas.ReadNumbers

/-!
# No reader panics at what the writers write
-/

namespace Docx

open Docx.Spec Docx.Xml

/-- An element, before its attributes are decoded, that no reader panics at. -/
def SafeEl (n : Str) (as : List (Str × Str)) : Prop :=
  (elementOf (splitQName n).loc ∈ needAttribute → as ≠ []) ∧
  (elementOf (splitQName n).loc ∈ needWidth → ∀ a ∈ as, (splitQName a.1).loc = c!"w" → ∃ i, a.2 = decInt i) ∧
  (elementOf (splitQName n).loc = .comment → ∃ a ∈ as, (splitQName a.1).loc = c!"id") ∧
  (elementOf (splitQName n).loc = .commentExtended → ∃ a ∈ as, (splitQName a.1).loc = c!"paraId")

def SafeTag : Tag → Prop
  | .opn n as => SafeEl n as
  | _ => True

def CalmF (f : List Node) : Prop := ∀ t ∈ tagsForest f, SafeTag t

def CalmN (n : N) : Prop := ∀ g f g', n g = some (f, g') → CalmF f

/-- Whether some reader relies on the attributes of such an element. -/
def careName (n : Str) : Bool :=
  decide (elementOf (splitQName n).loc ∈ needAttribute ∨ elementOf (splitQName n).loc ∈ needWidth ∨
    elementOf (splitQName n).loc = .comment ∨ elementOf (splitQName n).loc = .commentExtended)

def idName (n : Str) : Bool :=
  decide (elementOf (splitQName n).loc = .comment ∨ elementOf (splitQName n).loc = .commentExtended)

def wKey (k : Str) : Bool := decide ((splitQName k).loc = c!"w")

def NoW (as : List (Str × Str)) : Prop := ∀ a ∈ as, (splitQName a.1).loc ≠ c!"w"

theorem NoW.nil : NoW [] := fun _ h => (by cases h)
theorem NoW.cons {k v as} (h1 : wKey k = false) (h : NoW as) : NoW ((k, v) :: as) := by
  intro a ha
  rcases List.mem_cons.1 ha with rfl | ha
  · simpa [wKey] using h1
  · exact h a ha
theorem NoW.append {a b} (h1 : NoW a) (h2 : NoW b) : NoW (a ++ b) := by
  intro x hx
  rcases List.mem_append.1 hx with h | h
  · exact h1 x h
  · exact h2 x h
theorem NoW.opt {k o} (h1 : wKey k = false) : NoW (optAttr k o) := by
  cases o with
  | none => exact .nil
  | some v => exact .cons h1 .nil

theorem SafeEl.other {n as} (h : careName n = false) : SafeEl n as := by
  simp only [careName, decide_eq_false_iff_not, not_or] at h
  obtain ⟨h1, h2, h3, h4⟩ := h
  exact ⟨fun h => absurd h h1, fun h => absurd h h2, fun h => absurd h h3, fun h => absurd h h4⟩

theorem SafeEl.keys {n a as} (h : idName n = false) (hw : NoW (a :: as)) : SafeEl n (a :: as) := by
  simp only [idName, decide_eq_false_iff_not, not_or] at h
  obtain ⟨h3, h4⟩ := h
  exact ⟨fun _ => List.cons_ne_nil _ _, fun _ a ha e => absurd e (hw a ha), fun h => absurd h h3, fun h => absurd h h4⟩

theorem SafeEl.width {n : Str} {i : Int} {as} (h : idName n = false) (hw : NoW as) : SafeEl n ((c!"w:w", decInt i) :: as) := by
  simp only [idName, decide_eq_false_iff_not, not_or] at h
  obtain ⟨h3, h4⟩ := h
  refine ⟨fun _ => List.cons_ne_nil _ _, fun _ a ha e => ?_, fun h => absurd h h3, fun h => absurd h h4⟩
  rcases List.mem_cons.1 ha with rfl | ha
  · exact ⟨i, rfl⟩
  · exact absurd e (hw a ha)

theorem SafeEl.widthNat {n : Str} {i : Nat} {as} (h : idName n = false) (hw : NoW as) : SafeEl n ((c!"w:w", dec i) :: as) :=
  SafeEl.width (i := Int.ofNat i) h hw

theorem CalmF.nil : CalmF [] := by simp [CalmF, tagsForest]
theorem CalmF.append {a b} (h1 : CalmF a) (h2 : CalmF b) : CalmF (a ++ b) := by
  intro t ht
  rw [tagsForest_append', List.mem_append] at ht
  exact ht.elim (h1 t) (h2 t)
theorem CalmF.cons {a : Node} {b} (h1 : CalmF [a]) (h2 : CalmF b) : CalmF (a :: b) := CalmF.append (a := [a]) h1 h2
theorem CalmF.elem {n as f} (h1 : SafeEl n as) (h3 : CalmF f) : CalmF [.elem n as f] := by
  intro t ht
  simp only [tagsForest, Node.tags, List.append_nil, List.cons_append, List.mem_cons, List.mem_append,
    List.not_mem_nil, or_false] at ht
  rcases ht with rfl | ht | rfl
  · exact h1
  · exact h3 t ht
  · trivial
theorem CalmF.leaf {n as} (h1 : SafeEl n as) : CalmF (leafN n as) := CalmF.elem h1 .nil
theorem CalmF.leaf0 {n} (h1 : SafeEl n []) : CalmF (leafN n) := CalmF.elem h1 .nil
theorem CalmF.val {n v} (h1 : idName n = false) : CalmF (valN n v) :=
  CalmF.leaf (.keys h1 (.cons (by decide) .nil))
theorem CalmF.text {s} : CalmF [.text s] := by
  intro t ht
  simp only [tagsForest, Node.tags, List.append_nil, List.mem_cons, List.not_mem_nil, or_false] at ht
  subst ht; trivial
theorem CalmF.opt {α} {o : Option α} {f : α → List Node} (h : ∀ a, o = some a → CalmF (f a)) : CalmF (optN o f) := by
  cases o with
  | none => exact .nil
  | some a => exact h a rfl
theorem CalmF.iteElse {c : Prop} [Decidable c] {a b} (h : CalmF a) (h' : CalmF b) : CalmF (if c then a else b) := by
  split
  · exact h
  · exact h'
theorem CalmF.flatMap {α} {l : List α} {f : α → List Node} (h : ∀ a ∈ l, CalmF (f a)) : CalmF (l.flatMap f) := by
  induction l with
  | nil => exact .nil
  | cons a l ih =>
    rw [List.flatMap_cons]
    exact .append (h a (by simp)) (ih fun a ha => h a (by simp [ha]))

theorem CalmN.emit {f} (h : CalmF f) : CalmN (emitN f) := by
  intro g f' g' e
  simp only [emitN, Option.some.injEq, Prod.mk.injEq] at e
  exact e.1 ▸ h
theorem CalmN.panic : CalmN panicN := by intro g f g' e; exact absurd e (by simp [panicN])
theorem CalmN.thenN {m n : N} (hm : CalmN m) (hn : CalmN n) : CalmN (m.thenN n) := by
  intro g f g' e
  unfold N.thenN at e
  cases e1 : m g with
  | none => rw [e1] at e; exact absurd e (by simp)
  | some r =>
    obtain ⟨f1, g1⟩ := r
    rw [e1] at e
    dsimp only at e
    cases e2 : n g1 with
    | none => rw [e2] at e; exact absurd e (by simp)
    | some r =>
      obtain ⟨f2, g2⟩ := r
      rw [e2] at e
      simp only [Option.some.injEq, Prod.mk.injEq] at e
      rw [← e.1]
      exact .append (hm _ _ _ e1) (hn _ _ _ e2)
theorem CalmN.catNil : CalmN (catN []) := .emit .nil
theorem CalmN.catCons {m : N} {l : List N} (hm : CalmN m) (hl : CalmN (catN l)) : CalmN (catN (m :: l)) := .thenN hm hl
theorem CalmN.elem {n as} {m : N} (h1 : SafeEl n as) (hm : CalmN m) : CalmN (elemN n as m) := by
  intro g f g' e
  unfold elemN at e
  cases e1 : m g with
  | none => rw [e1] at e; exact absurd e (by simp)
  | some r =>
    obtain ⟨f1, g1⟩ := r
    rw [e1] at e
    simp only [Option.some.injEq, Prod.mk.injEq] at e
    rw [← e.1]
    exact .elem h1 (hm _ _ _ e1)
theorem CalmN.ifN {c : Bool} {m : N} (h : CalmN m) : CalmN (Docx.ifN c m) := by
  cases c
  · exact .emit .nil
  · exact h
theorem CalmN.opt {α} {o : Option α} {f : α → N} (h : ∀ a, o = some a → CalmN (f a)) : CalmN (optNB o f) := by
  cases o with
  | none => exact .emit .nil
  | some a => exact h a rfl
theorem CalmN.each {α} {f : α → N} : ∀ {l : List α}, (∀ a ∈ l, CalmN (f a)) → CalmN (eachN f l)
  | [], _ => .emit .nil
  | a :: l, h => .thenN (h a (by simp)) (CalmN.each fun a ha => h a (by simp [ha]))
theorem CalmN.history {f : Str → N} (h : ∀ i, CalmN (f i)) : CalmN (withHistoryN f) :=
  fun _ => h _ _
theorem CalmN.change {f : Str → N} (h : ∀ i, CalmN (f i)) : CalmN (withChangeN f) :=
  fun _ => h _ _
theorem CalmN.paraId {f : Str → N} (h : ∀ i, CalmN (f i)) : CalmN (withParaIdN f) :=
  fun _ => h _ _

/-- Closes a goal by something already shown. -/
syntax "calmKnown" : tactic
macro_rules | `(tactic| calmKnown) => `(tactic| with_reducible assumption)

/-- Splits a goal along the shape of the nodes. -/
macro "calm" : tactic => `(tactic| repeat' first
  | calmKnown
  | with_reducible apply CalmN.emit | with_reducible exact CalmN.panic
  | with_reducible exact CalmN.catNil | with_reducible apply CalmN.catCons
  | with_reducible apply CalmN.elem | with_reducible apply CalmN.ifN | with_reducible apply CalmN.thenN
  | (with_reducible apply CalmN.opt; intro _ _) | (with_reducible apply CalmN.each; intro _ _)
  | (with_reducible apply CalmN.history; intro _)
  | (with_reducible apply CalmN.change; intro _) | (with_reducible apply CalmN.paraId; intro _)
  | with_reducible exact CalmF.nil | with_reducible apply CalmF.leaf0 | with_reducible apply CalmF.val
  | with_reducible apply CalmF.leaf
  | (with_reducible apply CalmF.opt; intro _ _) | (with_reducible apply CalmF.flatMap; intro _ _)
  | with_reducible apply CalmF.iteElse | with_reducible apply CalmF.append
  | with_reducible apply CalmF.elem | with_reducible exact CalmF.text | with_reducible apply CalmF.cons
  | (with_reducible apply SafeEl.other; decide +kernel)
  | with_reducible apply SafeEl.width | with_reducible apply SafeEl.widthNat
  | with_reducible apply SafeEl.keys
  | with_reducible exact NoW.nil | with_reducible apply NoW.cons
  | with_reducible apply NoW.append | with_reducible apply NoW.opt
  | (with_reducible show idName _ = false; decide +kernel)
  | (with_reducible show wKey _ = false; decide +kernel)
  | (with_reducible show careName _ = false; decide +kernel))

theorem Color.calm (x : Color) : CalmF x.nodes := by unfold Color.nodes; calm
theorem toggle_calm {n : Str} (h : careName n = false) (b : Bool) : CalmF (toggleNodes n b) := by
  unfold toggleNodes
  split
  · exact .leaf0 (.other h)
  · exact .elem (.other h) .nil
theorem toggleCs_calm {n : Str} (h : careName n = false) (b : Bool) : CalmF (toggleCsNodes n b) := .leaf0 (.other h)
theorem border_calm {n : Str} (h : idName n = false) (t : BorderType) (a b : Nat) (c : Str) : CalmF (borderNodes n t a b c) := by
  unfold borderNodes
  calm
theorem RunFonts.calm (x : RunFonts) : CalmF x.nodes := by unfold RunFonts.nodes; calm
theorem TextBorder.calm (x : TextBorder) : CalmF x.nodes := border_calm (by decide +kernel) _ _ _ _
theorem Mark.calm {n : Str} (hn : careName n = false) (x : Mark) : CalmN (x.nodes n) := by
  have := fun as => SafeEl.other (as := as) hn
  unfold Mark.nodes revisionNode
  calm
  all_goals exact this _
theorem FitText.calm (x : FitText) : CalmF x.nodes := by unfold FitText.nodes; calm
theorem PositionalTab.calm (x : PositionalTab) : CalmF x.nodes := by unfold PositionalTab.nodes; calm
theorem Shading.calm (x : Shading) : CalmF x.nodes := by unfold Shading.nodes; calm

macro_rules | `(tactic| calmKnown) => `(tactic| first
  | with_reducible exact Color.calm _ | with_reducible exact toggle_calm (by decide +kernel) _ | with_reducible exact toggleCs_calm (by decide +kernel) _
  | with_reducible exact RunFonts.calm _ | with_reducible exact TextBorder.calm _ | with_reducible exact Mark.calm (by decide +kernel) _
  | with_reducible exact FitText.calm _ | with_reducible exact PositionalTab.calm _ | with_reducible exact Shading.calm _)

theorem RunProperty.calm (x : RunProperty) : CalmN x.nodes := by unfold RunProperty.nodes; calm

theorem PageSize.calm (x : PageSize) : CalmF x.nodes := by unfold PageSize.nodes; calm
theorem PageMargin.calm (x : PageMargin) : CalmF x.nodes := by unfold PageMargin.nodes; calm
theorem DocGrid.calm (x : DocGrid) : CalmF x.nodes := by unfold DocGrid.nodes; calm
theorem PartReference.calm {n : Str} (hn : careName n = false) (x : PartReference) : CalmF (x.nodes n) := by
  unfold PartReference.nodes
  exact .leaf (.other hn)
theorem PageNumType.calm (x : PageNumType) : CalmF x.nodes := by unfold PageNumType.nodes; calm

macro_rules | `(tactic| calmKnown) => `(tactic| first
  | with_reducible exact PageSize.calm _ | with_reducible exact PageMargin.calm _ | with_reducible exact DocGrid.calm _
  | with_reducible exact PageNumType.calm _ | with_reducible exact PartReference.calm (by decide +kernel) _ | with_reducible exact RunProperty.calm _)

theorem SectionBase.calm (x : SectionBase) : CalmF x.nodes := by unfold SectionBase.nodes; calm
theorem NumberingProperty.calm (x : NumberingProperty) : CalmF x.nodes := by unfold NumberingProperty.nodes; calm
theorem FrameProperty.calm (x : FrameProperty) : CalmF x.nodes := by unfold FrameProperty.nodes; calm
theorem Indent.calm (x : Indent) : CalmF x.nodes := by unfold Indent.nodes; calm
theorem LineSpacing.calm (x : LineSpacing) : CalmF x.nodes := by unfold LineSpacing.nodes; calm
theorem ParagraphBorder.calm (x : ParagraphBorder) : CalmF x.nodes := by
  have : idName x.position.element = false := by cases x.position <;> decide +kernel
  unfold ParagraphBorder.nodes
  calm

macro_rules | `(tactic| calmKnown) => `(tactic| first
  | with_reducible exact SectionBase.calm _ | with_reducible exact NumberingProperty.calm _ | with_reducible exact FrameProperty.calm _
  | with_reducible exact Indent.calm _ | with_reducible exact LineSpacing.calm _ | with_reducible exact ParagraphBorder.calm _)

theorem ParagraphBorders.calm (x : ParagraphBorders) : CalmF x.nodes := by unfold ParagraphBorders.nodes; calm
theorem Tab.calm (x : Tab) : CalmF x.nodes := by unfold Tab.nodes; calm

macro_rules | `(tactic| calmKnown) => `(tactic| first | with_reducible exact ParagraphBorders.calm _ | with_reducible exact Tab.calm _)

theorem ParagraphBase.calmBefore (x : ParagraphBase) : CalmN x.nodesBefore := by unfold ParagraphBase.nodesBefore; calm
theorem ParagraphBase.calmAfter (x : ParagraphBase) : CalmF x.nodesAfter := by unfold ParagraphBase.nodesAfter; calm

mutual
theorem ParagraphProperty.calm : (p : ParagraphProperty) → CalmN p.nodes
  | ⟨base, change⟩ => by
    have h1 := base.calmBefore
    have h2 := changeCalm change
    have h3 := base.calmAfter
    simp only [ParagraphProperty.nodes]
    calm
theorem changeCalm : (c : Option ParagraphPropertyChange) → CalmN (nodesChange c)
  | none => by simp only [nodesChange]; calm
  | some c => by have := ParagraphPropertyChange.calm c; simpa only [nodesChange]
theorem ParagraphPropertyChange.calm : (c : ParagraphPropertyChange) → CalmN c.nodes
  | ⟨author, date, property⟩ => by
    have := ParagraphProperty.calm property
    simp only [ParagraphPropertyChange.nodes]
    calm
end

theorem width_calm {n : Str} (h : idName n = false) (w : Int) (t : WidthType) : CalmF (widthNodes n w t) := by
  unfold widthNodes
  calm
theorem TableBorder.calm (x : TableBorder) : CalmF x.nodes := border_calm (by cases x.position <;> decide +kernel) _ _ _ _
theorem TableCellBorder.calm (x : TableCellBorder) : CalmF x.nodes := border_calm (by cases x.position <;> decide +kernel) _ _ _ _

macro_rules | `(tactic| calmKnown) => `(tactic| first
  | with_reducible exact width_calm (by decide +kernel) _ _ | with_reducible exact TableBorder.calm _ | with_reducible exact TableCellBorder.calm _
  | with_reducible exact ParagraphProperty.calm _)

theorem TableBorders.calm (x : TableBorders) : CalmF x.nodes := by unfold TableBorders.nodes; calm
theorem TableCellBorders.calm (x : TableCellBorders) : CalmF x.nodes := by unfold TableCellBorders.nodes; calm
theorem CellMargin.calm {n : Str} (h : idName n = false) (x : CellMargin) : CalmF (x.nodes n) := width_calm h _ _

macro_rules | `(tactic| calmKnown) => `(tactic| first
  | with_reducible exact TableBorders.calm _ | with_reducible exact TableCellBorders.calm _ | with_reducible exact CellMargin.calm (by decide +kernel) _)

theorem TableCellMargins.calm (x : TableCellMargins) : CalmF x.nodes := by unfold TableCellMargins.nodes; calm
theorem CellMargins.calm (x : CellMargins) : CalmF x.nodes := by unfold CellMargins.nodes; calm
theorem TablePositionProperty.calm (x : TablePositionProperty) : CalmF x.nodes := by unfold TablePositionProperty.nodes; calm

macro_rules | `(tactic| calmKnown) => `(tactic| first
  | with_reducible exact TableCellMargins.calm _ | with_reducible exact CellMargins.calm _ | with_reducible exact TablePositionProperty.calm _)

theorem TableProperty.calm (x : TableProperty) : CalmF x.nodes := by unfold TableProperty.nodes; calm
theorem grid_calm (l : List Nat) : CalmF (gridNodes l) := by unfold gridNodes; calm
theorem TableRowProperty.calm (x : TableRowProperty) : CalmN x.nodes := by unfold TableRowProperty.nodes; calm
theorem TableCellProperty.calm (x : TableCellProperty) : CalmF x.nodes := by unfold TableCellProperty.nodes; calm
theorem DataBinding.calm (x : DataBinding) : CalmF x.nodes := by unfold DataBinding.nodes; calm

macro_rules | `(tactic| calmKnown) => `(tactic| first
  | with_reducible exact TableProperty.calm _ | with_reducible exact grid_calm _ | with_reducible exact TableRowProperty.calm _
  | with_reducible exact TableCellProperty.calm _ | with_reducible exact DataBinding.calm _)

theorem SdtProperty.calm (x : SdtProperty) : CalmN x.nodes := by unfold SdtProperty.nodes; calm
theorem InstrPAGEREF.calm (i : InstrPAGEREF) : CalmF i.nodes := by unfold InstrPAGEREF.nodes; calm
theorem InstrText.calm (x : InstrText) : CalmN x.nodes := by
  have := InstrPAGEREF.calm
  unfold InstrText.nodes
  cases x <;> dsimp only <;> calm <;> exact this _
theorem DeleteInstrText.calm (x : DeleteInstrText) : CalmN x.nodes := by
  have := InstrPAGEREF.calm
  unfold DeleteInstrText.nodes
  cases x <;> dsimp only <;> calm <;> exact this _

theorem Pic.calm (x : Pic) : CalmF x.nodes := by unfold Pic.nodes; calm
theorem DrawingPosition.calm (x : DrawingPosition) : CalmF x.nodes := by unfold DrawingPosition.nodes; cases x <;> dsimp only <;> calm
theorem graphic_calm (x : Pic) : CalmF (graphicNodes x) := by
  have := x.calm
  unfold graphicNodes
  calm
theorem drawing_calm (x : Pic) : CalmF (drawingNodes x) := by
  unfold drawingNodes
  have h1 := graphic_calm x
  have h2 := x.positionH.calm
  have h3 := x.positionV.calm
  calm
  split <;> calm
theorem commentStart_calm (id : Nat) : CalmF (commentStartNodes id) := by unfold commentStartNodes; calm
theorem commentEnd_calm (id : Nat) : CalmF (commentEndNodes id) := by unfold commentEndNodes; calm
theorem bookmarkStart_calm (id : Nat) (n : Str) : CalmF (bookmarkStartNodes id n) := by unfold bookmarkStartNodes; calm
theorem bookmarkEnd_calm (id : Nat) : CalmF (bookmarkEndNodes id) := by unfold bookmarkEndNodes; calm

macro_rules | `(tactic| calmKnown) => `(tactic| first
  | with_reducible exact SdtProperty.calm _ | with_reducible exact InstrText.calm _ | with_reducible exact DeleteInstrText.calm _
  | with_reducible exact drawing_calm _ | with_reducible exact commentStart_calm _ | with_reducible exact commentEnd_calm _
  | with_reducible exact bookmarkStart_calm _ _ | with_reducible exact bookmarkEnd_calm _)

theorem RunChild.calm (x : RunChild) : CalmN x.nodes := by
  cases x <;> simp only [RunChild.nodes] <;> calm

macro_rules | `(tactic| calmKnown) => `(tactic| with_reducible exact RunChild.calm _)

theorem Run.calm (x : Run) : CalmN x.nodes := by unfold Run.nodes; calm

macro_rules | `(tactic| calmKnown) => `(tactic| with_reducible exact Run.calm _)

theorem DeleteChild.calm (x : DeleteChild) : CalmN x.nodes := by cases x <;> simp only [DeleteChild.nodes] <;> calm

macro_rules | `(tactic| calmKnown) => `(tactic| with_reducible exact DeleteChild.calm _)

theorem Delete.calm {n : Str} (hn : careName n = false) (x : Delete) : CalmN (x.nodes n) := by
  unfold Delete.nodes
  refine .history fun i => .elem (.other hn) ?_
  calm

macro_rules | `(tactic| calmKnown) => `(tactic| with_reducible exact Delete.calm (by decide +kernel) _)

theorem InsertChild.calm (x : InsertChild) : CalmN x.nodes := by cases x <;> simp only [InsertChild.nodes] <;> calm

macro_rules | `(tactic| calmKnown) => `(tactic| with_reducible exact InsertChild.calm _)

theorem Insert.calm {n : Str} (hn : careName n = false) (x : Insert) : CalmN (x.nodes n) := by
  unfold Insert.nodes
  refine .history fun i => .elem (.other hn) ?_
  calm

theorem paragraphN_calm (id : Str) (p : ParagraphProperty) {n : N} (h : CalmN n) : CalmN (paragraphN id p n) := by
  unfold paragraphN
  calm
theorem newParagraphN_calm (p : ParagraphProperty) {n : N} (h : CalmN n) : CalmN (newParagraphN p n) :=
  CalmN.paraId fun _ => paragraphN_calm _ _ h

macro_rules | `(tactic| calmKnown) => `(tactic| with_reducible exact Insert.calm (by decide +kernel) _)

theorem tocItemN_calm (first : Bool) (t : TocItem) : CalmN (tocItemN first t) := by
  unfold tocItemN
  refine newParagraphN_calm _ ?_
  have h5 : CalmN (tocItemRunsN t) := by
    unfold tocItemRunsN
    split <;> calm
  calm
theorem tocEndN_calm (t : TocItem) : CalmN (tocEndN t) := newParagraphN_calm _ (Run.calm _)
theorem tocItemsN_calm (ts : List TocItem) : ∀ first, CalmN (tocItemsN first ts) := by
  induction ts with
  | nil => intro first; exact .emit .nil
  | cons t ts ih =>
    intro first
    have h1 := tocItemN_calm first t
    have h2 := tocEndN_calm t
    cases ts with
    | nil => simp only [tocItemsN]; calm
    | cons u us =>
      have h3 := ih false
      simp only [tocItemsN]; calm
theorem tocEntriesN_calm (ts : List TocItem) : CalmN (tocEntriesN ts) := by
  have := tocItemsN_calm ts true
  unfold tocEntriesN
  calm
theorem tocStartChildrenN_calm (i : InstrToC) (d : Option Mark) : CalmN (tocStartChildrenN i d) := by
  cases d with
  | none => exact Run.calm _
  | some m => exact Delete.calm (by decide +kernel) _
theorem emptyLineN_calm : CalmN emptyLineN := newParagraphN_calm _ (Run.calm _)
theorem wrapSdt_calm (x : Bool) (a : Option Str) {n : N} (hn : CalmN n) : CalmN (wrapSdt x a n) := by
  unfold wrapSdt
  split
  · exact hn
  · calm
theorem emptyParagraph_calm : CalmN (newParagraphN {} (emitN [])) := newParagraphN_calm _ (.emit .nil)

mutual
theorem ParagraphChild.calmAt : (x : ParagraphChild) → CalmN (x.nodes)
  | .run r => by simp only [ParagraphChild.nodes]; exact r.calm
  | .insert i => by simp only [ParagraphChild.nodes]; exact Insert.calm (by decide +kernel) i
  | .delete d => by simp only [ParagraphChild.nodes]; exact Delete.calm (by decide +kernel) d
  | .moveFrom d => by simp only [ParagraphChild.nodes]; exact Delete.calm (by decide +kernel) d
  | .moveTo i => by simp only [ParagraphChild.nodes]; exact Insert.calm (by decide +kernel) i
  | .bookmarkStart id name => by simp only [ParagraphChild.nodes]; exact .emit (bookmarkStart_calm _ _)
  | .hyperlink h => by simp only [ParagraphChild.nodes]; exact Hyperlink.calmAt h
  | .bookmarkEnd id => by simp only [ParagraphChild.nodes]; exact .emit (bookmarkEnd_calm _)
  | .commentStart id c => by simp only [ParagraphChild.nodes]; exact .emit (commentStart_calm _)
  | .commentEnd id => by simp only [ParagraphChild.nodes]; exact .emit (commentEnd_calm _)
  | .sdt s => by simp only [ParagraphChild.nodes]; exact Sdt.calmAt s
  | .pageNum i => by simp only [ParagraphChild.nodes]; exact Run.calm _
  | .numPages i => by simp only [ParagraphChild.nodes]; exact Run.calm _
theorem ParagraphChildren.calmAt : (x : List ParagraphChild) → CalmN (nodesParagraphChildren x)
  | [] => by simp only [nodesParagraphChildren]; exact .emit .nil
  | c :: cs => by
    simp only [nodesParagraphChildren]
    exact CalmN.thenN (ParagraphChild.calmAt c) (ParagraphChildren.calmAt cs)
theorem Hyperlink.calmAt : (x : Hyperlink) → CalmN (x.nodes)
  | ⟨link, history, children⟩ => by
    have h1 := ParagraphChildren.calmAt children
    simp only [Hyperlink.nodes]
    calm
theorem Sdt.calmAt : (x : Sdt) → CalmN (x.nodes)
  | ⟨children, property, hn⟩ => by
    have h1 := SdtChildren.calmAt children
    have h2 := property.calm
    simp only [Sdt.nodes]
    calm
theorem SdtChildren.calmAt : (x : List SdtChild) → CalmN (nodesSdtChildren x)
  | [] => by simp only [nodesSdtChildren]; exact .emit .nil
  | c :: cs => by
    simp only [nodesSdtChildren]
    exact CalmN.thenN (SdtChild.calmAt c) (SdtChildren.calmAt cs)
theorem SdtChild.calmAt : (x : SdtChild) → CalmN (x.nodes)
  | .run r => by simp only [SdtChild.nodes]; exact r.calm
  | .paragraph p => by simp only [SdtChild.nodes]; exact Paragraph.calmAt p
  | .table t => by simp only [SdtChild.nodes]; exact Table.calmAt t
  | .bookmarkStart id name => by simp only [SdtChild.nodes]; exact .emit (bookmarkStart_calm _ _)
  | .bookmarkEnd id => by simp only [SdtChild.nodes]; exact .emit (bookmarkEnd_calm _)
  | .commentStart id c => by simp only [SdtChild.nodes]; exact .emit (commentStart_calm _)
  | .commentEnd id => by simp only [SdtChild.nodes]; exact .emit (commentEnd_calm _)
  | .sdt s => by simp only [SdtChild.nodes]; exact Sdt.calmAt s
theorem Paragraph.calmAt : (x : Paragraph) → CalmN (x.nodes)
  | ⟨id, children, property, hn⟩ => by
    simp only [Paragraph.nodes]
    exact paragraphN_calm _ _ (ParagraphChildren.calmAt children)
theorem Table.calmAt : (x : Table) → CalmN (x.nodes)
  | ⟨rows, grid, hn, property⟩ => by
    have h1 := Rows.calmAt rows
    have h2 := property.calm
    have h3 := grid_calm grid
    simp only [Table.nodes]
    calm
theorem Rows.calmAt : (x : List Row) → CalmN (nodesRows x)
  | [] => by simp only [nodesRows]; exact .emit .nil
  | c :: cs => by
    simp only [nodesRows]
    exact CalmN.thenN (Row.calmAt c) (Rows.calmAt cs)
theorem Row.calmAt : (x : Row) → CalmN (x.nodes)
  | ⟨cells, hn, property⟩ => by
    have h1 := Cells.calmAt cells
    have h2 := property.calm
    simp only [Row.nodes]
    calm
theorem Cells.calmAt : (x : List Cell) → CalmN (nodesCells x)
  | [] => by simp only [nodesCells]; exact .emit .nil
  | c :: cs => by
    simp only [nodesCells]
    exact CalmN.thenN (Cell.calmAt c) (Cells.calmAt cs)
theorem Cell.calmAt : (x : Cell) → CalmN (x.nodes)
  | ⟨children, property, hn⟩ => by
    have h1 := CellContents.calmAt (decide (children.length = 1)) children
    have h2 := property.calm
    have h3 := emptyParagraph_calm
    simp only [Cell.nodes]
    calm
theorem CellContents.calmAt (only : Bool) : (x : List CellContent) → CalmN (nodesCellContents only x)
  | [] => by simp only [nodesCellContents]; exact .emit .nil
  | c :: cs => by
    simp only [nodesCellContents]
    exact CalmN.thenN (CellContent.calmAt only c) (CellContents.calmAt only cs)
theorem CellContent.calmAt (only : Bool) : (x : CellContent) → CalmN (x.nodes only)
  | .paragraph p => by simp only [CellContent.nodes]; exact Paragraph.calmAt p
  | .table t => by
    simp only [CellContent.nodes]
    have h1 := Table.calmAt t
    have h2 := emptyParagraph_calm
    calm
  | .sdt s => by simp only [CellContent.nodes]; exact Sdt.calmAt s
  | .toc t => by simp only [CellContent.nodes]; exact Toc.calmAt t
theorem Toc.calmAt : (x : Toc) → CalmN (x.nodes)
  | ⟨instr, items, au, dirty, withoutSdt, alias, placeholder, before, after, delete, property⟩ => by
    have h1 := Blocks.calmAt before
    have h2 := fun pos => After.calmAt pos after
    simp only [Toc.nodes]
    apply wrapSdt_calm
    cases items with
    | nil =>
      have h3 := h2 .firstMerging
      have h4 : CalmN (newParagraphN (property.getD {}) (tocStartChildrenN instr delete)) := newParagraphN_calm _ (tocStartChildrenN_calm _ _)
      dsimp only
      calm
      exact paragraphN_calm _ _ (Run.calm _)
    | cons i is =>
      have h3 := h2 .first
      have h4 : CalmN (tocEntriesN (tocPreparedItems instr dirty placeholder (i :: is))) := tocEntriesN_calm _
      dsimp only
      calm
theorem Blocks.calmAt : (x : List Block) → CalmN (nodesBlocks x)
  | [] => by simp only [nodesBlocks]; exact .emit .nil
  | c :: cs => by
    simp only [nodesBlocks]
    exact CalmN.thenN (Block.calmAt c) (Blocks.calmAt cs)
theorem Block.calmAt : (x : Block) → CalmN (x.nodes)
  | .paragraph p => by simp only [Block.nodes]; exact Paragraph.calmAt p
  | .table t => by simp only [Block.nodes]; exact Table.calmAt t
theorem After.calmAt (pos : TocPosition) : (x : List Block) → CalmN (nodesAfter pos x)
  | [] => by simp only [nodesAfter]; exact .emit .nil
  | c :: cs => by
    simp only [nodesAfter]
    exact CalmN.thenN (BlockAfter.calmAt pos c) (After.calmAt .later cs)
theorem BlockAfter.calmAt (pos : TocPosition) : (x : Block) → CalmN (x.nodesAfter pos)
  | .paragraph ⟨id, children, property, hn⟩ => by
    have h1 := ParagraphChildren.calmAt children
    simp only [Block.nodesAfter]
    apply paragraphN_calm
    cases pos <;> dsimp only <;> calm
  | .table t => by
    have h1 := Table.calmAt t
    have h2 := emptyLineN_calm
    simp only [Block.nodesAfter]
    cases pos <;> dsimp only <;> calm
end


macro_rules | `(tactic| calmKnown) => `(tactic| first
  | with_reducible exact Paragraph.calmAt _ | with_reducible exact Table.calmAt _ | with_reducible exact Sdt.calmAt _
  | with_reducible exact Toc.calmAt _ | with_reducible exact Blocks.calmAt _)

theorem HeaderChild.calm (x : HeaderChild) : CalmN x.nodes := by cases x <;> simp only [HeaderChild.nodes] <;> calm
theorem Header.calm {n : Str} (hn : careName n = false) (x : Header) : CalmN (x.nodes n) :=
  .elem (.other hn) (.each fun a _ => a.calm)
theorem SectionChild.calm (x : SectionChild) : CalmN x.nodes := by cases x <;> simp only [SectionChild.nodes] <;> calm
theorem Section.calm (x : Section) : CalmN x.nodes := by
  have h1 := SectionChild.calm
  unfold Section.nodes
  calm
  all_goals exact h1 _
theorem DocumentChild.calm (x : DocumentChild) : CalmN x.nodes := by
  have := Section.calm
  cases x <;> simp only [DocumentChild.nodes] <;> calm <;> exact this _
theorem Document.calm (x : Document) : CalmN x.nodes := by
  have h1 := DocumentChild.calm
  unfold Document.nodes
  calm
  all_goals exact h1 _
theorem SafeEl.withId {n v : Str} {as} (hn : elementOf (splitQName n).loc = .comment) : SafeEl n ((c!"w:id", v) :: as) := by
  unfold SafeEl
  rw [hn]
  exact ⟨fun h => absurd h (by decide), fun h => absurd h (by decide), fun _ => ⟨_, .head _, show (splitQName c!"w:id").loc = c!"id" by decide⟩, fun h => (by cases h)⟩
theorem SafeEl.withParaId {n v : Str} {as} (hn : elementOf (splitQName n).loc = .commentExtended) : SafeEl n ((c!"w15:paraId", v) :: as) := by
  unfold SafeEl
  rw [hn]
  exact ⟨fun h => absurd h (by decide), fun h => absurd h (by decide), fun h => (by cases h), fun _ => ⟨_, .head _, show (splitQName c!"w15:paraId").loc = c!"paraId" by decide⟩⟩
theorem Comment.calm (x : Comment) : CalmN x.nodes := by
  unfold Comment.nodes
  refine .elem (.withId (by decide +kernel)) ?_
  calm
theorem commentsN_calm (cs : List Comment) : CalmN (commentsN cs) := .elem (.other (by decide +kernel)) (.each fun c _ => c.calm)
theorem Footnote.calm (x : Footnote) : CalmN x.nodes := by
  have h2 := emptyParagraph_calm
  unfold Footnote.nodes
  calm
theorem footnotesN_calm (fs : List Footnote) : CalmN (footnotesN fs) := .elem (.other (by decide +kernel)) (.each fun f _ => f.calm)

theorem DocDefaults.calm (d : DocDefaults) : CalmN d.nodes := by unfold DocDefaults.nodes; calm
theorem Style.calm (s : Style) : CalmN s.nodes := by unfold Style.nodes; calm

macro_rules | `(tactic| calmKnown) => `(tactic| first | with_reducible exact DocDefaults.calm _ | with_reducible exact Style.calm _)

theorem Styles.calm (s : Styles) : CalmN s.nodes := by unfold Styles.nodes; calm
theorem Level.calm (l : Level) : CalmN l.nodes := by unfold Level.nodes; calm

macro_rules | `(tactic| calmKnown) => `(tactic| with_reducible exact Level.calm _)

theorem AbstractNumbering.calm (a : AbstractNumbering) : CalmN a.nodes := by unfold AbstractNumbering.nodes; calm
theorem LevelOverride.calm (o : LevelOverride) : CalmN o.nodes := by unfold LevelOverride.nodes; calm

macro_rules | `(tactic| calmKnown) => `(tactic| first | with_reducible exact AbstractNumbering.calm _ | with_reducible exact LevelOverride.calm _)

theorem Numbering.calm (n : Numbering) : CalmN n.nodes := by unfold Numbering.nodes; calm

macro_rules | `(tactic| calmKnown) => `(tactic| with_reducible exact Numbering.calm _)

theorem Numberings.calm (n : Numberings) : CalmN n.nodes := by unfold Numberings.nodes; calm

theorem ContentTypes.calm (c : ContentTypes) : CalmF c.nodes := by unfold ContentTypes.nodes defaultTypeN overrideTypeN; calm
theorem Rels.calm (r : Rels) : CalmF r.nodes := by unfold Rels.nodes relationshipsN relationshipN; calm
theorem DocumentRels.calm (r : DocumentRels) : CalmF r.nodes := by
  unfold DocumentRels.nodes relationshipsN relationshipN relationshipWithModeN; calm
theorem imageRels_calm (l : List (Str × Str)) : CalmF (imageRelsN l) := by unfold imageRelsN relationshipsN relationshipN; calm
theorem customItemRels_calm (n : Nat) : CalmF (customItemRelsN n) := by unfold customItemRelsN relationshipsN relationshipN; calm
theorem taskpanesRels_calm (l : List (Str × Str × Str)) : CalmF (taskpanesRelsN l) := by unfold taskpanesRelsN relationshipsN relationshipN; calm
theorem taskpanes_calm : CalmF taskpanesN := by unfold taskpanesN; calm
theorem WebExtension.calm (w : WebExtension) : CalmF w.nodes := by unfold WebExtension.nodes; calm
theorem customItemProperty_calm (id : Str) : CalmF (customItemPropertyN id) := by unfold customItemPropertyN; calm
theorem Settings.calm (s : Settings) : CalmF s.nodes := by
  have : CalmF s.compatNodes := by unfold Settings.compatNodes compatSettingN; calm
  unfold Settings.nodes
  calm
theorem fontTable_calm : CalmF fontTableN := by unfold fontTableN fontN; calm
theorem commentsExtended_calm (l : List CommentExtended) : CalmF (commentsExtendedN l) := by
  have : ∀ c : CommentExtended, CalmF c.nodes := by
    intro c
    unfold CommentExtended.nodes
    exact .leaf (.withParaId (by decide +kernel))
  unfold commentsExtendedN
  calm
  all_goals exact this _
theorem appProps_calm : CalmF appPropsN := by unfold appPropsN; calm
theorem CoreProps.calm (p : CoreProps) : CalmF p.nodes := by unfold CoreProps.nodes textEl; calm
theorem customProps_calm (l : List (Str × Str)) : CalmF (customPropsN l) := by unfold customPropsN textEl; calm

/-! ## What is read of them -/

theorem expectAttrs_from : ∀ {as : List (Str × Str)} {b : QName × Str}, b ∈ expectAttrs as → ∃ a ∈ as, b.1 = splitQName a.1 ∧ decodeAttr a.2 = some b.2
  | (k, v) :: as, b, h => by
    unfold expectAttrs at h
    split at h
    · next v' hv =>
      rcases List.mem_cons.1 h with rfl | h
      · exact ⟨(k, v), .head _, rfl, hv⟩
      · obtain ⟨a, ha, e⟩ := expectAttrs_from h
        exact ⟨a, .tail _ ha, e⟩
    · cases h

theorem expectAttrs_to : ∀ {as : List (Str × Str)} {a : Str × Str}, AttrsOk as → a ∈ as → ∃ b ∈ expectAttrs as, b.1 = splitQName a.1
  | (k, v) :: as, a, h, ha => by
    obtain ⟨v', hv⟩ := Option.isSome_iff_exists.1 (h (k, v) (.head _)).2
    unfold expectAttrs
    rw [hv]
    rcases List.mem_cons.1 ha with rfl | ha
    · exact ⟨_, .head _, rfl⟩
    · obtain ⟨b, hb, e⟩ := expectAttrs_to (fun a ha => h a (.tail _ ha)) ha
      exact ⟨b, .tail _ hb, e⟩

theorem expectAttrs_length : ∀ {as : List (Str × Str)}, AttrsOk as → (expectAttrs as).length = as.length
  | [], _ => rfl
  | (k, v) :: as, h => by
    obtain ⟨v', hv⟩ := Option.isSome_iff_exists.1 (h (k, v) (.head _)).2
    unfold expectAttrs
    rw [hv]
    simp only [List.length_cons, expectAttrs_length fun a ha => h a (.tail _ ha)]

theorem decInt_plainAttr (i : Int) : decodeAttr (decInt i) = some (decInt i) ∧ (decInt i).filter (· ≠ '%') = decInt i := by
  have h' : ∀ c ∈ '-' :: c!"0123456789", c ≠ '&' ∧ c ≠ '<' ∧ c ≠ '"' ∧ c ≠ '\r' ∧ c ≠ '\t' ∧ c ≠ '\n' ∧ c ≠ '%' := by decide
  have hc : ∀ c ∈ decInt i, c ∈ '-' :: c!"0123456789" := by
    intro c hc
    cases i with
    | ofNat n => exact .tail _ (dec_digits n c hc)
    | negSucc n =>
      rcases List.mem_cons.1 hc with rfl | hc
      · exact .head _
      · exact .tail _ (dec_digits _ c hc)
  refine ⟨decodeAttr_plain fun c h => ?_, List.filter_eq_self.2 fun c h => ?_⟩
  · obtain ⟨a1, a2, a3, a4, a5, a6, _⟩ := h' c (hc c h)
    exact ⟨a1, a2, a3, a4, a5, a6⟩
  · simpa using (h' c (hc c h)).2.2.2.2.2.2

theorem safe_of {x : ReadEnv} {n : Str} {as : List (Str × Str)} (ha : AttrsOk as) (h : SafeEl n as) :
    Safe x (.start (splitQName n) (expectAttrs as)) := by
  obtain ⟨h1, h2, h3, h4⟩ := h
  refine ⟨fun hn => ?_, fun hn b hb e => ?_, fun hn => ?_, fun hn => ?_⟩
  · obtain ⟨a, ha'⟩ := List.exists_mem_of_ne_nil _ (h1 hn)
    obtain ⟨b, hb, _⟩ := expectAttrs_to ha ha'
    exact List.ne_nil_of_mem hb
  · obtain ⟨a, ha', e1, e2⟩ := expectAttrs_from hb
    rw [e1] at e
    obtain ⟨i, hi⟩ := h2 hn a ha' e
    rw [hi, (decInt_plainAttr i).1, Option.some.injEq] at e2
    rw [← e2, (decInt_plainAttr i).2]
    exact ⟨_, by unfold parseFloat; rw [intOf_decInt]⟩
  · obtain ⟨a, ha', e⟩ := h3 hn
    obtain ⟨b, hb, e'⟩ := expectAttrs_to ha ha'
    exact ⟨b, hb, by rw [e', e]⟩
  · obtain ⟨a, ha', e⟩ := h4 hn
    obtain ⟨b, hb, e'⟩ := expectAttrs_to ha ha'
    exact ⟨b, hb, by rw [e', e]⟩

theorem calm_expectText {x : ReadEnv} (acc : Option Str) : ∀ e ∈ expectText acc, Safe x e := by
  intro e he
  unfold expectText at he
  split at he
  · cases he
  · split at he <;> (rw [List.mem_singleton.1 he]; trivial)

theorem calm_expect {x : ReadEnv} : ∀ (ts : List Tag) (open_ : List Str) (acc : Option Str), (∀ t ∈ ts, TagOk t) → (∀ t ∈ ts, SafeTag t) →
    Calm x (expect open_ acc ts)
  | [], _, acc, _, _ => by
    unfold expect
    intro e he
    rcases List.mem_append.1 he with he | he
    · exact calm_expectText acc e he
    · rw [List.mem_singleton.1 he]; trivial
  | .txt s :: r, o, acc, h1, h2 => by
    have ih := fun acc => calm_expect (x := x) r o acc (fun t ht => h1 t (.tail _ ht)) fun t ht => h2 t (.tail _ ht)
    unfold expect
    split
    · exact ih _
    · exact ih _
    · intro e he; rw [List.mem_singleton.1 he]; trivial
  | .opn n as :: r, o, acc, h1, h2 => by
    unfold expect
    intro e he
    rcases List.mem_append.1 he with he | he
    · exact calm_expectText acc e he
    · rcases List.mem_cons.1 he with rfl | he
      · exact safe_of (h1 _ (.head _)).2 (h2 _ (.head _))
      · exact calm_expect r _ _ (fun t ht => h1 t (.tail _ ht)) (fun t ht => h2 t (.tail _ ht)) e he
  | .cls :: r, [], acc, _, _ => by
    unfold expect
    intro e he; rw [List.mem_singleton.1 he]; trivial
  | .cls :: r, n :: o, acc, h1, h2 => by
    unfold expect
    intro e he
    rcases List.mem_append.1 he with he | he
    · exact calm_expectText acc e he
    · rcases List.mem_cons.1 he with rfl | he
      · trivial
      · exact calm_expect r _ _ (fun t ht => h1 t (.tail _ ht)) (fun t ht => h2 t (.tail _ ht)) e he

end Docx
