import Verif.Lemmas.WrittenCalm

/-!
# No reader gives up at what the writers write
-/

namespace Docx

open Docx.Spec Docx.Xml

/-- What is written for a value that has to be such. -/
def Need.written : Need → Str → Prop
  | .number, v => ∃ i : Int, v = decInt i
  | .measure, v => ∃ i : Int, v = decInt i
  | .whole, v => ∃ n : Nat, v = dec n
  | .small, v => ∃ n : Nat, v = dec n

/-- The attributes of an element with this name hold numbers where they have to. -/
def Num (n : Str) (as : List (Str × Str)) : Prop :=
  ∀ a ∈ as, ∀ k, ((splitQName a.1).loc, k) ∈ needs (elementOf (splitQName n).loc) → Need.written k a.2

/-- An element, before its attributes are decoded, that no reader gives up at as far as its numbers are not too large. -/
def TakenEl (n : Str) (as : List (Str × Str)) : Prop :=
  Num n as ∧
  (∀ a ∈ as.head?, ∀ k ∈ needsFirst (elementOf (splitQName n).loc), Need.written k a.2) ∧
  (elementOf (splitQName n).loc = .bookmarkStart → (∃ a ∈ as, (splitQName a.1).loc = c!"id") ∧ ∃ a ∈ as, (splitQName a.1).loc = c!"name") ∧
  (elementOf (splitQName n).loc = .bookmarkEnd → ∃ a ∈ as, (splitQName a.1).loc = c!"id")

def TakenTag : Tag → Prop
  | .opn n as => TakenEl n as
  | _ => True

def SureF (f : List Node) : Prop := ∀ t ∈ tagsForest f, TakenTag t

def SureN (n : N) : Prop := ∀ g f g', n g = some (f, g') → SureF f

def bookName (n : Str) : Bool := decide (elementOf (splitQName n).loc = .bookmarkStart ∨ elementOf (splitQName n).loc = .bookmarkEnd)

def firstName (n : Str) : Bool := (needsFirst (elementOf (splitQName n).loc)).isSome

/-- Whether some reader needs something of the attributes of such an element. -/
def heedName (n : Str) : Bool := !(needs (elementOf (splitQName n).loc)).isEmpty || firstName n || bookName n

/-- Whether it needs something of this one. -/
def heedKey (n k : Str) : Bool := (needs (elementOf (splitQName n).loc)).any fun a => decide (a.1 = (splitQName k).loc)

/-- Whether this one may be negative. -/
def intKey (n k : Str) : Bool := (needs (elementOf (splitQName n).loc)).all fun a => decide (a.1 = (splitQName k).loc → a.2 = .number ∨ a.2 = .measure)

theorem written_nat (k : Need) (n : Nat) : Need.written k (dec n) := by
  cases k
  · exact ⟨Int.ofNat n, rfl⟩
  · exact ⟨Int.ofNat n, rfl⟩
  · exact ⟨n, rfl⟩
  · exact ⟨n, rfl⟩

theorem Num.nil {n} : Num n [] := fun _ h => (by cases h)
theorem Num.free {n k v as} (h : heedKey n k = false) (h' : Num n as) : Num n ((k, v) :: as) := by
  intro a ha need hn
  rcases List.mem_cons.1 ha with rfl | ha
  · unfold heedKey at h
    simp only [List.any_eq_false, decide_eq_true_eq] at h
    exact absurd rfl (h _ hn)
  · exact h' a ha need hn
theorem Num.nat {n k as} {i : Nat} (h' : Num n as) : Num n ((k, dec i) :: as) := by
  intro a ha need hn
  rcases List.mem_cons.1 ha with rfl | ha
  · exact written_nat need i
  · exact h' a ha need hn
theorem Num.int {n k as} {i : Int} (h : intKey n k = true) (h' : Num n as) : Num n ((k, decInt i) :: as) := by
  intro a ha need hn
  rcases List.mem_cons.1 ha with rfl | ha
  · unfold intKey at h
    simp only [List.all_eq_true, decide_eq_true_eq] at h
    rcases h _ hn rfl with rfl | rfl <;> exact ⟨i, rfl⟩
  · exact h' a ha need hn
theorem Num.append {n a b} (h1 : Num n a) (h2 : Num n b) : Num n (a ++ b) := by
  intro x hx
  rcases List.mem_append.1 hx with h | h
  · exact h1 x h
  · exact h2 x h
theorem Num.opt {n k o} (h : heedKey n k = false) : Num n (optAttr k o) := by
  cases o with
  | none => exact .nil
  | some v => exact .free h .nil

theorem Num.optInt {n k} {o : Option Int} (h : intKey n k = true) : Num n (optAttr k (o.map decInt)) := by
  cases o with
  | none => exact .nil
  | some v => exact .int h .nil
theorem Num.optNat {n k} {o : Option Nat} : Num n (optAttr k (o.map dec)) := by
  cases o with
  | none => exact .nil
  | some v => exact .nat .nil

theorem not_book {n : Str} {as : List (Str × Str)} (h : bookName n = false) :
    (elementOf (splitQName n).loc = .bookmarkStart → (∃ a ∈ as, (splitQName a.1).loc = c!"id") ∧ ∃ a ∈ as, (splitQName a.1).loc = c!"name") ∧
    (elementOf (splitQName n).loc = .bookmarkEnd → ∃ a ∈ as, (splitQName a.1).loc = c!"id") := by
  simp only [bookName, decide_eq_false_iff_not, not_or] at h
  exact ⟨fun e => absurd e h.1, fun e => absurd e h.2⟩

theorem TakenEl.keys {n as} (hb : bookName n = false) (hf : firstName n = false) (h : Num n as) : TakenEl n as := by
  refine ⟨h, fun a _ k hk => ?_, not_book hb⟩
  unfold firstName at hf
  rw [Option.mem_def] at hk
  rw [hk] at hf
  cases hf

theorem TakenEl.first {n k as} {i : Nat} (hb : bookName n = false) (h : Num n ((k, dec i) :: as)) : TakenEl n ((k, dec i) :: as) := by
  refine ⟨h, fun a ha need _ => ?_, not_book hb⟩
  cases ha
  exact written_nat need i

theorem TakenEl.other {n as} (h : heedName n = false) : TakenEl n as := by
  simp only [heedName, Bool.or_eq_false_iff, Bool.not_eq_false'] at h
  obtain ⟨⟨h1, h2⟩, h3⟩ := h
  refine TakenEl.keys h3 h2 fun a _ k hk => ?_
  rw [List.isEmpty_iff.1 h1] at hk
  cases hk

theorem SureF.nil : SureF [] := by simp [SureF, tagsForest]
theorem SureF.append {a b} (h1 : SureF a) (h2 : SureF b) : SureF (a ++ b) := by
  intro t ht
  rw [tagsForest_append', List.mem_append] at ht
  exact ht.elim (h1 t) (h2 t)
theorem SureF.cons {a : Node} {b} (h1 : SureF [a]) (h2 : SureF b) : SureF (a :: b) := SureF.append (a := [a]) h1 h2
theorem SureF.elem {n as f} (h1 : TakenEl n as) (h3 : SureF f) : SureF [.elem n as f] := by
  intro t ht
  simp only [tagsForest, Node.tags, List.append_nil, List.cons_append, List.mem_cons, List.mem_append,
    List.not_mem_nil, or_false] at ht
  rcases ht with rfl | ht | rfl
  · exact h1
  · exact h3 t ht
  · trivial
theorem SureF.leaf {n as} (h1 : TakenEl n as) : SureF (leafN n as) := SureF.elem h1 .nil
theorem SureF.leaf0 {n} (h1 : TakenEl n []) : SureF (leafN n) := SureF.elem h1 .nil
theorem SureF.val {n v} (h1 : heedName n = false) : SureF (valN n v) := SureF.leaf (.other h1)
theorem SureF.valNat {n} {i : Nat} (h1 : bookName n = false) : SureF (valN n (dec i)) := SureF.leaf (.first h1 (.nat .nil))
theorem SureF.text {s} : SureF [.text s] := by
  intro t ht
  simp only [tagsForest, Node.tags, List.append_nil, List.mem_cons, List.not_mem_nil, or_false] at ht
  subst ht; trivial
theorem SureF.opt {α} {o : Option α} {f : α → List Node} (h : ∀ a, o = some a → SureF (f a)) : SureF (optN o f) := by
  cases o with
  | none => exact .nil
  | some a => exact h a rfl
theorem SureF.iteElse {c : Prop} [Decidable c] {a b} (h : SureF a) (h' : SureF b) : SureF (if c then a else b) := by
  split
  · exact h
  · exact h'
theorem SureF.flatMap {α} {l : List α} {f : α → List Node} (h : ∀ a ∈ l, SureF (f a)) : SureF (l.flatMap f) := by
  induction l with
  | nil => exact .nil
  | cons a l ih =>
    rw [List.flatMap_cons]
    exact .append (h a (by simp)) (ih fun a ha => h a (by simp [ha]))

theorem SureN.emit {f} (h : SureF f) : SureN (emitN f) := by
  intro g f' g' e
  simp only [emitN, Option.some.injEq, Prod.mk.injEq] at e
  exact e.1 ▸ h
theorem SureN.panic : SureN panicN := by intro g f g' e; exact absurd e (by simp [panicN])
theorem SureN.thenN {m n : N} (hm : SureN m) (hn : SureN n) : SureN (m.thenN n) := by
  intro g f g' e
  unfold N.thenN at e
  cases e1 : m g with
  | none => rw [e1] at e; exact absurd e (by simp)
  | some r =>
    obtain ⟨f1, g1⟩ := r
    rw [e1] at e
    dsimp only at e
    cases e2 : n g1 with
    | none => rw [e2] at e; exact absurd e (by simp)
    | some r =>
      obtain ⟨f2, g2⟩ := r
      rw [e2] at e
      simp only [Option.some.injEq, Prod.mk.injEq] at e
      rw [← e.1]
      exact .append (hm _ _ _ e1) (hn _ _ _ e2)
theorem SureN.catNil : SureN (catN []) := .emit .nil
theorem SureN.catCons {m : N} {l : List N} (hm : SureN m) (hl : SureN (catN l)) : SureN (catN (m :: l)) := .thenN hm hl
theorem SureN.elem {n as} {m : N} (h1 : TakenEl n as) (hm : SureN m) : SureN (elemN n as m) := by
  intro g f g' e
  unfold elemN at e
  cases e1 : m g with
  | none => rw [e1] at e; exact absurd e (by simp)
  | some r =>
    obtain ⟨f1, g1⟩ := r
    rw [e1] at e
    simp only [Option.some.injEq, Prod.mk.injEq] at e
    rw [← e.1]
    exact .elem h1 (hm _ _ _ e1)
theorem SureN.ifN {c : Bool} {m : N} (h : SureN m) : SureN (Docx.ifN c m) := by
  cases c
  · exact .emit .nil
  · exact h
theorem SureN.opt {α} {o : Option α} {f : α → N} (h : ∀ a, o = some a → SureN (f a)) : SureN (optNB o f) := by
  cases o with
  | none => exact .emit .nil
  | some a => exact h a rfl
theorem SureN.each {α} {f : α → N} : ∀ {l : List α}, (∀ a ∈ l, SureN (f a)) → SureN (eachN f l)
  | [], _ => .emit .nil
  | a :: l, h => .thenN (h a (by simp)) (SureN.each fun a ha => h a (by simp [ha]))
theorem SureN.history {f : Str → N} (h : ∀ i, SureN (f i)) : SureN (withHistoryN f) :=
  fun _ => h _ _
theorem SureN.change {f : Str → N} (h : ∀ i, SureN (f i)) : SureN (withChangeN f) :=
  fun _ => h _ _
theorem SureN.paraId {f : Str → N} (h : ∀ i, SureN (f i)) : SureN (withParaIdN f) :=
  fun _ => h _ _

/-- Closes a goal by something already shown. -/
syntax "sureKnown" : tactic
macro_rules | `(tactic| sureKnown) => `(tactic| with_reducible assumption)

/-- Splits a goal along the shape of the nodes. -/
macro "sure" : tactic => `(tactic| repeat' first
  | sureKnown
  | with_reducible apply SureN.emit | with_reducible exact SureN.panic
  | with_reducible exact SureN.catNil | with_reducible apply SureN.catCons
  | with_reducible apply SureN.elem | with_reducible apply SureN.ifN | with_reducible apply SureN.thenN
  | (with_reducible apply SureN.opt; intro _ _) | (with_reducible apply SureN.each; intro _ _)
  | (with_reducible apply SureN.history; intro _)
  | (with_reducible apply SureN.change; intro _) | (with_reducible apply SureN.paraId; intro _)
  | with_reducible exact SureF.nil | with_reducible apply SureF.leaf0 | (with_reducible refine SureF.val (by decide +kernel)) | with_reducible exact SureF.valNat (by decide +kernel) | with_reducible apply SureF.leaf
  | (with_reducible apply SureF.opt; intro _ _) | (with_reducible apply SureF.flatMap; intro _ _)
  | with_reducible apply SureF.iteElse | with_reducible apply SureF.append
  | with_reducible apply SureF.elem | with_reducible exact SureF.text | with_reducible apply SureF.cons
  | with_reducible refine TakenEl.other (by first | assumption | decide +kernel)
  | with_reducible refine TakenEl.keys (by decide +kernel) (by decide +kernel) ?_
  | with_reducible refine TakenEl.first (by decide +kernel) ?_
  | with_reducible exact Num.nil | with_reducible refine Num.free (by decide +kernel) ?_ | with_reducible refine Num.nat ?_
  | with_reducible refine Num.int (by decide +kernel) ?_
  | with_reducible refine Num.append ?_ ?_ | with_reducible exact Num.opt (by decide +kernel) | with_reducible exact Num.optInt (by decide +kernel)
  | with_reducible exact Num.optNat)

theorem Color.sure (x : Color) : SureF x.nodes := by unfold Color.nodes; sure
theorem toggle_sure {n : Str} (h : heedName n = false) (b : Bool) : SureF (toggleNodes n b) := by
  unfold toggleNodes
  split
  · exact .leaf0 (.other h)
  · exact .elem (.other h) .nil
theorem toggleCs_sure {n : Str} (h : heedName n = false) (b : Bool) : SureF (toggleCsNodes n b) := .leaf0 (.other h)
theorem border_sure {n : Str} (h : heedName n = false) (t : BorderType) (a b : Nat) (c : Str) : SureF (borderNodes n t a b c) := by
  unfold borderNodes
  sure
theorem RunFonts.sure (x : RunFonts) : SureF x.nodes := by unfold RunFonts.nodes; sure
theorem TextBorder.sure (x : TextBorder) : SureF x.nodes := border_sure (by decide +kernel) _ _ _ _
theorem Mark.sure {n : Str} (hn : heedName n = false) (x : Mark) : SureN (x.nodes n) := by
  have := fun as => TakenEl.other (as := as) hn
  unfold Mark.nodes revisionNode
  sure
  all_goals exact this _
theorem FitText.sure (x : FitText) : SureF x.nodes := by unfold FitText.nodes; sure
theorem PositionalTab.sure (x : PositionalTab) : SureF x.nodes := by unfold PositionalTab.nodes; sure
theorem Shading.sure (x : Shading) : SureF x.nodes := by unfold Shading.nodes; sure

macro_rules | `(tactic| sureKnown) => `(tactic| first
  | with_reducible exact Color.sure _ | with_reducible exact toggle_sure (by decide +kernel) _ | with_reducible exact toggleCs_sure (by decide +kernel) _
  | with_reducible exact RunFonts.sure _ | with_reducible exact TextBorder.sure _ | with_reducible exact Mark.sure (by decide +kernel) _
  | with_reducible exact FitText.sure _ | with_reducible exact PositionalTab.sure _ | with_reducible exact Shading.sure _)

theorem RunProperty.sure (x : RunProperty) : SureN x.nodes := by unfold RunProperty.nodes; sure

theorem PageSize.sure (x : PageSize) : SureF x.nodes := by unfold PageSize.nodes; sure
theorem PageMargin.sure (x : PageMargin) : SureF x.nodes := by unfold PageMargin.nodes; sure
theorem DocGrid.sure (x : DocGrid) : SureF x.nodes := by unfold DocGrid.nodes; sure
theorem PartReference.sure {n : Str} (hn : heedName n = false) (x : PartReference) : SureF (x.nodes n) := by
  unfold PartReference.nodes
  exact .leaf (.other hn)
theorem PageNumType.sure (x : PageNumType) : SureF x.nodes := by unfold PageNumType.nodes; sure

macro_rules | `(tactic| sureKnown) => `(tactic| first
  | with_reducible exact PageSize.sure _ | with_reducible exact PageMargin.sure _ | with_reducible exact DocGrid.sure _
  | with_reducible exact PageNumType.sure _ | with_reducible exact PartReference.sure (by decide +kernel) _ | with_reducible exact RunProperty.sure _)

theorem SectionBase.sure (x : SectionBase) : SureF x.nodes := by unfold SectionBase.nodes; sure
theorem NumberingProperty.sure (x : NumberingProperty) : SureF x.nodes := by unfold NumberingProperty.nodes; sure
theorem FrameProperty.sure (x : FrameProperty) : SureF x.nodes := by unfold FrameProperty.nodes; sure
theorem Indent.sure (x : Indent) : SureF x.nodes := by unfold Indent.nodes; sure; split <;> sure
theorem LineSpacing.sure (x : LineSpacing) : SureF x.nodes := by unfold LineSpacing.nodes; sure
theorem ParagraphBorder.sure (x : ParagraphBorder) : SureF x.nodes := by
  have : heedName x.position.element = false := by cases x.position <;> decide +kernel
  unfold ParagraphBorder.nodes
  sure

macro_rules | `(tactic| sureKnown) => `(tactic| first
  | with_reducible exact SectionBase.sure _ | with_reducible exact NumberingProperty.sure _ | with_reducible exact FrameProperty.sure _
  | with_reducible exact Indent.sure _ | with_reducible exact LineSpacing.sure _ | with_reducible exact ParagraphBorder.sure _)

theorem ParagraphBorders.sure (x : ParagraphBorders) : SureF x.nodes := by unfold ParagraphBorders.nodes; sure
theorem Tab.sure (x : Tab) : SureF x.nodes := by unfold Tab.nodes; sure

macro_rules | `(tactic| sureKnown) => `(tactic| first | with_reducible exact ParagraphBorders.sure _ | with_reducible exact Tab.sure _)

theorem ParagraphBase.sureBefore (x : ParagraphBase) : SureN x.nodesBefore := by unfold ParagraphBase.nodesBefore; sure
theorem ParagraphBase.sureAfter (x : ParagraphBase) : SureF x.nodesAfter := by unfold ParagraphBase.nodesAfter; sure

mutual
theorem ParagraphProperty.sure : (p : ParagraphProperty) → SureN p.nodes
  | ⟨base, change⟩ => by
    have h1 := base.sureBefore
    have h2 := changeSure change
    have h3 := base.sureAfter
    simp only [ParagraphProperty.nodes]
    sure
theorem changeSure : (c : Option ParagraphPropertyChange) → SureN (nodesChange c)
  | none => by simp only [nodesChange]; sure
  | some c => by have := ParagraphPropertyChange.sure c; simpa only [nodesChange]
theorem ParagraphPropertyChange.sure : (c : ParagraphPropertyChange) → SureN c.nodes
  | ⟨author, date, property⟩ => by
    have := ParagraphProperty.sure property
    simp only [ParagraphPropertyChange.nodes]
    sure
end

theorem width_sure {n : Str} (h : heedName n = false) (w : Int) (t : WidthType) : SureF (widthNodes n w t) := by
  unfold widthNodes
  sure
theorem TableBorder.sure (x : TableBorder) : SureF x.nodes := border_sure (by cases x.position <;> decide +kernel) _ _ _ _
theorem TableCellBorder.sure (x : TableCellBorder) : SureF x.nodes := border_sure (by cases x.position <;> decide +kernel) _ _ _ _

macro_rules | `(tactic| sureKnown) => `(tactic| first
  | with_reducible exact width_sure (by decide +kernel) _ _ | with_reducible exact TableBorder.sure _ | with_reducible exact TableCellBorder.sure _
  | with_reducible exact ParagraphProperty.sure _)

theorem TableBorders.sure (x : TableBorders) : SureF x.nodes := by unfold TableBorders.nodes; sure
theorem TableCellBorders.sure (x : TableCellBorders) : SureF x.nodes := by unfold TableCellBorders.nodes; sure
theorem CellMargin.sure {n : Str} (h : heedName n = false) (x : CellMargin) : SureF (x.nodes n) := width_sure h _ _

macro_rules | `(tactic| sureKnown) => `(tactic| first
  | with_reducible exact TableBorders.sure _ | with_reducible exact TableCellBorders.sure _ | with_reducible exact CellMargin.sure (by decide +kernel) _)

theorem TableCellMargins.sure (x : TableCellMargins) : SureF x.nodes := by unfold TableCellMargins.nodes; sure
theorem CellMargins.sure (x : CellMargins) : SureF x.nodes := by unfold CellMargins.nodes; sure
theorem TablePositionProperty.sure (x : TablePositionProperty) : SureF x.nodes := by unfold TablePositionProperty.nodes; sure

macro_rules | `(tactic| sureKnown) => `(tactic| first
  | with_reducible exact TableCellMargins.sure _ | with_reducible exact CellMargins.sure _ | with_reducible exact TablePositionProperty.sure _)

theorem TableProperty.sure (x : TableProperty) : SureF x.nodes := by unfold TableProperty.nodes; sure
theorem grid_sure (l : List Nat) : SureF (gridNodes l) := by unfold gridNodes; sure
theorem TableRowProperty.sure (x : TableRowProperty) : SureN x.nodes := by unfold TableRowProperty.nodes; sure
theorem TableCellProperty.sure (x : TableCellProperty) : SureF x.nodes := by unfold TableCellProperty.nodes; sure
theorem DataBinding.sure (x : DataBinding) : SureF x.nodes := by unfold DataBinding.nodes; sure

macro_rules | `(tactic| sureKnown) => `(tactic| first
  | with_reducible exact TableProperty.sure _ | with_reducible exact grid_sure _ | with_reducible exact TableRowProperty.sure _
  | with_reducible exact TableCellProperty.sure _ | with_reducible exact DataBinding.sure _)

theorem SdtProperty.sure (x : SdtProperty) : SureN x.nodes := by unfold SdtProperty.nodes; sure
theorem InstrPAGEREF.sure (i : InstrPAGEREF) : SureF i.nodes := by unfold InstrPAGEREF.nodes; sure
theorem InstrText.sure (x : InstrText) : SureN x.nodes := by
  have := InstrPAGEREF.sure
  unfold InstrText.nodes
  cases x <;> dsimp only <;> sure <;> exact this _
theorem DeleteInstrText.sure (x : DeleteInstrText) : SureN x.nodes := by
  have := InstrPAGEREF.sure
  unfold DeleteInstrText.nodes
  cases x <;> dsimp only <;> sure <;> exact this _

theorem Pic.sure (x : Pic) : SureF x.nodes := by unfold Pic.nodes; sure
theorem DrawingPosition.sure (x : DrawingPosition) : SureF x.nodes := by unfold DrawingPosition.nodes; cases x <;> dsimp only <;> sure
theorem graphic_sure (x : Pic) : SureF (graphicNodes x) := by
  have := x.sure
  unfold graphicNodes
  sure
theorem drawing_sure (x : Pic) : SureF (drawingNodes x) := by
  unfold drawingNodes
  have h1 := graphic_sure x
  have h2 := x.positionH.sure
  have h3 := x.positionV.sure
  sure
  split <;> sure
theorem commentStart_sure (id : Nat) : SureF (commentStartNodes id) := by unfold commentStartNodes; sure
theorem commentEnd_sure (id : Nat) : SureF (commentEndNodes id) := by unfold commentEndNodes; sure
theorem bookmarkStart_sure (id : Nat) (n : Str) : SureF (bookmarkStartNodes id n) := by 
  refine .leaf ⟨.nat (.free (by decide +kernel) .nil), fun a _ k hk => ?_, fun _ => ⟨⟨(c!"w:id", dec id), .head _, show (splitQName c!"w:id").loc = c!"id" by decide⟩, ⟨(c!"w:name", n), .tail _ (.head _), show (splitQName c!"w:name").loc = c!"name" by decide⟩⟩, fun h => absurd h (by decide)⟩
  rw [show needsFirst (elementOf (splitQName c!"w:bookmarkStart").loc) = none by decide] at hk
  cases hk
theorem bookmarkEnd_sure (id : Nat) : SureF (bookmarkEndNodes id) := by 
  refine .leaf ⟨.nat .nil, fun a _ k hk => ?_, fun h => absurd h (by decide), fun _ => ⟨(c!"w:id", dec id), .head _, show (splitQName c!"w:id").loc = c!"id" by decide⟩⟩
  rw [show needsFirst (elementOf (splitQName c!"w:bookmarkEnd").loc) = none by decide] at hk
  cases hk

macro_rules | `(tactic| sureKnown) => `(tactic| first
  | with_reducible exact SdtProperty.sure _ | with_reducible exact InstrText.sure _ | with_reducible exact DeleteInstrText.sure _
  | with_reducible exact drawing_sure _ | with_reducible exact commentStart_sure _ | with_reducible exact commentEnd_sure _
  | with_reducible exact bookmarkStart_sure _ _ | with_reducible exact bookmarkEnd_sure _)

theorem RunChild.sure (x : RunChild) : SureN x.nodes := by
  cases x <;> simp only [RunChild.nodes] <;> sure

macro_rules | `(tactic| sureKnown) => `(tactic| with_reducible exact RunChild.sure _)

theorem Run.sure (x : Run) : SureN x.nodes := by unfold Run.nodes; sure

macro_rules | `(tactic| sureKnown) => `(tactic| with_reducible exact Run.sure _)

theorem DeleteChild.sure (x : DeleteChild) : SureN x.nodes := by cases x <;> simp only [DeleteChild.nodes] <;> sure

macro_rules | `(tactic| sureKnown) => `(tactic| with_reducible exact DeleteChild.sure _)

theorem Delete.sure {n : Str} (hn : heedName n = false) (x : Delete) : SureN (x.nodes n) := by
  unfold Delete.nodes
  refine .history fun i => .elem (.other hn) ?_
  sure

macro_rules | `(tactic| sureKnown) => `(tactic| with_reducible exact Delete.sure (by decide +kernel) _)

theorem InsertChild.sure (x : InsertChild) : SureN x.nodes := by cases x <;> simp only [InsertChild.nodes] <;> sure

macro_rules | `(tactic| sureKnown) => `(tactic| with_reducible exact InsertChild.sure _)

theorem Insert.sure {n : Str} (hn : heedName n = false) (x : Insert) : SureN (x.nodes n) := by
  unfold Insert.nodes
  refine .history fun i => .elem (.other hn) ?_
  sure

theorem paragraphN_sure (id : Str) (p : ParagraphProperty) {n : N} (h : SureN n) : SureN (paragraphN id p n) := by
  unfold paragraphN
  sure
theorem newParagraphN_sure (p : ParagraphProperty) {n : N} (h : SureN n) : SureN (newParagraphN p n) :=
  SureN.paraId fun _ => paragraphN_sure _ _ h

macro_rules | `(tactic| sureKnown) => `(tactic| with_reducible exact Insert.sure (by decide +kernel) _)

theorem tocItemN_sure (first : Bool) (t : TocItem) : SureN (tocItemN first t) := by
  unfold tocItemN
  refine newParagraphN_sure _ ?_
  have h5 : SureN (tocItemRunsN t) := by
    unfold tocItemRunsN
    split <;> sure
  sure
theorem tocEndN_sure (t : TocItem) : SureN (tocEndN t) := newParagraphN_sure _ (Run.sure _)
theorem tocItemsN_sure (ts : List TocItem) : ∀ first, SureN (tocItemsN first ts) := by
  induction ts with
  | nil => intro first; exact .emit .nil
  | cons t ts ih =>
    intro first
    have h1 := tocItemN_sure first t
    have h2 := tocEndN_sure t
    cases ts with
    | nil => simp only [tocItemsN]; sure
    | cons u us =>
      have h3 := ih false
      simp only [tocItemsN]; sure
theorem tocEntriesN_sure (ts : List TocItem) : SureN (tocEntriesN ts) := by
  have := tocItemsN_sure ts true
  unfold tocEntriesN
  sure
theorem tocStartChildrenN_sure (i : InstrToC) (d : Option Mark) : SureN (tocStartChildrenN i d) := by
  cases d with
  | none => exact Run.sure _
  | some m => exact Delete.sure (by decide +kernel) _
theorem emptyLineN_sure : SureN emptyLineN := newParagraphN_sure _ (Run.sure _)
theorem wrapSdt_sure (x : Bool) (a : Option Str) {n : N} (hn : SureN n) : SureN (wrapSdt x a n) := by
  unfold wrapSdt
  split
  · exact hn
  · sure
theorem emptyParagraph_sure : SureN (newParagraphN {} (emitN [])) := newParagraphN_sure _ (.emit .nil)

mutual
theorem ParagraphChild.sureAt : (x : ParagraphChild) → SureN (x.nodes)
  | .run r => by simp only [ParagraphChild.nodes]; exact r.sure
  | .insert i => by simp only [ParagraphChild.nodes]; exact Insert.sure (by decide +kernel) i
  | .delete d => by simp only [ParagraphChild.nodes]; exact Delete.sure (by decide +kernel) d
  | .moveFrom d => by simp only [ParagraphChild.nodes]; exact Delete.sure (by decide +kernel) d
  | .moveTo i => by simp only [ParagraphChild.nodes]; exact Insert.sure (by decide +kernel) i
  | .bookmarkStart id name => by simp only [ParagraphChild.nodes]; exact .emit (bookmarkStart_sure _ _)
  | .hyperlink h => by simp only [ParagraphChild.nodes]; exact Hyperlink.sureAt h
  | .bookmarkEnd id => by simp only [ParagraphChild.nodes]; exact .emit (bookmarkEnd_sure _)
  | .commentStart id c => by simp only [ParagraphChild.nodes]; exact .emit (commentStart_sure _)
  | .commentEnd id => by simp only [ParagraphChild.nodes]; exact .emit (commentEnd_sure _)
  | .sdt s => by simp only [ParagraphChild.nodes]; exact Sdt.sureAt s
  | .pageNum i => by simp only [ParagraphChild.nodes]; exact Run.sure _
  | .numPages i => by simp only [ParagraphChild.nodes]; exact Run.sure _
theorem ParagraphChildren.sureAt : (x : List ParagraphChild) → SureN (nodesParagraphChildren x)
  | [] => by simp only [nodesParagraphChildren]; exact .emit .nil
  | c :: cs => by
    simp only [nodesParagraphChildren]
    exact SureN.thenN (ParagraphChild.sureAt c) (ParagraphChildren.sureAt cs)
theorem Hyperlink.sureAt : (x : Hyperlink) → SureN (x.nodes)
  | ⟨link, history, children⟩ => by
    have h1 := ParagraphChildren.sureAt children
    simp only [Hyperlink.nodes]
    sure
theorem Sdt.sureAt : (x : Sdt) → SureN (x.nodes)
  | ⟨children, property, hn⟩ => by
    have h1 := SdtChildren.sureAt children
    have h2 := property.sure
    simp only [Sdt.nodes]
    sure
theorem SdtChildren.sureAt : (x : List SdtChild) → SureN (nodesSdtChildren x)
  | [] => by simp only [nodesSdtChildren]; exact .emit .nil
  | c :: cs => by
    simp only [nodesSdtChildren]
    exact SureN.thenN (SdtChild.sureAt c) (SdtChildren.sureAt cs)
theorem SdtChild.sureAt : (x : SdtChild) → SureN (x.nodes)
  | .run r => by simp only [SdtChild.nodes]; exact r.sure
  | .paragraph p => by simp only [SdtChild.nodes]; exact Paragraph.sureAt p
  | .table t => by simp only [SdtChild.nodes]; exact Table.sureAt t
  | .bookmarkStart id name => by simp only [SdtChild.nodes]; exact .emit (bookmarkStart_sure _ _)
  | .bookmarkEnd id => by simp only [SdtChild.nodes]; exact .emit (bookmarkEnd_sure _)
  | .commentStart id c => by simp only [SdtChild.nodes]; exact .emit (commentStart_sure _)
  | .commentEnd id => by simp only [SdtChild.nodes]; exact .emit (commentEnd_sure _)
  | .sdt s => by simp only [SdtChild.nodes]; exact Sdt.sureAt s
theorem Paragraph.sureAt : (x : Paragraph) → SureN (x.nodes)
  | ⟨id, children, property, hn⟩ => by
    simp only [Paragraph.nodes]
    exact paragraphN_sure _ _ (ParagraphChildren.sureAt children)
theorem Table.sureAt : (x : Table) → SureN (x.nodes)
  | ⟨rows, grid, hn, property⟩ => by
    have h1 := Rows.sureAt rows
    have h2 := property.sure
    have h3 := grid_sure grid
    simp only [Table.nodes]
    sure
theorem Rows.sureAt : (x : List Row) → SureN (nodesRows x)
  | [] => by simp only [nodesRows]; exact .emit .nil
  | c :: cs => by
    simp only [nodesRows]
    exact SureN.thenN (Row.sureAt c) (Rows.sureAt cs)
theorem Row.sureAt : (x : Row) → SureN (x.nodes)
  | ⟨cells, hn, property⟩ => by
    have h1 := Cells.sureAt cells
    have h2 := property.sure
    simp only [Row.nodes]
    sure
theorem Cells.sureAt : (x : List Cell) → SureN (nodesCells x)
  | [] => by simp only [nodesCells]; exact .emit .nil
  | c :: cs => by
    simp only [nodesCells]
    exact SureN.thenN (Cell.sureAt c) (Cells.sureAt cs)
theorem Cell.sureAt : (x : Cell) → SureN (x.nodes)
  | ⟨children, property, hn⟩ => by
    have h1 := CellContents.sureAt (decide (children.length = 1)) children
    have h2 := property.sure
    have h3 := emptyParagraph_sure
    simp only [Cell.nodes]
    sure
theorem CellContents.sureAt (only : Bool) : (x : List CellContent) → SureN (nodesCellContents only x)
  | [] => by simp only [nodesCellContents]; exact .emit .nil
  | c :: cs => by
    simp only [nodesCellContents]
    exact SureN.thenN (CellContent.sureAt only c) (CellContents.sureAt only cs)
theorem CellContent.sureAt (only : Bool) : (x : CellContent) → SureN (x.nodes only)
  | .paragraph p => by simp only [CellContent.nodes]; exact Paragraph.sureAt p
  | .table t => by
    simp only [CellContent.nodes]
    have h1 := Table.sureAt t
    have h2 := emptyParagraph_sure
    sure
  | .sdt s => by simp only [CellContent.nodes]; exact Sdt.sureAt s
  | .toc t => by simp only [CellContent.nodes]; exact Toc.sureAt t
theorem Toc.sureAt : (x : Toc) → SureN (x.nodes)
  | ⟨instr, items, au, dirty, withoutSdt, alias, placeholder, before, after, delete, property⟩ => by
    have h1 := Blocks.sureAt before
    have h2 := fun pos => After.sureAt pos after
    simp only [Toc.nodes]
    apply wrapSdt_sure
    cases items with
    | nil =>
      have h3 := h2 .firstMerging
      have h4 : SureN (newParagraphN (property.getD {}) (tocStartChildrenN instr delete)) := newParagraphN_sure _ (tocStartChildrenN_sure _ _)
      dsimp only
      sure
      exact paragraphN_sure _ _ (Run.sure _)
    | cons i is =>
      have h3 := h2 .first
      have h4 : SureN (tocEntriesN (tocPreparedItems instr dirty placeholder (i :: is))) := tocEntriesN_sure _
      dsimp only
      sure
theorem Blocks.sureAt : (x : List Block) → SureN (nodesBlocks x)
  | [] => by simp only [nodesBlocks]; exact .emit .nil
  | c :: cs => by
    simp only [nodesBlocks]
    exact SureN.thenN (Block.sureAt c) (Blocks.sureAt cs)
theorem Block.sureAt : (x : Block) → SureN (x.nodes)
  | .paragraph p => by simp only [Block.nodes]; exact Paragraph.sureAt p
  | .table t => by simp only [Block.nodes]; exact Table.sureAt t
theorem After.sureAt (pos : TocPosition) : (x : List Block) → SureN (nodesAfter pos x)
  | [] => by simp only [nodesAfter]; exact .emit .nil
  | c :: cs => by
    simp only [nodesAfter]
    exact SureN.thenN (BlockAfter.sureAt pos c) (After.sureAt .later cs)
theorem BlockAfter.sureAt (pos : TocPosition) : (x : Block) → SureN (x.nodesAfter pos)
  | .paragraph ⟨id, children, property, hn⟩ => by
    have h1 := ParagraphChildren.sureAt children
    simp only [Block.nodesAfter]
    apply paragraphN_sure
    cases pos <;> dsimp only <;> sure
  | .table t => by
    have h1 := Table.sureAt t
    have h2 := emptyLineN_sure
    simp only [Block.nodesAfter]
    cases pos <;> dsimp only <;> sure
end


macro_rules | `(tactic| sureKnown) => `(tactic| first
  | with_reducible exact Paragraph.sureAt _ | with_reducible exact Table.sureAt _ | with_reducible exact Sdt.sureAt _
  | with_reducible exact Toc.sureAt _ | with_reducible exact Blocks.sureAt _)

theorem HeaderChild.sure (x : HeaderChild) : SureN x.nodes := by cases x <;> simp only [HeaderChild.nodes] <;> sure
theorem Header.sure {n : Str} (hn : heedName n = false) (x : Header) : SureN (x.nodes n) :=
  .elem (.other hn) (.each fun a _ => a.sure)
theorem SectionChild.sure (x : SectionChild) : SureN x.nodes := by cases x <;> simp only [SectionChild.nodes] <;> sure
theorem Section.sure (x : Section) : SureN x.nodes := by
  have h1 := SectionChild.sure
  unfold Section.nodes
  sure
  all_goals exact h1 _
theorem DocumentChild.sure (x : DocumentChild) : SureN x.nodes := by
  have := Section.sure
  cases x <;> simp only [DocumentChild.nodes] <;> sure <;> exact this _
theorem Document.sure (x : Document) : SureN x.nodes := by
  have h1 := DocumentChild.sure
  unfold Document.nodes
  sure
  all_goals exact h1 _
theorem Comment.sure (x : Comment) : SureN x.nodes := by
  unfold Comment.nodes
  refine .elem (.first (by decide +kernel) (.nat (.free (by decide +kernel) (.free (by decide +kernel) (.free (by decide +kernel) .nil))))) ?_
  sure
theorem commentsN_sure (cs : List Comment) : SureN (commentsN cs) := .elem (.other (by decide +kernel)) (.each fun c _ => c.sure)
theorem Footnote.sure (x : Footnote) : SureN x.nodes := by
  have h2 := emptyParagraph_sure
  unfold Footnote.nodes
  sure
theorem footnotesN_sure (fs : List Footnote) : SureN (footnotesN fs) := .elem (.other (by decide +kernel)) (.each fun f _ => f.sure)

theorem DocDefaults.sure (d : DocDefaults) : SureN d.nodes := by unfold DocDefaults.nodes; sure
theorem Style.sure (s : Style) : SureN s.nodes := by unfold Style.nodes; sure

macro_rules | `(tactic| sureKnown) => `(tactic| first | with_reducible exact DocDefaults.sure _ | with_reducible exact Style.sure _)

theorem Styles.sure (s : Styles) : SureN s.nodes := by unfold Styles.nodes; sure
theorem Level.sure (l : Level) : SureN l.nodes := by unfold Level.nodes; sure

macro_rules | `(tactic| sureKnown) => `(tactic| with_reducible exact Level.sure _)

theorem AbstractNumbering.sure (a : AbstractNumbering) : SureN a.nodes := by unfold AbstractNumbering.nodes; sure
theorem LevelOverride.sure (o : LevelOverride) : SureN o.nodes := by unfold LevelOverride.nodes; sure

macro_rules | `(tactic| sureKnown) => `(tactic| first | with_reducible exact AbstractNumbering.sure _ | with_reducible exact LevelOverride.sure _)

theorem Numbering.sure (n : Numbering) : SureN n.nodes := by unfold Numbering.nodes; sure

macro_rules | `(tactic| sureKnown) => `(tactic| with_reducible exact Numbering.sure _)

theorem Numberings.sure (n : Numberings) : SureN n.nodes := by unfold Numberings.nodes; sure

theorem ContentTypes.sure (c : ContentTypes) : SureF c.nodes := by unfold ContentTypes.nodes defaultTypeN overrideTypeN; sure
theorem Rels.sure (r : Rels) : SureF r.nodes := by unfold Rels.nodes relationshipsN relationshipN; sure
theorem DocumentRels.sure (r : DocumentRels) : SureF r.nodes := by
  unfold DocumentRels.nodes relationshipsN relationshipN relationshipWithModeN; sure
theorem imageRels_sure (l : List (Str × Str)) : SureF (imageRelsN l) := by unfold imageRelsN relationshipsN relationshipN; sure
theorem customItemRels_sure (n : Nat) : SureF (customItemRelsN n) := by unfold customItemRelsN relationshipsN relationshipN; sure
theorem taskpanesRels_sure (l : List (Str × Str × Str)) : SureF (taskpanesRelsN l) := by unfold taskpanesRelsN relationshipsN relationshipN; sure
theorem taskpanes_sure : SureF taskpanesN := by unfold taskpanesN; sure
theorem WebExtension.sure (w : WebExtension) : SureF w.nodes := by unfold WebExtension.nodes; sure
theorem customItemProperty_sure (id : Str) : SureF (customItemPropertyN id) := by unfold customItemPropertyN; sure
theorem Settings.sure (s : Settings) : SureF s.nodes := by
  have : SureF s.compatNodes := by unfold Settings.compatNodes compatSettingN; sure
  unfold Settings.nodes
  sure
theorem fontTable_sure : SureF fontTableN := by unfold fontTableN fontN; sure
theorem commentsExtended_sure (l : List CommentExtended) : SureF (commentsExtendedN l) := by
  have : ∀ c : CommentExtended, SureF c.nodes := by
    intro c
    unfold CommentExtended.nodes
    exact .leaf (.other (by decide +kernel))
  unfold commentsExtendedN
  sure
  all_goals exact this _
theorem appProps_sure : SureF appPropsN := by unfold appPropsN; sure
theorem CoreProps.sure (p : CoreProps) : SureF p.nodes := by unfold CoreProps.nodes textEl; sure
theorem customProps_sure (l : List (Str × Str)) : SureF (customPropsN l) := by unfold customPropsN textEl; sure


end Docx
