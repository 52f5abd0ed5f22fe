import Verif.Lemmas.Formats

/-!
# Formatting elements contain no content elements

`contentNames` are the elements that carry content: paragraphs, runs, texts, tables, anchors, pictures.
`QuietF f`: none of them occurs in the nodes `f`. `QuietN n`: nor in what `n` writes.
-/

namespace Docx

set_option linter.unusedSimpArgs false

open Docx.Spec

/-- Not the name of a content element. -/
def QuietName (n : Str) : Prop := n ∉ contentNames
instance (n : Str) : Decidable (QuietName n) := by unfold QuietName; infer_instance

theorem quietName_lit {n : Str} (h : decide (QuietName n) = true) : QuietName n := of_decide_eq_true h

/-- No content element in these nodes. -/
def QuietF (f : List Node) : Prop := ∀ n as, Tag.opn n as ∈ tagsForest f → QuietName n

/-- No content element is written. -/
def QuietN (n : N) : Prop := ∀ g f g', n g = some (f, g') → QuietF f

theorem QuietF.nil : QuietF [] := by intro n as h; simp [tagsForest] at h
theorem QuietF.elem {n : Str} {as : List (Str × Str)} {cs : List Node} (h1 : QuietName n) (h2 : QuietF cs) :
    QuietF [.elem n as cs] := by
  intro m bs h
  simp only [tagsForest, Node.tags, List.append_nil, List.cons_append, List.mem_cons, List.mem_append,
    List.not_mem_nil, or_false] at h
  rcases h with h | h | h
  · cases h; exact h1
  · exact h2 _ _ h
  · cases h
theorem QuietF.append {f f' : List Node} (h : QuietF f) (h' : QuietF f') : QuietF (f ++ f') := by
  intro n as h2
  rw [tagsForest_append', List.mem_append] at h2
  rcases h2 with h2 | h2
  · exact h _ _ h2
  · exact h' _ _ h2
theorem QuietF.cons {x : Node} {f : List Node} (h : QuietF [x]) (h' : QuietF f) : QuietF (x :: f) := h.append h'
theorem QuietF.text (s : Str) : QuietF [.text s] := by
  intro n as h
  simp [tagsForest, Node.tags] at h
theorem QuietF.leaf {n : Str} {as : List (Str × Str)} (h : QuietName n) : QuietF (leafN n as) := .elem h .nil
theorem QuietF.val {n v : Str} (h : QuietName n) : QuietF (valN n v) := .leaf h
theorem QuietF.opt {α} {o : Option α} {f : α → List Node} (h : ∀ a, QuietF (f a)) : QuietF (optN o f) := by
  cases o
  · exact .nil
  · exact h _
theorem QuietF.ite {c : Prop} [Decidable c] {f f' : List Node} (h : QuietF f) (h' : QuietF f') :
    QuietF (if c then f else f') := by
  split <;> assumption
theorem QuietF.flatMap {α} {l : List α} {f : α → List Node} (h : ∀ a, QuietF (f a)) : QuietF (l.flatMap f) := by
  induction l with
  | nil => exact .nil
  | cons a l ih => rw [List.flatMap_cons]; exact (h a).append ih

theorem QuietN.emit {f : List Node} (h : QuietF f) : QuietN (emitN f) := by
  intro g f' g' e
  simp only [emitN, Option.some.injEq, Prod.mk.injEq] at e
  rw [← e.1]; exact h
theorem QuietN.panic : QuietN panicN := by intro g f g' e; simp [panicN] at e
theorem QuietN.thenN {m n : N} (hm : QuietN m) (hn : QuietN n) : QuietN (m.thenN n) := by
  intro g f g' e
  unfold N.thenN at e
  cases e1 : m g with
  | none => rw [e1] at e; exact absurd e (by simp)
  | some r =>
    obtain ⟨f1, g1⟩ := r
    rw [e1] at e
    dsimp only at e
    cases e2 : n g1 with
    | none => rw [e2] at e; exact absurd e (by simp)
    | some r =>
      obtain ⟨f2, g2⟩ := r
      rw [e2] at e
      simp only [Option.some.injEq, Prod.mk.injEq] at e
      rw [← e.1]
      exact (hm _ _ _ e1).append (hn _ _ _ e2)
theorem QuietN.catNil : QuietN (catN []) := .emit .nil
theorem QuietN.catCons {m : N} {l : List N} (hm : QuietN m) (hl : QuietN (catN l)) : QuietN (catN (m :: l)) :=
  .thenN hm hl
theorem QuietN.elem {n : Str} {as : List (Str × Str)} {m : N} (h1 : QuietName n) (hm : QuietN m) :
    QuietN (elemN n as m) := by
  intro g f g' e
  unfold elemN at e
  cases e1 : m g with
  | none => rw [e1] at e; exact absurd e (by simp)
  | some r =>
    obtain ⟨f1, g1⟩ := r
    rw [e1] at e
    simp only [Option.some.injEq, Prod.mk.injEq] at e
    rw [← e.1]
    exact .elem h1 (hm _ _ _ e1)
theorem QuietN.ifN {c : Bool} {m : N} (h : QuietN m) : QuietN (Docx.ifN c m) := by
  cases c
  · exact .emit .nil
  · exact h
theorem QuietN.opt {α} {o : Option α} {f : α → N} (h : ∀ a, QuietN (f a)) : QuietN (optNB o f) := by
  cases o with
  | none => exact .emit .nil
  | some a => exact h a
theorem QuietN.history {f : Str → N} (h : ∀ i, QuietN (f i)) : QuietN (withHistoryN f) := fun _ => h _ _
theorem QuietN.change {f : Str → N} (h : ∀ i, QuietN (f i)) : QuietN (withChangeN f) := fun _ => h _ _

/-- Plain nodes are quiet. -/
theorem PlainF.quiet {f : List Node} (h : PlainF f) : QuietF f := fun n as hn => by
  have := h n as hn
  unfold PlainName at this
  unfold QuietName
  simp only [List.mem_append, not_or] at this
  exact this.1

theorem formats_quiet : Formats QuietN where
  emit := fun h => .emit h.quiet
  panic := .panic
  thenN := .thenN
  elem := fun h hm => .elem (by
    unfold PlainName at h
    unfold QuietName
    simp only [List.mem_append, not_or] at h
    exact h.1) hm
  mark := fun name hn m => .history fun i => .emit (.elem (by
    simp only [List.mem_cons, List.not_mem_nil, or_false] at hn
    rcases hn with rfl | rfl <;> decide) .nil)
  change := fun _ _ _ hm => .change fun _ => .elem (by decide) hm

theorem RunProperty.quiet (x : RunProperty) : QuietN x.nodes := x.formats formats_quiet
theorem ParagraphProperty.quiet (x : ParagraphProperty) : QuietN x.nodes := x.formats formats_quiet
theorem TableRowProperty.quiet (x : TableRowProperty) : QuietN x.nodes := x.formats formats_quiet
theorem SdtProperty.quiet (x : SdtProperty) : QuietN x.nodes := x.formats formats_quiet
theorem SectionBase.quiet (x : SectionBase) : QuietF x.nodes := x.plain.quiet
theorem TableProperty.quiet (x : TableProperty) : QuietF x.nodes := x.plain.quiet
theorem TableCellProperty.quiet (x : TableCellProperty) : QuietF x.nodes := x.plain.quiet
theorem grid_quiet (l : List Nat) : QuietF (gridNodes l) := (grid_plain l).quiet
theorem Shading.quiet (x : Shading) : QuietF x.nodes := x.plain.quiet
theorem PositionalTab.quiet (x : PositionalTab) : QuietF x.nodes := x.plain.quiet

end Docx
