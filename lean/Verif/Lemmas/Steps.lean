import Verif.Model.ReadDocx

/-!
# The number of steps does not matter

A reader that is given more steps gives the same outcome, unless it was still running. The readers are ordered by this, and shown to be
monotone, with the tactic Lean has for its own fixed points.
-/

namespace Docx

open Lean.Order Docx.Xml

/-- The same outcome, or not yet one. -/
instance readOrder (α : Type) : Lean.Order.PartialOrder (Read α) where
  rel a b := a = .running ∨ a = b
  rel_refl := .inr rfl
  rel_trans h1 h2 := by
    rcases h1 with rfl | rfl
    · exact .inl rfl
    · exact h2
  rel_antisymm h1 h2 := by
    rcases h1 with rfl | rfl
    · rcases h2 with rfl | rfl <;> rfl
    · rfl

/-- The same outcome, or not yet one. -/
instance gotOrder (α : Type) : Lean.Order.PartialOrder (Got α) where
  rel a b := a = .running ∨ a = b
  rel_refl := .inr rfl
  rel_trans h1 h2 := by
    rcases h1 with rfl | rfl
    · exact .inl rfl
    · exact h2
  rel_antisymm h1 h2 := by
    rcases h1 with rfl | rfl
    · rcases h2 with rfl | rfl <;> rfl
    · rfl

instance natOrder : Lean.Order.PartialOrder Nat where
  rel a b := a ≤ b
  rel_refl := Nat.le_refl _
  rel_trans := Nat.le_trans
  rel_antisymm := Nat.le_antisymm

instance loopOrder (σ : Type) : Lean.Order.PartialOrder (Loop σ) where
  rel a b := (∀ s q as es, a.start s q as es ⊑ b.start s q as es) ∧ a.text = b.text ∧ a.close = b.close ∧ a.atEnd = b.atEnd ∧ a.passErr = b.passErr
  rel_refl := ⟨fun _ _ _ _ => PartialOrder.rel_refl, rfl, rfl, rfl, rfl⟩
  rel_trans h1 h2 := ⟨fun s q as es => PartialOrder.rel_trans (h1.1 s q as es) (h2.1 s q as es), h1.2.1.trans h2.2.1, h1.2.2.1.trans h2.2.2.1,
    h1.2.2.2.1.trans h2.2.2.2.1, h1.2.2.2.2.trans h2.2.2.2.2⟩
  rel_antisymm {a b} h1 h2 := by
    obtain ⟨_, _, _, _, _⟩ := a
    obtain ⟨_, _, _, _, _⟩ := b
    obtain ⟨e1, rfl, rfl, rfl, rfl⟩ := h1
    congr
    funext s q as es
    exact PartialOrder.rel_antisymm (e1 s q as es) (h2.1 s q as es)

instance readersOrder : Lean.Order.PartialOrder Readers where
  rel a b := a.fuel ≤ b.fuel ∧ (∀ es, a.run es ⊑ b.run es) ∧ (∀ es, a.paragraphProperty es ⊑ b.paragraphProperty es) ∧ (∀ es, a.table es ⊑ b.table es) ∧
    ∀ as es, a.paragraph as es ⊑ b.paragraph as es
  rel_refl := ⟨Nat.le_refl _, fun _ => PartialOrder.rel_refl, fun _ => PartialOrder.rel_refl, fun _ => PartialOrder.rel_refl, fun _ _ => PartialOrder.rel_refl⟩
  rel_trans h1 h2 := ⟨Nat.le_trans h1.1 h2.1, fun es => PartialOrder.rel_trans (h1.2.1 es) (h2.2.1 es),
    fun es => PartialOrder.rel_trans (h1.2.2.1 es) (h2.2.2.1 es), fun es => PartialOrder.rel_trans (h1.2.2.2.1 es) (h2.2.2.2.1 es),
    fun as es => PartialOrder.rel_trans (h1.2.2.2.2 as es) (h2.2.2.2.2 as es)⟩
  rel_antisymm {a b} h1 h2 := by
    obtain ⟨_, _, _, _, _⟩ := a
    obtain ⟨_, _, _, _, _⟩ := b
    congr
    · exact Nat.le_antisymm h1.1 h2.1
    · funext es; exact PartialOrder.rel_antisymm (h1.2.1 es) (h2.2.1 es)
    · funext es; exact PartialOrder.rel_antisymm (h1.2.2.1 es) (h2.2.2.1 es)
    · funext es; exact PartialOrder.rel_antisymm (h1.2.2.2.1 es) (h2.2.2.2.1 es)
    · funext as es; exact PartialOrder.rel_antisymm (h1.2.2.2.2 as es) (h2.2.2.2.2 as es)

section

variable {γ : Type} [Lean.Order.PartialOrder γ]

@[partial_fixpoint_monotone]
theorem mono_bind {α β : Type} (f : γ → Read α) (g : γ → α → List REvent → Read β) (hf : monotone f) (hg : ∀ a es, monotone fun x => g x a es) :
    monotone fun x => (f x).bind (g x) := by
  intro a b h
  rcases hf a b h with e | e
  · dsimp only; rw [e]; exact .inl rfl
  · dsimp only; rw [e]
    cases f b with
    | ok v es => exact hg v es a b h
    | _ => exact .inr rfl

@[partial_fixpoint_monotone]
theorem mono_caught {α β : Type} (f : γ → Read α) (g : γ → Option α → List REvent → Read β) (hf : monotone f)
    (hg : ∀ a es, monotone fun x => g x a es) : monotone fun x => (f x).caught (g x) := by
  intro a b h
  rcases hf a b h with e | e
  · dsimp only; rw [e]; exact .inl rfl
  · dsimp only; rw [e]
    cases f b with
    | ok v es => exact hg (some v) es a b h
    | err es => exact hg none es a b h
    | _ => exact .inr rfl

@[partial_fixpoint_monotone]
theorem mono_map {α β : Type} (f : α → β) (g : γ → Read α) (hg : monotone g) : monotone fun x => (g x).map f :=
  mono_bind _ _ hg fun _ _ => monotone_const _

@[partial_fixpoint_monotone]
theorem mono_gotBind {α β : Type} (f : γ → Got α) (g : γ → α → Got β) (hf : monotone f) (hg : ∀ a, monotone fun x => g x a) :
    monotone fun x => (f x).bind (g x) := by
  intro a b h
  rcases hf a b h with e | e
  · dsimp only; rw [e]; exact .inl rfl
  · dsimp only; rw [e]
    cases f b with
    | ok v => exact hg v a b h
    | _ => exact .inr rfl

@[partial_fixpoint_monotone]
theorem mono_got {α : Type} (f : γ → Read α) (hf : monotone f) : monotone fun x => (f x).got := by
  intro a b h
  rcases hf a b h with e | e
  · dsimp only; rw [e]; exact .inl rfl
  · dsimp only; rw [e]; exact .inr rfl

@[partial_fixpoint_monotone]
theorem mono_orElse {α : Type} (v : α) (f : γ → Got α) (hf : monotone f) : monotone fun x => (f x).orElse v := by
  intro a b h
  rcases hf a b h with e | e
  · dsimp only; rw [e]; exact .inl rfl
  · dsimp only; rw [e]; exact .inr rfl

theorem run_mono {σ : Type} : ∀ (n m : Nat) (L L' : Loop σ) (s : σ) (es : List REvent), n ≤ m → L ⊑ L' → L.run n s es ⊑ L'.run m s es := by
  intro n
  induction n with
  | zero => intro m L L' s es _ _; exact .inl rfl
  | succ n ih =>
    intro m L L' s es h hL
    obtain ⟨m, rfl⟩ : ∃ k, m = k + 1 := ⟨m - 1, by omega⟩
    have ih := fun s es => ih m L L' s es (by omega) hL
    obtain ⟨h1, h2, h3, h4, h5⟩ := hL
    unfold Loop.run
    rw [← h2, ← h3, ← h4, ← h5]
    cases nextEvent es with
    | mk e es =>
      cases e with
      | start q as =>
        dsimp only
        rcases h1 s q as es with e | e
        · rw [e]; exact .inl rfl
        · rw [← e]
          cases L.start s q as es with
          | ok s es => exact ih s es
          | _ => exact .inr rfl
      | «end» q =>
        dsimp only
        cases L.close s q with
        | none => exact .inr rfl
        | some s => exact ih s es
      | chars t => exact ih _ _
      | whitespace t => exact ih _ _
      | endDocument =>
        dsimp only
        split
        · exact .inr rfl
        · exact ih _ _
      | error =>
        dsimp only
        split
        · exact ih _ _
        · exact .inr rfl

@[partial_fixpoint_monotone]
theorem mono_run {σ : Type} (L : γ → Loop σ) (n : γ → Nat) (s : σ) (es : List REvent) (hL : monotone L) (hn : monotone n) :
    monotone fun x => (L x).run (n x) s es :=
  fun a b h => run_mono _ _ _ _ s es (hn a b h) (hL a b h)

@[partial_fixpoint_monotone]
theorem mono_skipTo (f : γ → Nat) (e : El) (es : List REvent) (hf : monotone f) : monotone fun x => skipTo (f x) e es := by
  have key : ∀ n m es, n ≤ m → skipTo n e es ⊑ skipTo m e es := by
    intro n
    induction n with
    | zero => intro m es _; exact .inl rfl
    | succ n ih =>
      intro m es h
      obtain ⟨m, rfl⟩ : ∃ k, m = k + 1 := ⟨m - 1, by omega⟩
      unfold skipTo
      cases nextEvent es with
      | mk e' es =>
        cases e' <;> dsimp only
        case «end» q =>
          split
          · exact .inr rfl
          · exact ih _ _ (by omega)
        all_goals exact ih _ _ (by omega)
  exact fun a b h => key _ _ _ (hf a b h)

@[partial_fixpoint_monotone]
theorem mono_foldAttrs {σ : Type} (f : γ → σ → Str → Str → List REvent → Read σ) (s : σ) (as : Attrs) (es : List REvent)
    (hf : ∀ s n v es, monotone fun x => f x s n v es) : monotone fun x => foldAttrs (f x) s as es := by
  induction as generalizing s es with
  | nil => exact monotone_const _
  | cons a as ih => exact mono_bind _ _ (hf _ _ _ _) fun s es => ih s es

/-! ## The readers that call each other -/

@[partial_fixpoint_monotone]
theorem mono_fuel (R : γ → Readers) (hR : monotone R) : monotone fun x => (R x).fuel := fun a b h => (hR a b h).1
@[partial_fixpoint_monotone]
theorem mono_field_run (R : γ → Readers) (es : List REvent) (hR : monotone R) : monotone fun x => (R x).run es := fun a b h => (hR a b h).2.1 es
@[partial_fixpoint_monotone]
theorem mono_field_pPr (R : γ → Readers) (es : List REvent) (hR : monotone R) : monotone fun x => (R x).paragraphProperty es :=
  fun a b h => (hR a b h).2.2.1 es
@[partial_fixpoint_monotone]
theorem mono_field_table (R : γ → Readers) (es : List REvent) (hR : monotone R) : monotone fun x => (R x).table es :=
  fun a b h => (hR a b h).2.2.2.1 es
@[partial_fixpoint_monotone]
theorem mono_field_paragraph (R : γ → Readers) (as : Attrs) (es : List REvent) (hR : monotone R) : monotone fun x => (R x).paragraph as es :=
  fun a b h => (hR a b h).2.2.2.2 as es

/-- A loop whose handling of start events is monotone. -/
theorem mono_loop {σ : Type} (L : γ → Loop σ) (h : ∀ s q as es, monotone fun x => (L x).start s q as es)
    (h' : ∀ a b, (L a).text = (L b).text ∧ (L a).close = (L b).close ∧ (L a).atEnd = (L b).atEnd ∧ (L a).passErr = (L b).passErr) : monotone L :=
  fun a b hab => ⟨fun s q as es => h s q as es a b hab, h' a b⟩

end

/-- Solve goals of monotonicity by their form. -/
macro "steps" : tactic => `(tactic| repeat' (first | assumption | monotonicity))

/-- A loop given by its name. -/
macro "steps_loop " L:ident : tactic =>
  `(tactic| (refine mono_loop _ (fun s q as es => ?_) (fun _ _ => ⟨rfl, rfl, rfl, rfl⟩); dsimp only [$L:ident]; steps))

section

variable {γ : Type} [Lean.Order.PartialOrder γ] {k : γ → Nat} {R : γ → Readers} {x : ReadEnv}

@[partial_fixpoint_monotone]
theorem mono_ignoreElement (hk : monotone k) (el ignore : El) (es : List REvent) : monotone fun y => ignoreElement (k y) el ignore es := by
  unfold ignoreElement
  steps

@[partial_fixpoint_monotone]
theorem mono_deleteLoop (hR : monotone R) (stop : El) : monotone fun y => deleteLoop (R y) stop := by
  steps_loop deleteLoop

@[partial_fixpoint_monotone]
theorem mono_untilEnd {σ : Type} (e : El) (s : σ) (es : List REvent) (hk : monotone k) : monotone fun y => untilEnd (k y) e s es := by
  unfold untilEnd
  steps

@[partial_fixpoint_monotone]
theorem mono_readPtab (as : Attrs) (es : List REvent) (hk : monotone k) : monotone fun y => readPtab (k y) as es := by
  unfold readPtab
  steps

@[partial_fixpoint_monotone]
theorem mono_readTab (as : Attrs) (es : List REvent) (hk : monotone k) : monotone fun y => readTab x (k y) as es := by
  unfold readTab
  steps

@[partial_fixpoint_monotone]
theorem mono_tabsLoop (hk : monotone k) : monotone fun y => tabsLoop x (k y) := by
  steps_loop tabsLoop

@[partial_fixpoint_monotone]
theorem mono_readSection (es : List REvent) (hk : monotone k) : monotone fun y => readSection x (k y) es := by
  unfold readSection
  steps

@[partial_fixpoint_monotone]
theorem mono_tablePropertyLoop (hk : monotone k) : monotone fun y => tablePropertyLoop x (k y) := by
  steps_loop tablePropertyLoop

@[partial_fixpoint_monotone]
theorem mono_cellPropertyLoop (hk : monotone k) : monotone fun y => cellPropertyLoop x (k y) := by
  steps_loop cellPropertyLoop

@[partial_fixpoint_monotone]
theorem mono_readDelete (as : Attrs) (es : List REvent) (hR : monotone R) : monotone fun y => readDelete (R y) as es := by
  unfold readDelete
  steps

@[partial_fixpoint_monotone]
theorem mono_readMoveFrom (as : Attrs) (es : List REvent) (hR : monotone R) : monotone fun y => readMoveFrom (R y) as es := by
  unfold readMoveFrom
  steps

@[partial_fixpoint_monotone]
theorem mono_insertLoop (stop : El) (hR : monotone R) : monotone fun y => insertLoop (R y) stop := by
  steps_loop insertLoop

@[partial_fixpoint_monotone]
theorem mono_readInsert (as : Attrs) (es : List REvent) (hR : monotone R) : monotone fun y => readInsert (R y) as es := by
  unfold readInsert
  steps

@[partial_fixpoint_monotone]
theorem mono_readMoveTo (as : Attrs) (es : List REvent) (hR : monotone R) : monotone fun y => readMoveTo (R y) as es := by
  unfold readMoveTo
  steps

@[partial_fixpoint_monotone]
theorem mono_runPropertyLoop (hR : monotone R) : monotone fun y => runPropertyLoop x (R y) := by
  steps_loop runPropertyLoop

@[partial_fixpoint_monotone]
theorem mono_readRunProperty (es : List REvent) (hR : monotone R) : monotone fun y => readRunProperty x (R y) es := by
  unfold readRunProperty
  steps

@[partial_fixpoint_monotone]
theorem mono_textBoxLoop (hR : monotone R) : monotone fun y => textBoxLoop (R y) := by
  steps_loop textBoxLoop

@[partial_fixpoint_monotone]
theorem mono_drawingLoop (hR : monotone R) : monotone fun y => drawingLoop x (R y) := by
  steps_loop drawingLoop

@[partial_fixpoint_monotone]
theorem mono_readDrawing (es : List REvent) (hR : monotone R) : monotone fun y => readDrawing x (R y) es := by
  unfold readDrawing
  steps

@[partial_fixpoint_monotone]
theorem mono_runLoop (hR : monotone R) : monotone fun y => runLoop x (R y) := by
  steps_loop runLoop

@[partial_fixpoint_monotone]
theorem mono_readRun (es : List REvent) (hR : monotone R) : monotone fun y => readRun x (R y) es := by
  unfold readRun
  steps

@[partial_fixpoint_monotone]
theorem mono_changeLoop (hR : monotone R) : monotone fun y => changeLoop (R y) := by
  steps_loop changeLoop

@[partial_fixpoint_monotone]
theorem mono_readParagraphPropertyChange (as : Attrs) (es : List REvent) (hR : monotone R) : monotone fun y => readParagraphPropertyChange (R y) as es := by
  unfold readParagraphPropertyChange
  steps

@[partial_fixpoint_monotone]
theorem mono_paragraphPropertyLoop (hR : monotone R) : monotone fun y => paragraphPropertyLoop x (R y) := by
  steps_loop paragraphPropertyLoop

@[partial_fixpoint_monotone]
theorem mono_readParagraphProperty (es : List REvent) (hR : monotone R) : monotone fun y => readParagraphProperty x (R y) es := by
  unfold readParagraphProperty
  steps

@[partial_fixpoint_monotone]
theorem mono_hyperlinkLoop (hR : monotone R) : monotone fun y => hyperlinkLoop (R y) := by
  steps_loop hyperlinkLoop

@[partial_fixpoint_monotone]
theorem mono_readHyperlink (as : Attrs) (es : List REvent) (hR : monotone R) : monotone fun y => readHyperlink (R y) as es := by
  unfold readHyperlink
  steps

@[partial_fixpoint_monotone]
theorem mono_paragraphLoop (hR : monotone R) : monotone fun y => paragraphLoop x (R y) := by
  steps_loop paragraphLoop

@[partial_fixpoint_monotone]
theorem mono_readParagraph (as : Attrs) (es : List REvent) (hR : monotone R) : monotone fun y => readParagraph x (R y) as es := by
  unfold readParagraph
  steps

@[partial_fixpoint_monotone]
theorem mono_sdtLoop (hR : monotone R) : monotone fun y => sdtLoop x (R y) := by
  steps_loop sdtLoop

@[partial_fixpoint_monotone]
theorem mono_readSdt (es : List REvent) (hR : monotone R) : monotone fun y => readSdt x (R y) es := by
  unfold readSdt
  steps

@[partial_fixpoint_monotone]
theorem mono_cellLoop (hR : monotone R) : monotone fun y => cellLoop x (R y) := by
  steps_loop cellLoop

@[partial_fixpoint_monotone]
theorem mono_rowLoop (hR : monotone R) : monotone fun y => rowLoop x (R y) := by
  steps_loop rowLoop

@[partial_fixpoint_monotone]
theorem mono_readRow (es : List REvent) (hR : monotone R) : monotone fun y => readRow x (R y) es := by
  unfold readRow
  steps

@[partial_fixpoint_monotone]
theorem mono_tableLoop (hR : monotone R) : monotone fun y => tableLoop x (R y) := by
  steps_loop tableLoop

@[partial_fixpoint_monotone]
theorem mono_readTable (es : List REvent) (hR : monotone R) : monotone fun y => readTable x (R y) es := by
  unfold readTable
  steps

theorem readers_mono : ∀ n m : Nat, n ≤ m → readers x n ⊑ readers x m := by
  intro n
  induction n with
  | zero => exact fun m _ => ⟨Nat.zero_le _, fun _ => .inl rfl, fun _ => .inl rfl, fun _ => .inl rfl, fun _ _ => .inl rfl⟩
  | succ n ih =>
    intro m h
    obtain ⟨m, rfl⟩ : ∃ k, m = k + 1 := ⟨m - 1, by omega⟩
    have ih := ih m (by omega)
    exact ⟨h, fun es => mono_readRun (R := fun y => y) es monotone_id _ _ ih, fun es => mono_readParagraphProperty (R := fun y => y) es monotone_id _ _ ih,
      fun es => mono_readTable (R := fun y => y) es monotone_id _ _ ih, fun as es => mono_readParagraph (R := fun y => y) as es monotone_id _ _ ih⟩

@[partial_fixpoint_monotone]
theorem mono_readers (hk : monotone k) : monotone fun y => readers x (k y) := fun a b h => readers_mono _ _ (hk a b h)

@[partial_fixpoint_monotone]
theorem mono_documentLoop (hR : monotone R) : monotone fun y => documentLoop x (R y) := by
  steps_loop documentLoop

@[partial_fixpoint_monotone]
theorem mono_readDocument (text : Str) (hk : monotone k) : monotone fun y => readDocument x (k y) text := by
  unfold readDocument
  steps

@[partial_fixpoint_monotone]
theorem mono_commentLoop (hR : monotone R) : monotone fun y => commentLoop x (R y) := by
  steps_loop commentLoop

@[partial_fixpoint_monotone]
theorem mono_readComment (as : Attrs) (es : List REvent) (hR : monotone R) : monotone fun y => readComment x (R y) as es := by
  unfold readComment
  steps

@[partial_fixpoint_monotone]
theorem mono_commentsLoop (hR : monotone R) : monotone fun y => commentsLoop x (R y) := by
  steps_loop commentsLoop

@[partial_fixpoint_monotone]
theorem mono_readComments (text : Str) (hk : monotone k) : monotone fun y => readComments x (k y) text := by
  unfold readComments
  steps

@[partial_fixpoint_monotone]
theorem mono_readCommentsExtended (text : Str) (hk : monotone k) : monotone fun y => readCommentsExtended (k y) text := by
  unfold readCommentsExtended
  steps

@[partial_fixpoint_monotone]
theorem mono_readSettings (text : Str) (hk : monotone k) : monotone fun y => readSettings x (k y) text := by
  unfold readSettings
  steps

@[partial_fixpoint_monotone]
theorem mono_headerLoop (hR : monotone R) : monotone fun y => headerLoop x (R y) := by
  steps_loop headerLoop

@[partial_fixpoint_monotone]
theorem mono_readHeader (text : Str) (hk : monotone k) : monotone fun y => readHeader x (k y) text := by
  unfold readHeader
  steps

@[partial_fixpoint_monotone]
theorem mono_customPropsLoop (hR : monotone R) : monotone fun y => customPropsLoop (R y) := by
  steps_loop customPropsLoop

@[partial_fixpoint_monotone]
theorem mono_readCustomProps (text : Str) (hk : monotone k) : monotone fun y => readCustomProps x (k y) text := by
  unfold readCustomProps
  steps

@[partial_fixpoint_monotone]
theorem mono_levelLoop (hR : monotone R) : monotone fun y => levelLoop x (R y) := by
  steps_loop levelLoop

@[partial_fixpoint_monotone]
theorem mono_readLevel (as : Attrs) (es : List REvent) (hR : monotone R) : monotone fun y => readLevel x (R y) as es := by
  unfold readLevel
  steps

@[partial_fixpoint_monotone]
theorem mono_levelOverrideLoop (hR : monotone R) : monotone fun y => levelOverrideLoop x (R y) := by
  steps_loop levelOverrideLoop

@[partial_fixpoint_monotone]
theorem mono_readLevelOverride (as : Attrs) (es : List REvent) (hR : monotone R) : monotone fun y => readLevelOverride x (R y) as es := by
  unfold readLevelOverride
  steps

@[partial_fixpoint_monotone]
theorem mono_abstractNumLoop (hR : monotone R) : monotone fun y => abstractNumLoop x (R y) := by
  steps_loop abstractNumLoop

@[partial_fixpoint_monotone]
theorem mono_numLoop (hR : monotone R) : monotone fun y => numLoop x (R y) := by
  steps_loop numLoop

@[partial_fixpoint_monotone]
theorem mono_numberingsLoop (hR : monotone R) : monotone fun y => numberingsLoop x (R y) := by
  steps_loop numberingsLoop

@[partial_fixpoint_monotone]
theorem mono_readNumberings (text : Str) (hk : monotone k) : monotone fun y => readNumberings x (k y) text := by
  unfold readNumberings
  steps

@[partial_fixpoint_monotone]
theorem mono_styleLoop (hR : monotone R) : monotone fun y => styleLoop x (R y) := by
  steps_loop styleLoop

@[partial_fixpoint_monotone]
theorem mono_readStyle (as : Attrs) (es : List REvent) (hR : monotone R) : monotone fun y => readStyle x (R y) as es := by
  unfold readStyle
  steps

@[partial_fixpoint_monotone]
theorem mono_docDefaultsLoop (hR : monotone R) : monotone fun y => docDefaultsLoop x (R y) := by
  steps_loop docDefaultsLoop

@[partial_fixpoint_monotone]
theorem mono_stylesLoop (hR : monotone R) : monotone fun y => stylesLoop x (R y) := by
  steps_loop stylesLoop

@[partial_fixpoint_monotone]
theorem mono_readStyles (text : Str) (hk : monotone k) : monotone fun y => readStyles x (k y) text := by
  unfold readStyles
  steps

@[partial_fixpoint_monotone]
theorem mono_readRelsXml (dir : Str) (text : Str) (hk : monotone k) : monotone fun y => readRelsXml (k y) dir text := by
  unfold readRelsXml
  steps

@[partial_fixpoint_monotone]
theorem mono_readPackageRels (text : Str) (hk : monotone k) : monotone fun y => readPackageRels (k y) text := by
  unfold readPackageRels
  steps

@[partial_fixpoint_monotone]
theorem mono_readPartRels (es : List Entry) (part : Str) (hk : monotone k) : monotone fun y => readPartRels (k y) es part := by
  unfold readPartRels
  steps

theorem divsChildLoop_mono {γ : Type} [Lean.Order.PartialOrder γ] {c : γ → Attrs → List REvent → Read Div} (h : ∀ as es, monotone fun y => c y as es) :
    monotone fun y => divsChildLoop (c y) := by
  refine mono_loop _ (fun s q as es => ?_) (fun _ _ => ⟨rfl, rfl, rfl, rfl⟩)
  dsimp only [divsChildLoop]
  repeat' (first | exact h _ _ | monotonicity)

theorem divLoop_mono {c c' : Attrs → List REvent → Read Div} {n m : Nat} (hn : n ≤ m) (h : ∀ as es, c as es ⊑ c' as es) : divLoop x n c ⊑ divLoop x m c' := by
  refine PartialOrder.rel_trans (y := divLoop x n c') ?_ ?_
  · have h0 : ∀ as es, monotone fun c : Attrs → List REvent → Read Div => c as es := fun as es a b h => h as es
    refine mono_loop (fun c : Attrs → List REvent → Read Div => divLoop x n c) (fun s q as es => ?_) (fun _ _ => ⟨rfl, rfl, rfl, rfl⟩) c c' h
    have := divsChildLoop_mono h0
    dsimp only [divLoop]
    steps
  · refine mono_loop (fun n : Nat => divLoop x n c') (fun s q as es => ?_) (fun _ _ => ⟨rfl, rfl, rfl, rfl⟩) n m hn
    dsimp only [divLoop]
    steps

@[partial_fixpoint_monotone]
theorem mono_readDiv {d : γ → Nat} (as : Attrs) (es : List REvent) (hk : monotone k) (hd : monotone d) :
    monotone fun y => readDiv x (k y) (d y) as es := by
  have key : ∀ n m a b as es, n ≤ m → k a ≤ k b → readDiv x (k a) n as es ⊑ readDiv x (k b) m as es := by
    intro n
    induction n with
    | zero => intro m a b as es _ _; exact .inl rfl
    | succ n ih =>
      intro m a b as es h h'
      obtain ⟨m, rfl⟩ : ∃ k, m = k + 1 := ⟨m - 1, by omega⟩
      unfold readDiv
      exact run_mono _ _ _ _ _ _ h' (divLoop_mono h' fun as es => ih m a b as es (by omega) h')
  exact fun a b h => key _ _ _ _ _ _ (hd a b h) (hk a b h)

@[partial_fixpoint_monotone]
theorem mono_webSettingsLoop (hk : monotone k) : monotone fun y => webSettingsLoop x (k y) := by
  steps_loop webSettingsLoop

@[partial_fixpoint_monotone]
theorem mono_readWebSettings (text : Str) (hk : monotone k) : monotone fun y => readWebSettings x (k y) text := by
  unfold readWebSettings
  steps

@[partial_fixpoint_monotone]
theorem mono_fontSchemeLoop (hk : monotone k) : monotone fun y => fontSchemeLoop (k y) := by
  steps_loop fontSchemeLoop

@[partial_fixpoint_monotone]
theorem mono_themeLoop (hk : monotone k) : monotone fun y => themeLoop (k y) := by
  steps_loop themeLoop

@[partial_fixpoint_monotone]
theorem mono_readTheme (text : Str) (hk : monotone k) : monotone fun y => readTheme (k y) text := by
  unfold readTheme
  steps

/-! ## The file -/

@[partial_fixpoint_monotone]
theorem mono_readPartsFrom (es : List Entry) (ts : List Target) (hk : monotone k) : monotone fun y => readPartsFrom x (k y) es ts := by
  induction ts with
  | nil => exact monotone_const _
  | cons t ts ih =>
    unfold readPartsFrom
    cases readText es t.path with
    | none => exact ih
    | some s =>
      dsimp only
      have hok : ∀ h, monotone fun y => ((readPartRels (k y) es t.path).orElse []).bind fun rels =>
          (readPartsFrom x (k y) es ts).bind fun l => .ok ((t.rid, h, rels) :: l) := by
        intro h
        steps
      intro a b h
      have hf : monotone fun y => (readHeader x (k y) s).got := by steps
      rcases hf a b h with e | e
      · dsimp only at e ⊢; rw [e]; exact .inl rfl
      · dsimp only at e ⊢; rw [e]
        cases (readHeader x (k b) s).got with
        | ok v => exact hok v a b h
        | err => exact ih a b h
        | _ => exact .inr rfl

@[partial_fixpoint_monotone]
theorem mono_readPartsOf (es : List Entry) (m : ReadRels) (kind : Str) (hk : monotone k) : monotone fun y => readPartsOf x (k y) es m kind := by
  unfold readPartsOf
  steps

@[partial_fixpoint_monotone]
theorem mono_readThemesFrom (es : List Entry) (ts : List Target) (hk : monotone k) : monotone fun y => readThemesFrom (k y) es ts := by
  induction ts with
  | nil => exact monotone_const _
  | cons t ts ih =>
    unfold readThemesFrom
    cases readText es t.path with
    | none => exact ih
    | some s =>
      dsimp only
      have hok : ∀ f, monotone fun y => (readThemesFrom (k y) es ts).bind fun l => .ok (f :: l) := by
        intro f
        steps
      intro a b h
      have hf : monotone fun y => (readTheme (k y) s).got := by steps
      rcases hf a b h with e | e
      · dsimp only at e ⊢; rw [e]; exact .inl rfl
      · dsimp only at e ⊢; rw [e]
        cases (readTheme (k b) s).got with
        | ok v => exact hok v a b h
        | err => exact ih a b h
        | _ => exact .inr rfl

@[partial_fixpoint_monotone]
theorem mono_readOptional {α : Type} (es : List Entry) (m : ReadRels) (ty : Str) (default : α) (read : γ → Str → Got α)
    (h : ∀ s, monotone fun y => read y s) : monotone fun y => readOptional es m ty default (read y) := by
  unfold readOptional
  cases (firstTarget m ty).bind fun t => readText es t.path with
  | none => exact monotone_const _
  | some s => exact h s

@[partial_fixpoint_monotone]
theorem mono_readNeeded {α : Type} (es : List Entry) (m : ReadRels) (ty : Str) (r : ReadFile) (read : γ → Str → Got α)
    (put : ReadFile → α → ReadFile) (h : ∀ s, monotone fun y => read y s) : monotone fun y => readNeeded es m ty r (read y) put := by
  unfold readNeeded
  cases firstTarget m ty with
  | none => exact monotone_const _
  | some t => exact mono_gotBind _ _ (monotone_const _) fun s => mono_gotBind _ _ (h s) fun a => monotone_const _

@[partial_fixpoint_monotone]
theorem mono_readCustom (es : List Entry) (rels : Rels) (hk : monotone k) : monotone fun y => readCustom x (k y) es rels := by
  unfold readCustom
  steps

@[partial_fixpoint_monotone]
theorem mono_readDocxFrom (e : FileEnv) (es : List Entry) (path : Str) (custom : List (Str × Str)) (m : ReadRels) (hk : monotone k) :
    monotone fun y => readDocxFrom e (k y) es path custom m := by
  unfold readDocxFrom
  steps

@[partial_fixpoint_monotone]
theorem mono_readDocx (e : FileEnv) (es : List Entry) (hk : monotone k) : monotone fun y => readDocx e (k y) es := by
  unfold readDocx
  steps

end

/-- More steps do not change an outcome. -/
theorem readDocx_steps {e : FileEnv} {n m : Nat} {es : List Entry} (h : readDocx e n es ≠ .running) (hnm : n ≤ m) :
    readDocx e m es = readDocx e n es := by
  rcases mono_readDocx (k := fun y => y) e es monotone_id n m hnm with h' | h'
  · exact absurd h' h
  · exact h'.symm

end Docx
