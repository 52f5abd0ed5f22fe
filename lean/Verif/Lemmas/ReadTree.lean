import Verif.Lemmas.XmlElement
import Verif.Model.ReadBody
import Verif.Spec.DocXml
import Verif.Spec.XmlRead
import Verif.Lemmas.Build

/-!
# Reading an element tree

`TakesF L s f s'` says that the loop `L` in state `s`, coming upon the elements `f`, goes on behind them
in state `s'`. `Returns F n f a` says that the reader `F`, called behind the start tag of an element `n`
with content `f`, returns `a` and leaves the stream behind the end tag.
-/

namespace Docx

open Docx.Xml Docx.Spec

variable {x : ReadEnv} {σ τ α β : Type}

/-- For all large numbers of steps the loop ends with `r`. -/
def Runs (x : ReadEnv) (L : Readers → Loop σ) (s : σ) (es : List REvent) (r : Read σ) : Prop :=
  ∃ k, ∀ d, k ≤ d → ∀ n, k ≤ n → (L (readers x d)).run n s es = r

/-- The loop passes the elements. -/
def TakesF (x : ReadEnv) (L : Readers → Loop σ) (s : σ) (f : List Node) (s' : σ) : Prop :=
  ∀ stk r res, Runs x L s' (expect stk none r) res → Runs x L s (expect stk none (tagsForest f ++ r)) res

/-- The reader returns at the end of its element. -/
def Returns (x : ReadEnv) (F : Readers → List REvent → Read α) (n : Str) (f : List Node) (a : α) : Prop :=
  ∀ stk r, ∃ k, ∀ d, k ≤ d →
    F (readers x d) (expect (n :: stk) none (tagsForest f ++ .cls :: r)) = .ok a (expect stk none r)

theorem fuel_readers (d : Nat) : (readers x d).fuel = d := by cases d <;> rfl

/-! ## Single steps -/

theorem runs_start {L : Readers → Loop σ} {s s' : σ} {q : QName} {as : Attrs} {es es' : List REvent} {res : Read σ}
    (h : ∃ k, ∀ d, k ≤ d → (L (readers x d)).start s q as es = .ok s' es') (hr : Runs x L s' es' res) :
    Runs x L s (.start q as :: es) res := by
  obtain ⟨k, h⟩ := h
  obtain ⟨k', h'⟩ := hr
  refine ⟨max k k' + 1, fun d hd n hn => ?_⟩
  obtain ⟨n, rfl⟩ : ∃ m, n = m + 1 := ⟨n - 1, by omega⟩
  simp only [Loop.run, nextEvent]
  rw [h d (by omega)]
  exact h' d (by omega) n (by omega)

theorem runs_end {L : Readers → Loop σ} {s s' : σ} {q : QName} {es : List REvent} {res : Read σ}
    (h : ∀ d, (L (readers x d)).close s q = some s') (hr : Runs x L s' es res) : Runs x L s (.«end» q :: es) res := by
  obtain ⟨k', h'⟩ := hr
  refine ⟨k' + 1, fun d hd n hn => ?_⟩
  obtain ⟨n, rfl⟩ : ∃ m, n = m + 1 := ⟨n - 1, by omega⟩
  simp only [Loop.run, nextEvent, h]
  exact h' d (by omega) n (by omega)

theorem runs_close {L : Readers → Loop σ} {s : σ} {q : QName} {es : List REvent}
    (h : ∀ d, (L (readers x d)).close s q = none) : Runs x L s (.«end» q :: es) (.ok s es) := by
  refine ⟨1, fun d hd n hn => ?_⟩
  obtain ⟨n, rfl⟩ : ∃ m, n = m + 1 := ⟨n - 1, by omega⟩
  simp only [Loop.run, nextEvent, h]

theorem runs_text {L : Readers → Loop σ} {s : σ} {t : Option Str} {es : List REvent} {res : Read σ} (s' : σ)
    (h : ∀ d, match t with
      | none => s' = s
      | some t => s' = (L (readers x d)).text s (decide (∀ c ∈ t, c = ' ' ∨ c = '\t' ∨ c = '\n' ∨ c = '\r')) t)
    (hr : Runs x L s' es res) : Runs x L s (expectText t ++ es) res := by
  match t with
  | none => cases h 0; exact hr
  | some t =>
    obtain ⟨k', h'⟩ := hr
    refine ⟨k' + 1, fun d hd n hn => ?_⟩
    obtain ⟨n, rfl⟩ : ∃ m, n = m + 1 := ⟨n - 1, by omega⟩
    by_cases hw : ∀ c ∈ t, c = ' ' ∨ c = '\t' ∨ c = '\n' ∨ c = '\r'
    · simp only [expectText, if_pos hw, List.cons_append, List.nil_append, Loop.run, nextEvent]
      rw [← (show s' = (L (readers x d)).text s true t by
        have : s' = (L (readers x d)).text s (decide (∀ c ∈ t, c = ' ' ∨ c = '\t' ∨ c = '\n' ∨ c = '\r')) t := h d
        rwa [decide_eq_true hw] at this)]; exact h' d (by omega) n (by omega)
    · simp only [expectText, if_neg hw, List.cons_append, List.nil_append, Loop.run, nextEvent]
      rw [← (show s' = (L (readers x d)).text s false t by
        have : s' = (L (readers x d)).text s (decide (∀ c ∈ t, c = ' ' ∨ c = '\t' ∨ c = '\n' ∨ c = '\r')) t := h d
        rwa [decide_eq_false hw] at this)]; exact h' d (by omega) n (by omega)

/-! ## Forests -/

theorem TakesF.nil {L : Readers → Loop σ} (s : σ) : TakesF x L s [] s := fun _ _ _ h => h

theorem TakesF.append {L : Readers → Loop σ} {s s' s'' : σ} {f f' : List Node} (h : TakesF x L s f s')
    (h' : TakesF x L s' f' s'') : TakesF x L s (f ++ f') s'' := by
  intro stk r res hr
  rw [tagsForest_append', List.append_assoc]
  exact h _ _ _ (h' _ _ _ hr)

theorem expect_elem (stk : List Str) (n : Str) (as : List (Str × Str)) (f : List Node) (r : List Tag) :
    expect stk none (tagsForest [.elem n as f] ++ r) =
      .start (splitQName n) (expectAttrs as) :: expect (n :: stk) none (tagsForest f ++ .cls :: r) := by
  simp [tagsForest, Node.tags, expect, expectText]

theorem expect_cls (stk : List Str) (n : Str) (r : List Tag) :
    expect (n :: stk) none (.cls :: r) = .«end» (splitQName n) :: expect stk none r := by
  simp [expect, expectText]

/-- An element whose content goes to another reader. -/
theorem TakesF.child {L : Readers → Loop σ} {s s' : σ} {n : Str} {as : List (Str × Str)} {f : List Node}
    (h : Returns x (fun R es => (L R).start s (splitQName n) (expectAttrs as) es) n f s') :
    TakesF x L s [.elem n as f] s' := by
  intro stk r res hr
  rw [expect_elem]
  obtain ⟨k, hk⟩ := h stk r
  exact runs_start ⟨k, hk⟩ hr

/-- An element whose start and end are noted and whose content is read by the same loop. -/
theorem TakesF.wrap {L : Readers → Loop σ} {s s₁ s₂ s' : σ} {n : Str} {as : List (Str × Str)} {f : List Node}
    (h₁ : ∀ d es, 1 ≤ d → (L (readers x d)).start s (splitQName n) (expectAttrs as) es = .ok s₁ es)
    (h₂ : TakesF x L s₁ f s₂) (h₃ : ∀ d, (L (readers x d)).close s₂ (splitQName n) = some s') :
    TakesF x L s [.elem n as f] s' := by
  intro stk r res hr
  rw [expect_elem]
  refine runs_start ⟨1, fun d hd => h₁ d _ hd⟩ (h₂ _ _ _ ?_)
  rw [expect_cls]
  exact runs_end h₃ hr

/-- An empty element. -/
theorem TakesF.leaf {L : Readers → Loop σ} {s s₁ s' : σ} {n : Str} {as : List (Str × Str)}
    (h₁ : ∀ d es, 1 ≤ d → (L (readers x d)).start s (splitQName n) (expectAttrs as) es = .ok s₁ es)
    (h₃ : ∀ d, (L (readers x d)).close s₁ (splitQName n) = some s') : TakesF x L s (leafN n as) s' :=
  .wrap h₁ (.nil _) h₃

theorem TakesF.leaf' {L : Readers → Loop σ} {s s' : σ} {n : Str} {as : List (Str × Str)}
    (h₁ : ∀ d es, 1 ≤ d → (L (readers x d)).start s (splitQName n) (expectAttrs as) es = .ok s' es)
    (h₃ : ∀ d, (L (readers x d)).close s' (splitQName n) = some s') : TakesF x L s (leafN n as) s' :=
  .leaf h₁ h₃

/-- An element with character data. -/
theorem TakesF.text {L : Readers → Loop σ} {s s₁ s₂ s' : σ} {n t u : Str} {as : List (Str × Str)}
    (ht : decodeText t = some u)
    (h₁ : ∀ d es, 1 ≤ d → (L (readers x d)).start s (splitQName n) (expectAttrs as) es = .ok s₁ es)
    (h₂ : ∀ d, s₂ = if u = [] then s₁ else
      (L (readers x d)).text s₁ (decide (∀ c ∈ u, c = ' ' ∨ c = '\t' ∨ c = '\n' ∨ c = '\r')) u)
    (h₃ : ∀ d, (L (readers x d)).close s₂ (splitQName n) = some s') :
    TakesF x L s [.elem n as [.text t]] s' := by
  intro stk r res hr
  rw [expect_elem]
  refine runs_start ⟨1, fun d hd => h₁ d _ hd⟩ ?_
  have e : expect (n :: stk) none (tagsForest [.text t] ++ .cls :: r) =
      expectText (if u = [] then none else some u) ++ .«end» (splitQName n) :: expect stk none r := by
    cases u with
    | nil => simp [tagsForest, Node.tags, expect, ht, expectText]
    | cons c u => simp [tagsForest, Node.tags, expect, ht]
  rw [e]
  refine runs_text s₂ (fun d => ?_) (runs_end h₃ hr)
  have := h₂ d
  split
  · rename_i hu; split at hu <;> simp_all
  · rename_i hu; split at hu <;> simp_all

/-! ## Readers -/

/-- A loop called as a reader. -/
theorem Returns.loop {L : Readers → Loop σ} {s s' : σ} {n : Str} {f : List Node} (h : TakesF x L s f s')
    (hc : ∀ d, (L (readers x d)).close s' (splitQName n) = none) :
    Returns x (fun R es => (L R).run R.fuel s es) n f s' := by
  intro stk r
  obtain ⟨k, hk⟩ := h (n :: stk) (.cls :: r) (.ok s' (expect stk none r)) (by
    rw [expect_cls]; exact runs_close hc)
  exact ⟨k, fun d hd => by simpa only [fuel_readers] using hk d hd d hd⟩

theorem Returns.map {F : Readers → List REvent → Read α} {n : Str} {f : List Node} {a : α} (h : Returns x F n f a)
    (g : α → β) : Returns x (fun R es => (F R es).map g) n f (g a) := by
  intro stk r
  obtain ⟨k, hk⟩ := h stk r
  exact ⟨k, fun d hd => by simp only [hk d hd]; rfl⟩

theorem Returns.caught {F : Readers → List REvent → Read α} {n : Str} {f : List Node} {a : α} {b : β}
    (h : Returns x F n f a) {g : Option α → List REvent → Read β} (hg : ∀ es, g (some a) es = .ok b es) :
    Returns x (fun R es => (F R es).caught g) n f b := by
  intro stk r
  obtain ⟨k, hk⟩ := h stk r
  exact ⟨k, fun d hd => by simp only [hk d hd]; exact hg _⟩

theorem Returns.mono {F : Readers → List REvent → Read α} {n : Str} {f : List Node} {a b : α} (h : Returns x F n f a)
    (e : a = b) : Returns x F n f b := e ▸ h

theorem Returns.congr {F G : Readers → List REvent → Read α} {n : Str} {f : List Node} {a : α}
    (h : Returns x F n f a) (e : ∀ d es, 1 ≤ d → G (readers x d) es = F (readers x d) es) : Returns x G n f a := by
  intro stk r
  obtain ⟨k, hk⟩ := h stk r
  exact ⟨k + 1, fun d hd => by rw [e _ _ (by omega)]; exact hk d (by omega)⟩

theorem Returns.of_succ {F : Readers → List REvent → Read α} {G : Readers → List REvent → Read α} {n : Str}
    {f : List Node} {a : α} (h : Returns x F n f a)
    (e : ∀ d es, G (readers x (d + 1)) es = F (readers x d) es) : Returns x G n f a := by
  intro stk r
  obtain ⟨k, hk⟩ := h stk r
  refine ⟨k + 1, fun d hd => ?_⟩
  obtain ⟨d, rfl⟩ : ∃ m, d = m + 1 := ⟨d - 1, by omega⟩
  rw [e]; exact hk d (by omega)

theorem Returns.run {n : Str} {f : List Node} {a : Run} (h : Returns x (readRun x) n f a) :
    Returns x (fun R => R.run) n f a := h.of_succ fun _ _ => rfl

theorem Returns.paragraphProperty {n : Str} {f : List Node} {a : ParagraphProperty}
    (h : Returns x (readParagraphProperty x) n f a) : Returns x (fun R => R.paragraphProperty) n f a :=
  h.of_succ fun _ _ => rfl

theorem Returns.table {n : Str} {f : List Node} {a : Table} (h : Returns x (readTable x) n f a) :
    Returns x (fun R => R.table) n f a := h.of_succ fun _ _ => rfl

/-! ## Writers -/

/-- Whatever ids the writer draws, the loop passes what it writes. -/
def TakesN (x : ReadEnv) (L : Readers → Loop σ) (b : N) (φ : σ → σ) : Prop :=
  ∀ g f g', b g = some (f, g') → ∀ s, TakesF x L s f (φ s)

theorem TakesN.emit {L : Readers → Loop σ} {f : List Node} {φ : σ → σ} (h : ∀ s, TakesF x L s f (φ s)) :
    TakesN x L (emitN f) φ := by
  intro g f' g' e s
  simp only [emitN, Option.some.injEq, Prod.mk.injEq] at e
  exact e.1 ▸ h s

theorem TakesN.nil {L : Readers → Loop σ} : TakesN x L (emitN []) id := .emit fun s => .nil s

theorem thenN_eq {a b : N} {g : Gen} {f : List Node} {g' : Gen} (h : a.thenN b g = some (f, g')) :
    ∃ f₁ g₁ f₂, a g = some (f₁, g₁) ∧ b g₁ = some (f₂, g') ∧ f = f₁ ++ f₂ := by
  unfold N.thenN at h
  split at h
  · simp at h
  · rename_i f₁ g₁ h₁
    split at h
    · simp at h
    · rename_i f₂ g₂ h₂
      simp only [Option.some.injEq, Prod.mk.injEq] at h
      exact ⟨f₁, g₁, f₂, h₁, h.2 ▸ h₂, h.1.symm⟩

theorem TakesN.then {L : Readers → Loop σ} {a b : N} {φ ψ : σ → σ} (ha : TakesN x L a φ) (hb : TakesN x L b ψ) :
    TakesN x L (a.thenN b) (ψ ∘ φ) := by
  intro g f g' e s
  obtain ⟨f₁, g₁, f₂, h₁, h₂, rfl⟩ := thenN_eq e
  exact (ha _ _ _ h₁ s).append (hb _ _ _ h₂ (φ s))

theorem TakesN.cat_nil {L : Readers → Loop σ} : TakesN x L (catN []) id := .nil

theorem TakesN.cat_cons {L : Readers → Loop σ} {a : N} {bs : List N} {φ ψ : σ → σ} (ha : TakesN x L a φ)
    (hb : TakesN x L (catN bs) ψ) : TakesN x L (catN (a :: bs)) (ψ ∘ φ) := ha.then hb

theorem TakesN.congr {L : Readers → Loop σ} {b : N} {φ ψ : σ → σ} (h : TakesN x L b φ) (e : ∀ s, φ s = ψ s) :
    TakesN x L b ψ := fun g f g' hb s => e s ▸ h g f g' hb s

/-- Elements written for each of a list of things, each taken in. -/
theorem TakesN.each {L : Readers → Loop σ} {w : α → N} {add : σ → α → σ} {l : List α}
    (h : ∀ a ∈ l, TakesN x L (w a) (fun s => add s a)) : TakesN x L (eachN w l) (fun s => l.foldl add s) := by
  induction l with
  | nil => exact .nil
  | cons a l ih =>
    exact ((h a (by simp)).then (ih fun b hb => h b (List.mem_cons_of_mem _ hb))).congr fun s => rfl

theorem elemN_eq {n : Str} {as : List (Str × Str)} {b : N} {g : Gen} {f : List Node} {g' : Gen}
    (h : elemN n as b g = some (f, g')) : ∃ f₁, b g = some (f₁, g') ∧ f = [.elem n as f₁] := by
  unfold elemN at h
  split at h
  · simp at h
  · rename_i f₁ g₁ h₁
    simp only [Option.some.injEq, Prod.mk.injEq] at h
    exact ⟨f₁, h.2 ▸ h₁, h.1.symm⟩

theorem TakesN.opt {L : Readers → Loop σ} {o : Option α} {f : α → List Node} {φ : σ → σ}
    (hs : ∀ a, o = some a → ∀ s, TakesF x L s (f a) (φ s)) (hn : o = none → ∀ s, φ s = s) :
    TakesN x L (emitN (optN o f)) φ := by
  refine .emit fun s => ?_
  cases o with
  | none => rw [hn rfl]; exact .nil _
  | some a => exact hs a rfl s

theorem TakesN.optB {L : Readers → Loop σ} {o : Option α} {f : α → N} {φ : σ → σ}
    (hs : ∀ a, o = some a → TakesN x L (f a) φ) (hn : o = none → ∀ s, φ s = s) : TakesN x L (optNB o f) φ := by
  cases o with
  | none => exact TakesN.nil.congr fun s => (hn rfl s).symm
  | some a => exact hs a rfl

theorem TakesN.history {L : Readers → Loop σ} {f : Str → N} {φ : σ → σ}
    (h : ∀ g : Gen, TakesN x L (f (historyIdText (generateId g.history).1)) φ) : TakesN x L (withHistoryN f) φ :=
  fun g _ _ e s => h g _ _ _ e s

/-! ## Attributes -/

/-- What a reader gets for an attribute written with the text `v`. -/
def seen (v : Str) : Str := (decodeAttr v).getD []

theorem expectAttrs_nil : expectAttrs [] = [] := rfl

theorem expectAttrs_cons {k v : Str} (h : (decodeAttr v).isSome) (as : List (Str × Str)) :
    expectAttrs ((k, v) :: as) = (splitQName k, seen v) :: expectAttrs as := by
  obtain ⟨u, hu⟩ := Option.isSome_iff_exists.1 h
  simp [expectAttrs, hu, seen]

end Docx
