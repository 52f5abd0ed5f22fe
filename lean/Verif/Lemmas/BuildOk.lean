import Verif.Lemmas.Build
import Verif.Lemmas.Digits
import Verif.Lemmas.Escape
import Verif.Props.C01_C04_Escape
import Verif.Lemmas.XmlParser
import Verif.Spec.Strings

/-!
# Written parts whose strings are safe contain only tags a reader accepts
-/

namespace Docx

set_option linter.unusedSimpArgs false

open Docx.Spec

def AllS (l : List Str) : Prop := ∀ s ∈ l, Stored s
theorem AllS_nil : AllS [] ↔ True := by simp [AllS]
theorem AllS_cons {s l} : AllS (s :: l) ↔ Stored s ∧ AllS l := by simp [AllS]
theorem AllS_append {a b} : AllS (a ++ b) ↔ AllS a ∧ AllS b := by simp [AllS, or_imp, forall_and]
theorem AllS_optS {o} : AllS (optS o) ↔ ∀ s, o = some s → Stored s := by
  cases o <;> simp [AllS, optS]
theorem AllS_optStrings {α} {o : Option α} {f : α → List Str} :
    AllS (optStrings o f) ↔ ∀ a, o = some a → AllS (f a) := by
  cases o <;> simp [AllS, optStrings]
theorem AllS_flatMap {α} {l : List α} {f : α → List Str} :
    AllS (l.flatMap f) ↔ ∀ a ∈ l, AllS (f a) := by
  simp only [AllS, List.mem_flatMap]
  exact ⟨fun h a ha s hs => h s ⟨a, ha, hs⟩, fun h s ⟨a, ha, hs⟩ => h a ha s hs⟩

def AttrOk (v : Str) : Prop := (decodeAttr v).isSome = true
theorem Stored.attr {s : Str} (h : Stored s) : AttrOk s := h.2.1
theorem Stored.text {s : Str} (h : Stored s) : TagOk (.txt s) := ⟨h.1, h.2.2⟩

def AttrsOk (as : List (Str × Str)) : Prop := ∀ a ∈ as, NameOk a.1 ∧ AttrOk a.2
theorem AttrsOk.nil : AttrsOk [] := by simp [AttrsOk]
theorem AttrsOk.cons {k v as} (h1 : NameOk k) (h2 : AttrOk v) (h3 : AttrsOk as) : AttrsOk ((k, v) :: as) := by
  intro a ha
  rcases List.mem_cons.1 ha with rfl | ha
  · exact ⟨h1, h2⟩
  · exact h3 a ha
theorem AttrsOk.append {a b} (h1 : AttrsOk a) (h2 : AttrsOk b) : AttrsOk (a ++ b) := by
  intro x hx
  rcases List.mem_append.1 hx with h | h
  · exact h1 x h
  · exact h2 x h
theorem AttrsOk.opt {k o} (h1 : NameOk k) (h2 : ∀ v, o = some v → AttrOk v) : AttrsOk (optAttr k o) := by
  cases o with
  | none => exact .nil
  | some v => exact .cons h1 (h2 v rfl) .nil

instance (n : Str) : Decidable (NameOk n) := by unfold NameOk; infer_instance
instance (n : Str) : Decidable (AttrOk n) := by unfold AttrOk; infer_instance

/-- A name, as a test. -/
def nameB (s : Str) : Bool := !s.isEmpty && s.all fun c => !delimiters.contains c
theorem nameOk_lit {s : Str} (h : nameB s = true) : NameOk s := by
  simp only [nameB, Bool.and_eq_true, Bool.not_eq_true', List.isEmpty_eq_false_iff, List.all_eq_true] at h
  refine ⟨h.1, fun c hc hd => ?_⟩
  have := h.2 c hc
  simp only [List.contains_eq_mem, decide_eq_false_iff_not] at this
  exact this hd

/-! Strings that need no reference. -/

theorem decodeFrom_plainString : ∀ s : Str, '&' ∉ s → '<' ∉ s → decodeFrom none s = some s
  | [], _, _ => rfl
  | c :: s, h1, h2 => by
    simp only [List.mem_cons, not_or] at h1 h2
    rw [decodeFrom_plain _ (Ne.symm h1.1) (Ne.symm h2.1), decodeFrom_plainString s h1.2 h2.2]; rfl

theorem decodeFrom_append : ∀ (a b : Str) (o : Option Str) (x : Str), decodeFrom o a = some x →
    decodeFrom o (a ++ b) = (decodeFrom none b).map (x ++ ·)
  | [], b, none, x, h => by
    simp only [decodeFrom, Option.some.injEq] at h
    subst h; cases h : decodeFrom none b <;> simp [h]
  | [], b, some _, x, h => by simp [decodeFrom] at h
  | c :: a, b, none, x, h => by
    rw [List.cons_append]
    simp only [decodeFrom] at h ⊢
    split
    · rename_i hc; rw [if_pos hc] at h; exact decodeFrom_append a b _ x h
    · rename_i hc
      rw [if_neg hc] at h
      split
      · rename_i hd; rw [if_pos hd] at h; exact absurd h (by simp)
      · rename_i hd
        rw [if_neg hd] at h
        cases e : decodeFrom none a with
        | none => rw [e] at h; exact absurd h (by simp)
        | some y =>
          rw [e] at h
          simp only [Option.map_some, Option.some.injEq] at h
          subst h
          rw [decodeFrom_append a b none y e]
          cases decodeFrom none b <;> rfl
  | c :: a, b, some acc, x, h => by
    rw [List.cons_append]
    simp only [decodeFrom] at h ⊢
    split
    · rename_i hc
      rw [if_pos hc] at h
      cases r : resolveRef acc with
      | none => rw [r] at h; exact absurd h (by simp)
      | some ch =>
        rw [r] at h
        simp only [Option.bind_some] at h ⊢
        cases e : decodeFrom none a with
        | none => rw [e] at h; exact absurd h (by simp)
        | some y =>
          rw [e] at h
          simp only [Option.map_some, Option.some.injEq] at h
          subst h
          rw [decodeFrom_append a b none y e]
          cases decodeFrom none b <;> rfl
    · rename_i hc
      rw [if_neg hc] at h
      split
      · rename_i hd; rw [if_pos hd] at h; exact absurd h (by simp)
      · rename_i hd; rw [if_neg hd] at h; exact decodeFrom_append a b _ x h

/-- Acceptable as character data. -/
def TextOk (s : Str) : Prop := (decodeText s).isSome = true ∧ '\r' ∉ s

instance (s : Str) : Decidable (TextOk s) := by unfold TextOk; infer_instance

theorem Stored.textOk {s : Str} (h : Stored s) : TextOk s := ⟨h.1, h.2.2⟩

theorem TextOk.append {a b : Str} (ha : TextOk a) (hb : TextOk b) : TextOk (a ++ b) := by
  refine ⟨?_, by simp [ha.2, hb.2]⟩
  obtain ⟨x, hx⟩ := Option.isSome_iff_exists.1 ha.1
  obtain ⟨y, hy⟩ := Option.isSome_iff_exists.1 hb.1
  unfold decodeText at *
  rw [decodeFrom_append a b none x hx, hy]; rfl

theorem decodeAttr_plain {s : Str}
    (h : ∀ c ∈ s, c ≠ '&' ∧ c ≠ '<' ∧ c ≠ '"' ∧ c ≠ '\r' ∧ c ≠ '\t' ∧ c ≠ '\n') : decodeAttr s = some s := by
  have hm : s.map attrSpace = s := by
    conv => rhs; rw [← List.map_id s]
    apply List.map_congr_left
    intro c hc
    have := h c hc
    simp [attrSpace, this.2.2.2.1, this.2.2.2.2.1, this.2.2.2.2.2]
  have hd : decodeText s = some s :=
    decodeFrom_plainString s (fun hc => (h _ hc).1 rfl) (fun hc => (h _ hc).2.1 rfl)
  unfold decodeAttr
  rw [if_neg (fun hc => (h _ hc).2.2.1 rfl), hm, hd]

theorem stored_of_plain {s : Str} (h : ∀ c ∈ s, c ≠ '&' ∧ c ≠ '<' ∧ c ≠ '"' ∧ c ≠ '\r' ∧ c ≠ '\t' ∧ c ≠ '\n') :
    Stored s := by
  have hm : s.map attrSpace = s := by
    conv => rhs; rw [← List.map_id s]
    apply List.map_congr_left
    intro c hc
    have := h c hc
    simp [attrSpace, this.2.2.2.1, this.2.2.2.2.1, this.2.2.2.2.2]
  have hd : decodeText s = some s :=
    decodeFrom_plainString s (fun hc => (h _ hc).1 rfl) (fun hc => (h _ hc).2.1 rfl)
  refine ⟨by rw [hd]; rfl, ?_, fun hc => (h _ hc).2.2.2.1 rfl⟩
  unfold decodeAttr
  rw [if_neg (fun hc => (h _ hc).2.2.1 rfl), hm, hd]; rfl

/-- No character that needs care. -/
def plainB (s : Str) : Bool := s.all fun c =>
  !(c == '&' || c == '<' || c == '"' || c == '\r' || c == '\t' || c == '\n')
theorem stored_lit {s : Str} (h : plainB s = true) : Stored s := by
  apply stored_of_plain
  intro c hc
  simpa [not_or, and_assoc] using List.all_eq_true.1 h c hc
theorem attrOk_lit {s : Str} (h : plainB s = true) : AttrOk s := (stored_lit h).attr
theorem textOk_lit {s : Str} (h : plainB s = true) : TextOk s := (stored_lit h).textOk

theorem dec_stored (n : Nat) : Stored (dec n) :=
  stored_of_plain fun c hc => by
    have h1 := dec_digits n c hc
    revert c
    intro c _ h
    have h' : ∀ c ∈ c!"0123456789", c ≠ '&' ∧ c ≠ '<' ∧ c ≠ '"' ∧ c ≠ '\r' ∧ c ≠ '\t' ∧ c ≠ '\n' := by decide
    exact h' c h

theorem decInt_stored (i : Int) : Stored (decInt i) := by
  cases i with
  | ofNat n => exact dec_stored n
  | negSucc n =>
    apply stored_of_plain
    intro c hc
    rcases List.mem_cons.1 hc with rfl | hc
    · decide
    · have h' : ∀ c ∈ c!"0123456789", c ≠ '&' ∧ c ≠ '<' ∧ c ≠ '"' ∧ c ≠ '\r' ∧ c ≠ '\t' ∧ c ≠ '\n' := by decide
      exact h' c (dec_digits _ c hc)

theorem hexDigits_digits : ∀ (fuel n : Nat) (acc : Str), (∀ c ∈ acc, c ∈ c!"0123456789abcdef") →
    ∀ c ∈ digitsAux 16 fuel n acc, c ∈ c!"0123456789abcdef" := by
  intro fuel
  induction fuel with
  | zero => intro n acc h; exact h
  | succ k ih =>
    intro n acc h
    have hd : ∀ d, d < 16 → Nat.digitChar d ∈ c!"0123456789abcdef" := by decide
    have h' : ∀ c ∈ Nat.digitChar (n % 16) :: acc, c ∈ c!"0123456789abcdef" := by
      intro c hc
      rcases List.mem_cons.1 hc with rfl | hc
      · exact hd _ (Nat.mod_lt _ (by omega))
      · exact h c hc
    unfold digitsAux
    dsimp only
    split
    · exact h'
    · exact ih _ _ h'

theorem paraId_stored (n : Nat) : Stored (generateParaId n).1 := by
  apply stored_of_plain
  have h' : ∀ c ∈ '0' :: c!"0123456789abcdef", c ≠ '&' ∧ c ≠ '<' ∧ c ≠ '"' ∧ c ≠ '\r' ∧ c ≠ '\t' ∧ c ≠ '\n' := by
    decide
  intro c hc
  apply h'
  simp only [generateParaId, paraIdText, pad0, List.mem_append, List.mem_replicate] at hc
  rcases hc with hc | hc
  · simp [hc.2]
  · exact List.mem_cons_of_mem _ (hexDigits_digits _ _ _ (by simp) c hc)

theorem escape_stored (s : Str) : Stored (escape s) := by
  refine ⟨?_, ?_, ?_⟩
  · have := decode_escape_append s []
    simp only [List.append_nil] at this
    unfold decodeText
    rw [this]; rfl
  · rw [Props.C01_escape_attribute]; rfl
  · intro h; exact (escape_no_delim s _ h).2.2.2.2.2 rfl

theorem history_attr (n : Nat) : AttrOk (historyIdText n) := (dec_stored n).attr
theorem dec_attr (n : Nat) : AttrOk (dec n) := (dec_stored n).attr
theorem decInt_attr (n : Int) : AttrOk (decInt n) := (decInt_stored n).attr
theorem bool_attr (b : Bool) : AttrOk (boolText b) := by cases b <;> decide
theorem bit_attr (b : Bool) : AttrOk (bitText b) := by cases b <;> decide
theorem BorderType.attr (t : BorderType) : AttrOk t.toStr := attrOk_lit (by cases t <;> decide)
theorem PositionalTabAlignmentType.attr (t : PositionalTabAlignmentType) : AttrOk t.toStr := attrOk_lit (by cases t <;> decide)
theorem PositionalTabRelativeTo.attr (t : PositionalTabRelativeTo) : AttrOk t.toStr := attrOk_lit (by cases t <;> decide)
theorem TabLeaderType.attr (t : TabLeaderType) : AttrOk t.toStr := attrOk_lit (by cases t <;> decide)
theorem ShdType.attr (t : ShdType) : AttrOk t.toStr := attrOk_lit (by cases t <;> decide)
theorem VertAlignType.attr (t : VertAlignType) : AttrOk t.toStr := attrOk_lit (by cases t <;> decide)
theorem PageOrientationType.attr (t : PageOrientationType) : AttrOk t.toStr := attrOk_lit (by cases t <;> decide)
theorem DocGridType.attr (t : DocGridType) : AttrOk t.toStr := attrOk_lit (by cases t <;> decide)
theorem SectionType.attr (t : SectionType) : AttrOk t.toStr := attrOk_lit (by cases t <;> decide)
theorem TabValueType.attr (t : TabValueType) : AttrOk t.toStr := attrOk_lit (by cases t <;> decide)
theorem TextAlignmentType.attr (t : TextAlignmentType) : AttrOk t.toStr := attrOk_lit (by cases t <;> decide)
theorem WidthType.attr (t : WidthType) : AttrOk t.toStr := attrOk_lit (by cases t <;> decide)
theorem TableLayoutType.attr (t : TableLayoutType) : AttrOk t.toStr := attrOk_lit (by cases t <;> decide)
theorem HeightRule.attr (t : HeightRule) : AttrOk t.toStr := attrOk_lit (by cases t <;> decide)
theorem VMergeType.attr (t : VMergeType) : AttrOk t.toStr := attrOk_lit (by cases t <;> decide)
theorem VAlignType.attr (t : VAlignType) : AttrOk t.toStr := attrOk_lit (by cases t <;> decide)
theorem TextDirectionType.attr (t : TextDirectionType) : AttrOk t.toStr := attrOk_lit (by cases t <;> decide)
theorem PicAlign.attr (t : PicAlign) : AttrOk t.toStr := attrOk_lit (by cases t <;> decide)
theorem RelativeFromHType.attr (t : RelativeFromHType) : AttrOk t.toStr := attrOk_lit (by cases t <;> decide)
theorem RelativeFromVType.attr (t : RelativeFromVType) : AttrOk t.toStr := attrOk_lit (by cases t <;> decide)
theorem BreakType.attr (t : BreakType) : AttrOk t.toStr := attrOk_lit (by cases t <;> decide)
theorem FieldCharType.attr (t : FieldCharType) : AttrOk t.toStr := attrOk_lit (by cases t <;> decide)
theorem PicAlign.textOk (t : PicAlign) : TextOk t.toStr := by cases t <;> decide

theorem map_attr {α} {o : Option α} {f : α → Str} (h : ∀ a, AttrOk (f a)) : ∀ v, o.map f = some v → AttrOk v := by
  cases o with
  | none => intro v hv; exact absurd hv (by simp)
  | some a => intro v hv; simp only [Option.map_some, Option.some.injEq] at hv; exact hv ▸ h a
theorem opt_attr {o : Option Str} (h : ∀ s, o = some s → Stored s) : ∀ v, o = some v → AttrOk v :=
  fun v hv => (h v hv).attr

/-! Nodes. -/

/-- Every tag of the nodes is acceptable. -/
def OkF (f : List Node) : Prop := ∀ t ∈ tagsForest f, TagOk t

theorem OkF.nil : OkF [] := by simp [OkF, tagsForest]
theorem OkF.append {a b} (h1 : OkF a) (h2 : OkF b) : OkF (a ++ b) := by
  intro t ht
  rw [tagsForest_append', List.mem_append] at ht
  exact ht.elim (h1 t) (h2 t)
theorem OkF.cons {a : Node} {b} (h1 : OkF [a]) (h2 : OkF b) : OkF (a :: b) := OkF.append (a := [a]) h1 h2
theorem OkF.elem {n as f} (h1 : NameOk n) (h2 : AttrsOk as) (h3 : OkF f) : OkF [.elem n as f] := by
  intro t ht
  simp only [tagsForest, Node.tags, List.append_nil, List.cons_append, List.mem_cons, List.mem_append,
    List.not_mem_nil, or_false] at ht
  rcases ht with rfl | ht | rfl
  · exact ⟨h1, h2⟩
  · exact h3 t ht
  · trivial
theorem OkF.leaf {n as} (h1 : NameOk n) (h2 : AttrsOk as) : OkF (leafN n as) := OkF.elem h1 h2 .nil
theorem OkF.leaf0 {n} (h1 : NameOk n) : OkF (leafN n) := OkF.elem h1 .nil .nil
theorem OkF.val {n v} (h1 : NameOk n) (h2 : AttrOk v) : OkF (valN n v) :=
  OkF.leaf h1 (.cons (by decide) h2 .nil)
theorem OkF.text {s} (h : TextOk s) : OkF [.text s] := by
  intro t ht
  simp only [tagsForest, Node.tags, List.append_nil, List.mem_cons, List.not_mem_nil, or_false] at ht
  subst ht; exact h
theorem OkF.opt {α} {o : Option α} {f : α → List Node} (h : ∀ a, o = some a → OkF (f a)) : OkF (optN o f) := by
  cases o with
  | none => exact .nil
  | some a => exact h a rfl
theorem OkF.ite {c : Prop} [Decidable c] {a} (h : OkF a) : OkF (if c then a else []) := by
  split
  · exact h
  · exact .nil
theorem OkF.iteElse {c : Prop} [Decidable c] {a b} (h : OkF a) (h' : OkF b) : OkF (if c then a else b) := by
  split
  · exact h
  · exact h'
theorem OkF.flatMap {α} {l : List α} {f : α → List Node} (h : ∀ a ∈ l, OkF (f a)) : OkF (l.flatMap f) := by
  induction l with
  | nil => exact .nil
  | cons a l ih =>
    rw [List.flatMap_cons]
    exact .append (h a (by simp)) (ih fun a ha => h a (by simp [ha]))

/-- Whatever the writer writes is acceptable. -/
def OkN (n : N) : Prop := ∀ g f g', n g = some (f, g') → OkF f

theorem OkN.emit {f} (h : OkF f) : OkN (emitN f) := by
  intro g f' g' e
  simp only [emitN, Option.some.injEq, Prod.mk.injEq] at e
  exact e.1 ▸ h
theorem OkN.panic : OkN panicN := by intro g f g' e; exact absurd e (by simp [panicN])
theorem OkN.thenN {m n : N} (hm : OkN m) (hn : OkN n) : OkN (m.thenN n) := by
  intro g f g' e
  unfold N.thenN at e
  cases e1 : m g with
  | none => rw [e1] at e; exact absurd e (by simp)
  | some r =>
    obtain ⟨f1, g1⟩ := r
    rw [e1] at e
    dsimp only at e
    cases e2 : n g1 with
    | none => rw [e2] at e; exact absurd e (by simp)
    | some r =>
      obtain ⟨f2, g2⟩ := r
      rw [e2] at e
      simp only [Option.some.injEq, Prod.mk.injEq] at e
      rw [← e.1]
      exact .append (hm _ _ _ e1) (hn _ _ _ e2)
theorem OkN.catNil : OkN (catN []) := .emit .nil
theorem OkN.catCons {m : N} {l : List N} (hm : OkN m) (hl : OkN (catN l)) : OkN (catN (m :: l)) := .thenN hm hl
theorem OkN.elem {n as} {m : N} (h1 : NameOk n) (h2 : AttrsOk as) (hm : OkN m) : OkN (elemN n as m) := by
  intro g f g' e
  unfold elemN at e
  cases e1 : m g with
  | none => rw [e1] at e; exact absurd e (by simp)
  | some r =>
    obtain ⟨f1, g1⟩ := r
    rw [e1] at e
    simp only [Option.some.injEq, Prod.mk.injEq] at e
    rw [← e.1]
    exact .elem h1 h2 (hm _ _ _ e1)
theorem OkN.ifN {c : Bool} {m : N} (h : OkN m) : OkN (Docx.ifN c m) := by
  cases c
  · exact .emit .nil
  · exact h
theorem OkN.opt {α} {o : Option α} {f : α → N} (h : ∀ a, o = some a → OkN (f a)) : OkN (optNB o f) := by
  cases o with
  | none => exact .emit .nil
  | some a => exact h a rfl
theorem OkN.each {α} {f : α → N} : ∀ {l : List α}, (∀ a ∈ l, OkN (f a)) → OkN (eachN f l)
  | [], _ => .emit .nil
  | a :: l, h => .thenN (h a (by simp)) (OkN.each fun a ha => h a (by simp [ha]))
theorem OkN.history {f : Str → N} (h : ∀ i, AttrOk i → OkN (f i)) : OkN (withHistoryN f) :=
  fun _ => h _ (history_attr _) _
theorem OkN.change {f : Str → N} (h : ∀ i, AttrOk i → OkN (f i)) : OkN (withChangeN f) :=
  fun _ => h _ (history_attr _) _
theorem OkN.paraId {f : Str → N} (h : ∀ i, Stored i → OkN (f i)) : OkN (withParaIdN f) :=
  fun _ => h _ (paraId_stored _) _

/-- Split a goal along the shape of the nodes, closing the literal parts. -/
macro "okRules" : tactic => `(tactic| repeat' first
  | with_reducible assumption
  | with_reducible apply OkN.emit | with_reducible exact OkN.panic
  | with_reducible exact OkN.catNil | with_reducible apply OkN.catCons
  | with_reducible apply OkN.elem | with_reducible apply OkN.ifN | with_reducible apply OkN.thenN
  | (with_reducible apply OkN.opt; intro _ _) | (with_reducible apply OkN.history; intro _ _)
  | (with_reducible apply OkN.change; intro _ _) | (with_reducible apply OkN.paraId; intro _ _)
  | with_reducible exact OkF.nil | with_reducible apply OkF.leaf0 | with_reducible apply OkF.val
  | with_reducible apply OkF.leaf
  | (with_reducible apply OkF.opt; intro _ _)
  | with_reducible apply OkF.ite | with_reducible apply OkF.append
  | with_reducible apply OkF.elem | with_reducible apply OkF.text | with_reducible apply OkF.cons
  | with_reducible exact AttrsOk.nil | with_reducible apply AttrsOk.cons
  | with_reducible apply AttrsOk.append | with_reducible apply AttrsOk.opt
  | with_reducible exact dec_attr _ | with_reducible exact decInt_attr _
  | with_reducible exact bool_attr _ | with_reducible exact bit_attr _
  | with_reducible exact map_attr dec_attr | with_reducible exact map_attr decInt_attr
  | with_reducible exact BorderType.attr _ | with_reducible exact map_attr BorderType.attr
  | with_reducible exact PositionalTabAlignmentType.attr _ | with_reducible exact map_attr PositionalTabAlignmentType.attr
  | with_reducible exact PositionalTabRelativeTo.attr _ | with_reducible exact map_attr PositionalTabRelativeTo.attr
  | with_reducible exact TabLeaderType.attr _ | with_reducible exact map_attr TabLeaderType.attr
  | with_reducible exact ShdType.attr _ | with_reducible exact map_attr ShdType.attr
  | with_reducible exact VertAlignType.attr _ | with_reducible exact map_attr VertAlignType.attr
  | with_reducible exact PageOrientationType.attr _ | with_reducible exact map_attr PageOrientationType.attr
  | with_reducible exact DocGridType.attr _ | with_reducible exact map_attr DocGridType.attr
  | with_reducible exact SectionType.attr _ | with_reducible exact map_attr SectionType.attr
  | with_reducible exact TabValueType.attr _ | with_reducible exact map_attr TabValueType.attr
  | with_reducible exact TextAlignmentType.attr _ | with_reducible exact map_attr TextAlignmentType.attr
  | with_reducible exact WidthType.attr _ | with_reducible exact map_attr WidthType.attr
  | with_reducible exact TableLayoutType.attr _ | with_reducible exact map_attr TableLayoutType.attr
  | with_reducible exact HeightRule.attr _ | with_reducible exact map_attr HeightRule.attr
  | with_reducible exact VMergeType.attr _ | with_reducible exact map_attr VMergeType.attr
  | with_reducible exact VAlignType.attr _ | with_reducible exact map_attr VAlignType.attr
  | with_reducible exact TextDirectionType.attr _ | with_reducible exact map_attr TextDirectionType.attr
  | with_reducible exact PicAlign.attr _ | with_reducible exact map_attr PicAlign.attr
  | with_reducible exact RelativeFromHType.attr _ | with_reducible exact map_attr RelativeFromHType.attr
  | with_reducible exact RelativeFromVType.attr _ | with_reducible exact map_attr RelativeFromVType.attr
  | with_reducible exact BreakType.attr _ | with_reducible exact map_attr BreakType.attr
  | with_reducible exact FieldCharType.attr _ | with_reducible exact map_attr FieldCharType.attr
  | (with_reducible apply nameOk_lit; rw [String.toList_ofList]; decide)
  | (with_reducible apply attrOk_lit; rw [String.toList_ofList]; decide)
  | (with_reducible apply textOk_lit; rw [String.toList_ofList]; decide)
  | with_reducible apply Stored.attr
  | with_reducible apply opt_attr)

/-- The hypotheses about strings, taken apart. -/
macro "okStrings" h:ident : tactic => `(tactic|
  simp only [AllS_nil, AllS_cons, AllS_append, AllS_optS, AllS_optStrings, and_true] at $h:ident)

theorem Color.ok (x : Color) (h : AllS x.strings) : OkF (x.nodes) := by
  unfold Color.strings at h
  okStrings h
  unfold Color.nodes
  okRules <;> grind

theorem toggle_ok {n : Str} (h : NameOk n) (b : Bool) : OkF (toggleNodes n b) := by
  cases b
  · exact OkF.val h (by decide)
  · exact OkF.leaf0 h
theorem toggleCs_ok {n : Str} (h : NameOk n) (b : Bool) : OkF (toggleCsNodes n b) := OkF.leaf0 h
theorem border_ok {n : Str} (h : NameOk n) (t : BorderType) (a b : Nat) {c : Str} (hc : Stored c) :
    OkF (borderNodes n t a b c) := by
  unfold borderNodes
  okRules

theorem RunFonts.ok (x : RunFonts) (h : AllS x.strings) : OkF (x.nodes) := by
  unfold RunFonts.strings at h
  okStrings h
  unfold RunFonts.nodes
  okRules <;> grind

theorem TextBorder.ok (x : TextBorder) (h : AllS x.strings) : OkF x.nodes := by
  unfold TextBorder.strings at h
  okStrings h
  exact border_ok (by decide) _ _ _ h

theorem revision_attrs {id a d : Str} (h : AttrOk id) (ha : Stored a) (hd : Stored d) :
    AttrsOk (revisionAttrs id a d) := by
  unfold revisionAttrs
  okRules

theorem Mark.ok {n : Str} (hn : NameOk n) (x : Mark) (h : AllS x.strings) : OkN (x.nodes n) := by
  unfold Mark.strings at h
  okStrings h
  unfold Mark.nodes revisionNode
  okRules
  apply revision_attrs <;> grind

theorem FitText.ok (x : FitText) : OkF x.nodes := by
  unfold FitText.nodes
  okRules

theorem PositionalTab.ok (x : PositionalTab) : OkF x.nodes := by
  unfold PositionalTab.nodes
  okRules

theorem Shading.ok (x : Shading) (h : AllS x.strings) : OkF (x.nodes) := by
  unfold Shading.strings at h
  okStrings h
  unfold Shading.nodes
  okRules <;> grind

theorem RunProperty.ok (x : RunProperty) (h : AllS x.strings) : OkN x.nodes := by
  unfold RunProperty.strings at h
  okStrings h
  unfold RunProperty.nodes
  okRules
  all_goals first
    | with_reducible exact toggle_ok (by decide) _
    | with_reducible exact toggleCs_ok (by decide) _
    | with_reducible exact FitText.ok _
    | with_reducible exact PositionalTab.ok _
    | (with_reducible apply Color.ok; grind)
    | (with_reducible apply RunFonts.ok; grind)
    | (with_reducible apply TextBorder.ok; grind)
    | (with_reducible apply Shading.ok; grind)
    | (with_reducible apply Mark.ok (by decide); grind)
    | grind

theorem PageSize.ok (x : PageSize) : OkF x.nodes := by
  unfold PageSize.nodes
  okRules
theorem PageMargin.ok (x : PageMargin) : OkF x.nodes := by
  unfold PageMargin.nodes
  okRules
theorem DocGrid.ok (x : DocGrid) : OkF x.nodes := by
  unfold DocGrid.nodes
  okRules
theorem PartReference.ok {n : Str} (hn : NameOk n) (x : PartReference) (h : AllS x.strings) : OkF (x.nodes n) := by
  unfold PartReference.strings at h
  okStrings h
  unfold PartReference.nodes
  okRules <;> grind
theorem PageNumType.ok (x : PageNumType) (h : AllS x.strings) : OkF (x.nodes) := by
  unfold PageNumType.strings at h
  okStrings h
  unfold PageNumType.nodes
  okRules <;> grind

theorem SectionBase.ok (x : SectionBase) (h : AllS x.strings) : OkF x.nodes := by
  unfold SectionBase.strings at h
  okStrings h
  unfold SectionBase.nodes
  okRules
  all_goals first
    | with_reducible exact PageSize.ok _
    | with_reducible exact PageMargin.ok _
    | with_reducible exact DocGrid.ok _
    | (with_reducible apply PageNumType.ok; grind)
    | (with_reducible apply PartReference.ok (by decide); grind)
    | grind

theorem NumberingProperty.ok (x : NumberingProperty) : OkF x.nodes := by
  unfold NumberingProperty.nodes
  okRules
theorem FrameProperty.ok (x : FrameProperty) (h : AllS x.strings) : OkF (x.nodes) := by
  unfold FrameProperty.strings at h
  okStrings h
  unfold FrameProperty.nodes
  okRules <;> grind

theorem Indent.ok (x : Indent) : OkF x.nodes := by
  unfold Indent.nodes
  okRules
  split <;> okRules
theorem LineSpacing.ok (x : LineSpacing) : OkF x.nodes := by
  unfold LineSpacing.nodes
  refine OkF.leaf (by decide) ?_
  repeat' with_reducible apply AttrsOk.append
  all_goals refine AttrsOk.opt (by decide) ?_
  all_goals first
    | with_reducible exact map_attr dec_attr
    | with_reducible exact map_attr decInt_attr
    | (apply map_attr; intro a; cases a <;> decide)
theorem ParagraphBorderPosition.nameOk (t : ParagraphBorderPosition) : NameOk t.element := nameOk_lit (by cases t <;> decide)
theorem ParagraphBorder.ok (x : ParagraphBorder) (h : AllS x.strings) : OkF x.nodes := by
  unfold ParagraphBorder.strings at h
  okStrings h
  unfold ParagraphBorder.nodes
  have := x.position.nameOk
  okRules
theorem ParagraphBorders.ok (x : ParagraphBorders) (h : AllS x.strings) : OkF x.nodes := by
  unfold ParagraphBorders.strings at h
  okStrings h
  unfold ParagraphBorders.nodes
  okRules
  all_goals (apply ParagraphBorder.ok; grind)
theorem Tab.ok (x : Tab) : OkF x.nodes := by
  unfold Tab.nodes
  okRules
theorem ParagraphBase.okBefore (x : ParagraphBase) (h : AllS x.strings) : OkN x.nodesBefore := by
  unfold ParagraphBase.strings at h
  okStrings h
  unfold ParagraphBase.nodesBefore
  okRules
  all_goals first
    | with_reducible exact NumberingProperty.ok _
    | with_reducible exact Indent.ok _
    | with_reducible exact LineSpacing.ok _
    | (with_reducible apply RunProperty.ok; grind)
    | (with_reducible apply FrameProperty.ok; grind)
    | grind
theorem ParagraphBase.okAfter (x : ParagraphBase) (h : AllS x.strings) : OkF x.nodesAfter := by
  unfold ParagraphBase.strings at h
  okStrings h
  unfold ParagraphBase.nodesAfter
  okRules
  all_goals first
    | (with_reducible apply OkF.flatMap; intro t _; exact t.ok)
    | (with_reducible apply ParagraphBorders.ok; grind)
    | (with_reducible apply Shading.ok; grind)
    | (with_reducible apply SectionBase.ok; grind)
    | grind

mutual
theorem ParagraphProperty.ok : (p : ParagraphProperty) → AllS p.strings → OkN p.nodes
  | ⟨base, change⟩, h => by
    simp only [ParagraphProperty.strings, AllS_append] at h
    have h1 := base.okBefore h.1
    have h2 := changeOk change h.2
    have h3 := base.okAfter h.1
    simp only [ParagraphProperty.nodes]
    okRules
theorem changeOk : (c : Option ParagraphPropertyChange) → AllS (changeStrings c) → OkN (nodesChange c)
  | none, _ => by simp only [nodesChange]; okRules
  | some c, h => by
    simp only [changeStrings] at h
    have := ParagraphPropertyChange.ok c h; simpa only [nodesChange]
theorem ParagraphPropertyChange.ok : (c : ParagraphPropertyChange) → AllS c.strings → OkN c.nodes
  | ⟨author, date, property⟩, h => by
    simp only [ParagraphPropertyChange.strings, AllS_cons] at h
    have := ParagraphProperty.ok property h.2.2
    simp only [ParagraphPropertyChange.nodes]
    okRules
    apply revision_attrs <;> grind
end

theorem width_ok {n : Str} (h : NameOk n) (w : Int) (t : WidthType) : OkF (widthNodes n w t) := by
  unfold widthNodes
  okRules
theorem TableBorderPosition.nameOk (t : TableBorderPosition) : NameOk t.element := nameOk_lit (by cases t <;> decide)
theorem TableBorder.ok (x : TableBorder) (h : AllS x.strings) : OkF x.nodes := by
  unfold TableBorder.strings at h
  okStrings h
  exact border_ok x.position.nameOk _ _ _ h
theorem TableBorders.ok (x : TableBorders) (h : AllS x.strings) : OkF x.nodes := by
  unfold TableBorders.strings at h
  okStrings h
  unfold TableBorders.nodes
  okRules
  all_goals (apply TableBorder.ok; grind)
theorem TableCellBorderPosition.nameOk (t : TableCellBorderPosition) : NameOk t.element := nameOk_lit (by cases t <;> decide)
theorem TableCellBorder.ok (x : TableCellBorder) (h : AllS x.strings) : OkF x.nodes := by
  unfold TableCellBorder.strings at h
  okStrings h
  exact border_ok x.position.nameOk _ _ _ h
theorem TableCellBorders.ok (x : TableCellBorders) (h : AllS x.strings) : OkF x.nodes := by
  unfold TableCellBorders.strings at h
  okStrings h
  unfold TableCellBorders.nodes
  okRules
  all_goals (apply TableCellBorder.ok; grind)
theorem CellMargin.ok {n : Str} (h : NameOk n) (x : CellMargin) : OkF (x.nodes n) := width_ok h _ _
theorem TableCellMargins.ok (x : TableCellMargins) : OkF x.nodes := by
  unfold TableCellMargins.nodes
  okRules
  all_goals exact CellMargin.ok (by decide) _
theorem CellMargins.ok (x : CellMargins) : OkF x.nodes := by
  unfold CellMargins.nodes
  okRules
  all_goals exact CellMargin.ok (by decide) _
theorem TablePositionProperty.ok (x : TablePositionProperty) (h : AllS x.strings) : OkF (x.nodes) := by
  unfold TablePositionProperty.strings at h
  okStrings h
  unfold TablePositionProperty.nodes
  okRules <;> grind

theorem TableProperty.ok (x : TableProperty) (h : AllS x.strings) : OkF x.nodes := by
  unfold TableProperty.strings at h
  okStrings h
  unfold TableProperty.nodes
  okRules
  all_goals first
    | with_reducible exact width_ok (by decide) _ _
    | with_reducible exact TableCellMargins.ok _
    | (with_reducible apply TableBorders.ok; grind)
    | (with_reducible apply TablePositionProperty.ok; grind)
    | grind
theorem grid_ok (l : List Nat) : OkF (gridNodes l) := by
  unfold gridNodes
  okRules
  apply OkF.flatMap
  intro _ _
  exact width_ok (by decide) _ _
theorem TableRowProperty.ok (x : TableRowProperty) (h : AllS x.strings) : OkN x.nodes := by
  unfold TableRowProperty.strings at h
  okStrings h
  unfold TableRowProperty.nodes
  okRules
  all_goals first
    | (with_reducible apply Mark.ok (by decide); grind)
    | grind
theorem TableCellProperty.ok (x : TableCellProperty) (h : AllS x.strings) : OkF x.nodes := by
  unfold TableCellProperty.strings at h
  okStrings h
  unfold TableCellProperty.nodes
  okRules
  all_goals first
    | with_reducible exact width_ok (by decide) _ _
    | with_reducible exact CellMargins.ok _
    | (with_reducible apply TableCellBorders.ok; grind)
    | (with_reducible apply Shading.ok; grind)
theorem DataBinding.ok (x : DataBinding) (h : AllS x.strings) : OkF (x.nodes) := by
  unfold DataBinding.strings at h
  okStrings h
  unfold DataBinding.nodes
  okRules <;> grind

theorem SdtProperty.ok (x : SdtProperty) (h : AllS x.strings) : OkN x.nodes := by
  unfold SdtProperty.strings at h
  okStrings h
  unfold SdtProperty.nodes
  okRules
  all_goals first
    | (with_reducible apply RunProperty.ok; grind)
    | (with_reducible apply DataBinding.ok; grind)
    | grind

/-! Field instructions. -/

theorem textOk_nil : TextOk [] := by decide
theorem quoted_ok {a b : Str} (ha : TextOk a) (hb : TextOk b) : TextOk (quotedSwitch a b) :=
  ((ha.append (by decide)).append hb).append (by decide)
theorem range_ok (r : Nat × Nat) : TextOk (rangeText r) :=
  ((dec_stored _).textOk.append (by decide)).append (dec_stored _).textOk
theorem joinComma_ok : ∀ l : List Str, (∀ s ∈ l, TextOk s) → TextOk (joinComma l)
  | [], _ => by decide
  | [s], h => h s (by simp)
  | s :: t :: l, h => ((h s (by simp)).append (by decide)).append (joinComma_ok (t :: l) fun u hu => h u (by simp [hu]))
theorem ite_textOk {c : Prop} [Decidable c] {a : Str} (h : TextOk a) : TextOk (if c then a else []) := by
  split
  · exact h
  · decide
theorem InstrToC.textOk (i : InstrToC) (h : AllS i.strings) : TextOk i.text := by
  unfold InstrToC.strings at h
  okStrings h
  unfold InstrToC.text
  repeat' with_reducible apply TextOk.append
  all_goals first
    | (split
       · apply quoted_ok (by decide); apply Stored.textOk; grind
       · decide)
    | (split
       · apply quoted_ok (by decide); apply range_ok
       · decide)
    | (with_reducible apply ite_textOk; decide)
    | skip
  · decide
  · exact textOk_nil
  · apply ite_textOk
    apply quoted_ok (by decide)
    apply joinComma_ok
    intro s hs
    obtain ⟨x, hx, rfl⟩ := List.mem_map.1 hs
    have h1 : AllS (List.map Prod.fst i.stylesWithLevels) := by simp_all
    have h2 := h1 x.1 (List.mem_map.2 ⟨x, hx, rfl⟩)
    exact (h2.textOk.append (by decide)).append (dec_stored _).textOk

theorem InstrTC.textOk (i : InstrTC) (h : AllS i.strings) : TextOk i.instr := by
  unfold InstrTC.strings at h
  okStrings h
  unfold InstrTC.instr
  repeat' with_reducible apply TextOk.append
  all_goals first
    | decide
    | (split
       · apply TextOk.append (by decide); apply Stored.textOk; grind
       · decide)
    | (split
       · exact TextOk.append (by decide) (dec_stored _).textOk
       · decide)
    | (with_reducible apply ite_textOk; decide)
    | (with_reducible apply Stored.textOk; grind)

theorem InstrPAGEREF.ok (i : InstrPAGEREF) (h : Stored i.pageRef) : OkF i.nodes := by
  unfold InstrPAGEREF.nodes
  have := h.textOk
  okRules

theorem InstrText.ok (x : InstrText) (h : AllS x.strings) : OkN x.nodes := by
  unfold InstrText.nodes
  cases x <;> simp only [InstrText.strings, AllS_cons, AllS_nil, and_true] at h <;> dsimp only <;> okRules
  · exact InstrToC.textOk _ h
  · exact InstrTC.textOk _ h
  · exact InstrPAGEREF.ok _ h
  · exact h.textOk

theorem DeleteInstrText.ok (x : DeleteInstrText) (h : AllS x.strings) : OkN x.nodes := by
  unfold DeleteInstrText.nodes
  cases x <;> simp only [DeleteInstrText.strings, AllS_cons, AllS_nil, and_true] at h <;> dsimp only <;> okRules
  · exact InstrToC.textOk _ h
  · exact InstrTC.textOk _ h
  · exact InstrPAGEREF.ok _ h
  · exact h.textOk

/-! Pictures. -/

theorem Pic.ok (x : Pic) (h : Stored x.id) : OkF x.nodes := by
  unfold Pic.nodes
  okRules
theorem DrawingPosition.ok (x : DrawingPosition) : OkF x.nodes := by
  cases x
  · have := (dec_stored (asU32 ‹_›)).textOk
    unfold DrawingPosition.nodes
    okRules
  · have := PicAlign.textOk ‹_›
    unfold DrawingPosition.nodes
    okRules
theorem graphic_ok (x : Pic) (h : Stored x.id) : OkF (graphicNodes x) := by
  unfold graphicNodes
  have := Pic.ok x h
  okRules
  apply OkF.iteElse <;> okRules
theorem drawing_ok (x : Pic) (h : Stored x.id) : OkF (drawingNodes x) := by
  unfold drawingNodes
  have h1 := graphic_ok x h
  have h2 := x.positionH.ok
  have h3 := x.positionV.ok
  okRules
  split <;> okRules

theorem commentStart_ok (id : Nat) : OkF (commentStartNodes id) := by
  unfold commentStartNodes
  okRules
theorem commentEnd_ok (id : Nat) : OkF (commentEndNodes id) := by
  unfold commentEndNodes
  okRules
theorem bookmarkStart_ok (id : Nat) {n : Str} (h : Stored n) : OkF (bookmarkStartNodes id n) := by
  unfold bookmarkStartNodes
  okRules
theorem bookmarkEnd_ok (id : Nat) : OkF (bookmarkEndNodes id) := by
  unfold bookmarkEndNodes
  okRules

theorem RunChild.ok (x : RunChild) (h : AllS x.strings) : OkN x.nodes := by
  cases x with
  | text t => have := (show Stored t by simpa [RunChild.strings, AllS_cons, AllS_nil] using h).textOk
              simp only [RunChild.nodes]; okRules
  | deleteText t => have := (show Stored t by simpa [RunChild.strings, AllS_cons, AllS_nil] using h).textOk
                    simp only [RunChild.nodes]; okRules
  | sym a b => simp only [RunChild.strings, AllS_cons, AllS_nil, and_true] at h
               simp only [RunChild.nodes]; okRules <;> grind
  | picture p => simp only [RunChild.strings, Pic.strings, AllS_cons, AllS_nil, and_true] at h
                 have := drawing_ok p h
                 simp only [RunChild.nodes]; okRules
  | commentStart i c => exact .emit (commentStart_ok i)
  | commentEnd i => exact .emit (commentEnd_ok i)
  | instrText i => exact i.ok h
  | deleteInstrText i => exact i.ok h
  | instrTextString s => have := (escape_stored s).textOk
                         simp only [RunChild.nodes]; okRules
  | shading s => exact .emit (s.ok h)
  | ptab t => exact .emit t.ok
  | _ => simp only [RunChild.nodes]; okRules

theorem Run.ok (x : Run) (h : AllS x.strings) : OkN x.nodes := by
  simp only [Run.strings, AllS_append, AllS_flatMap] at h
  have h1 := x.property.ok h.1
  have h2 : OkN (eachN RunChild.nodes x.children) := .each fun a ha => a.ok (h.2 a ha)
  unfold Run.nodes
  okRules

theorem DeleteChild.ok (x : DeleteChild) (h : AllS x.strings) : OkN x.nodes := by
  cases x with
  | run r => exact r.ok h
  | commentStart i c => exact .emit (commentStart_ok i)
  | commentEnd i => exact .emit (commentEnd_ok i)

theorem Delete.ok {n : Str} (hn : NameOk n) (x : Delete) (h : AllS x.strings) : OkN (x.nodes n) := by
  simp only [Delete.strings, AllS_cons, AllS_flatMap] at h
  have h2 : OkN (eachN DeleteChild.nodes x.children) := .each fun a ha => a.ok (h.2.2 a ha)
  unfold Delete.nodes
  okRules
  apply revision_attrs <;> grind

theorem InsertChild.ok (x : InsertChild) (h : AllS x.strings) : OkN x.nodes := by
  cases x with
  | run r => exact r.ok h
  | delete d => exact Delete.ok (by decide) d h
  | commentStart i c => exact .emit (commentStart_ok i)
  | commentEnd i => exact .emit (commentEnd_ok i)

theorem Insert.ok {n : Str} (hn : NameOk n) (x : Insert) (h : AllS x.strings) : OkN (x.nodes n) := by
  simp only [Insert.strings, AllS_cons, AllS_flatMap] at h
  have h2 : OkN (eachN InsertChild.nodes x.children) := .each fun a ha => a.ok (h.2.2 a ha)
  unfold Insert.nodes
  okRules
  apply revision_attrs <;> grind

theorem hyperlinkAttrs_ok {l : HyperlinkData} (h : AllS l.strings) (o : Option Nat) :
    AttrsOk (hyperlinkAttrs l o) := by
  cases l <;> simp only [HyperlinkData.strings, AllS_cons, AllS_nil, and_true] at h <;>
    simp only [hyperlinkAttrs] <;> okRules

theorem paragraphN_ok {id : Str} (hi : Stored id) {p : ParagraphProperty} (hp : AllS p.strings) {n : N}
    (h : OkN n) : OkN (paragraphN id p n) := by
  have := p.ok hp
  unfold paragraphN
  okRules

theorem newParagraphN_ok {p : ParagraphProperty} (hp : AllS p.strings) {n : N} (h : OkN n) :
    OkN (newParagraphN p n) := OkN.paraId fun _ hi => paragraphN_ok hi hp h

theorem emptyProperty_strings : AllS (ParagraphProperty.strings {}) := by
  intro s hs; exact absurd hs (by simp [ParagraphProperty.strings, changeStrings, ParagraphBase.strings,
    RunProperty.strings, optS, optStrings])

theorem styleProperty_strings (s : Str) (ts : List Tab) : AllS (styleProperty s ts).strings := by
  intro x hx
  simp only [styleProperty, ParagraphProperty.strings, changeStrings, ParagraphBase.strings,
    RunProperty.strings, optS, optStrings, Option.toList, List.nil_append, List.append_nil, List.mem_cons,
    List.not_mem_nil, or_false] at hx
  exact hx ▸ escape_stored s

theorem plainRun_ok {cs : List RunChild} (h : ∀ c ∈ cs, AllS c.strings) : OkN (Run.nodes { children := cs }) := by
  apply Run.ok
  simp only [Run.strings, AllS_append, AllS_flatMap]
  refine ⟨?_, h⟩
  intro s hs; exact absurd hs (by simp [RunProperty.strings, optS, optStrings])

theorem textOf_stored (s : Str) : Stored (textOf s) := escape_stored _

theorem pageFieldRun_ok {i : InstrText} (h : AllS i.strings) : OkN (pageFieldRun i).nodes := by
  apply plainRun_ok
  intro c hc
  simp only [List.mem_cons, List.not_mem_nil, or_false] at hc
  rcases hc with rfl | rfl | rfl | rfl | rfl <;> simp only [RunChild.strings, AllS_cons, AllS_nil, and_true] <;>
    first | exact h | exact textOf_stored _

theorem pageRefRun_ok (t : TocItem) (h : Stored t.tocKey) : OkN (pageRefRun t).nodes := by
  apply plainRun_ok
  intro c hc
  simp only [List.mem_cons, List.not_mem_nil, or_false] at hc
  rcases hc with rfl | rfl | rfl | rfl | rfl <;>
    simp only [RunChild.strings, InstrText.strings, AllS_cons, AllS_nil, and_true] <;>
    first | exact h | exact textOf_stored _

theorem tocFieldRun_ok (b d : Bool) {i : InstrToC} (h : AllS i.strings) :
    OkN (Run.nodes { children := [.fieldChar .begin b, .instrText (.toc i), .fieldChar .separate d] }) := by
  apply plainRun_ok
  intro c hc
  simp only [List.mem_cons, List.not_mem_nil, or_false] at hc
  rcases hc with rfl | rfl | rfl <;> simp only [RunChild.strings, InstrText.strings, AllS_nil] <;> exact h

theorem tocItemN_ok (first : Bool) (t : TocItem) (hk : Stored t.tocKey) (hi : AllS t.instr.strings) :
    OkN (tocItemN first t) := by
  have h1 : OkN (Run.nodes { children := [.text (textOf t.text)] }) := plainRun_ok (by
    intro c hc
    simp only [List.mem_cons, List.not_mem_nil, or_false] at hc
    subst hc
    simp only [RunChild.strings, AllS_cons, AllS_nil, and_true]; exact textOf_stored _)
  have h2 : OkN (Run.nodes { children := [.tab] }) := plainRun_ok (by
    intro c hc
    simp only [List.mem_cons, List.not_mem_nil, or_false] at hc
    subst hc
    simp only [RunChild.strings, AllS_nil])
  have h3 := pageRefRun_ok t hk
  have h4 := tocFieldRun_ok t.dirty false hi
  have h5 : OkN (tocItemRunsN t) := by
    unfold tocItemRunsN
    have := hyperlinkAttrs_ok (l := .anchor t.tocKey)
      (by simp only [HyperlinkData.strings, AllS_cons, AllS_nil, and_true]; exact hk) none
    split
    · okRules
    · okRules
  unfold tocItemN
  apply newParagraphN_ok (styleProperty_strings _ _)
  okRules

theorem fieldEnd_ok : OkN fieldEndRun.nodes := plainRun_ok (by
  intro c hc
  simp only [List.mem_cons, List.not_mem_nil, or_false] at hc
  subst hc
  simp only [RunChild.strings, AllS_nil])

theorem tocEndN_ok (t : TocItem) : OkN (tocEndN t) :=
  newParagraphN_ok (styleProperty_strings _ _) fieldEnd_ok

theorem tocItemsN_ok (ts : List TocItem) (h : ∀ t ∈ ts, Stored t.tocKey ∧ AllS t.instr.strings) :
    ∀ first, OkN (tocItemsN first ts) := by
  induction ts with
  | nil => intro first; exact .emit .nil
  | cons t ts ih =>
    intro first
    have h1 := tocItemN_ok first t (h t (by simp)).1 (h t (by simp)).2
    have h2 := tocEndN_ok t
    cases ts with
    | nil => simp only [tocItemsN]; okRules
    | cons u us =>
      have h3 := ih (fun t ht => h t (by simp [ht])) false
      simp only [tocItemsN]; okRules

theorem tocEntriesN_ok (ts : List TocItem) (h : ∀ t ∈ ts, Stored t.tocKey ∧ AllS t.instr.strings) :
    OkN (tocEntriesN ts) := by
  have := tocItemsN_ok ts h true
  unfold tocEntriesN
  okRules

theorem tocStartChildrenN_ok {i : InstrToC} (h : AllS i.strings) (d : Option Mark)
    (hd : ∀ m, d = some m → Stored m.date) : OkN (tocStartChildrenN i d) := by
  cases d with
  | none => exact tocFieldRun_ok true false h
  | some m =>
    apply Delete.ok (by decide)
    simp only [Delete.strings, AllS_cons, AllS_flatMap, List.mem_cons, List.not_mem_nil, or_false, forall_eq]
    refine ⟨escape_stored _, hd m rfl, ?_⟩
    simp only [DeleteChild.strings, Run.strings, AllS_append, AllS_flatMap]
    refine ⟨fun s hs => absurd hs (by simp [RunProperty.strings, optS, optStrings]), ?_⟩
    intro c hc
    simp only [List.mem_cons, List.not_mem_nil, or_false] at hc
    rcases hc with rfl | rfl | rfl <;> simp only [RunChild.strings, DeleteInstrText.strings, AllS_nil]; exact h

theorem emptyLineN_ok : OkN emptyLineN := newParagraphN_ok emptyProperty_strings (plainRun_ok (by
    intro c hc
    simp only [List.mem_cons, List.not_mem_nil, or_false] at hc
    subst hc
    simp only [RunChild.strings, AllS_cons, AllS_nil, and_true]; exact textOf_stored _))

theorem wrapSdt_ok (x : Bool) {a : Option Str} (h : ∀ s, a = some s → Stored s) {n : N} (hn : OkN n) :
    OkN (wrapSdt x a n) := by
  have : OkN (SdtProperty.nodes { alias := a }) := SdtProperty.ok _ (by
    unfold SdtProperty.strings RunProperty.strings
    simp only [AllS_append, AllS_optS, AllS_optStrings]
    simp
    exact h)
  unfold wrapSdt
  split
  · exact hn
  · okRules

theorem emptyParagraph_ok : OkN (newParagraphN {} (emitN [])) := newParagraphN_ok emptyProperty_strings (.emit .nil)

mutual
theorem ParagraphChild.okAt : (x : ParagraphChild) → AllS (x.strings) → OkN (x.nodes)
  | .run r, hs => by simp only [ParagraphChild.strings] at hs; simp only [ParagraphChild.nodes]; exact r.ok hs
  | .insert i, hs => by simp only [ParagraphChild.strings] at hs; simp only [ParagraphChild.nodes]; exact Insert.ok (by decide) i hs
  | .delete d, hs => by simp only [ParagraphChild.strings] at hs; simp only [ParagraphChild.nodes]; exact Delete.ok (by decide) d hs
  | .moveFrom d, hs => by simp only [ParagraphChild.strings] at hs; simp only [ParagraphChild.nodes]; exact Delete.ok (by decide) d hs
  | .moveTo i, hs => by simp only [ParagraphChild.strings] at hs; simp only [ParagraphChild.nodes]; exact Insert.ok (by decide) i hs
  | .bookmarkStart id name, hs => by simp only [ParagraphChild.strings] at hs; simp only [ParagraphChild.nodes]; exact .emit (bookmarkStart_ok _ (hs name (by simp)))
  | .hyperlink h, hs => by simp only [ParagraphChild.strings] at hs; simp only [ParagraphChild.nodes]; exact Hyperlink.okAt h hs
  | .bookmarkEnd id, hs => by simp only [ParagraphChild.strings] at hs; simp only [ParagraphChild.nodes]; exact .emit (bookmarkEnd_ok _)
  | .commentStart id c, hs => by simp only [ParagraphChild.strings] at hs; simp only [ParagraphChild.nodes]; exact .emit (commentStart_ok _)
  | .commentEnd id, hs => by simp only [ParagraphChild.strings] at hs; simp only [ParagraphChild.nodes]; exact .emit (commentEnd_ok _)
  | .sdt s, hs => by simp only [ParagraphChild.strings] at hs; simp only [ParagraphChild.nodes]; exact Sdt.okAt s hs
  | .pageNum i, hs => by simp only [ParagraphChild.nodes]; exact pageFieldRun_ok (by simp [InstrText.strings, AllS_nil])
  | .numPages i, hs => by simp only [ParagraphChild.nodes]; exact pageFieldRun_ok (by simp [InstrText.strings, AllS_nil])
theorem ParagraphChildren.okAt : (x : List ParagraphChild) → AllS (stringsParagraphChildren x) → OkN (nodesParagraphChildren x)
  | [], _ => by simp only [nodesParagraphChildren]; exact .emit .nil
  | c :: cs, h => by
    simp only [stringsParagraphChildren, AllS_append] at h
    simp only [nodesParagraphChildren]
    exact OkN.thenN (ParagraphChild.okAt c h.1) (ParagraphChildren.okAt cs h.2)
theorem Hyperlink.okAt : (x : Hyperlink) → AllS (x.strings) → OkN (x.nodes)
  | ⟨link, history, children⟩, h => by
    simp only [Hyperlink.strings, AllS_append] at h
    have h1 := ParagraphChildren.okAt children h.2
    have h2 := hyperlinkAttrs_ok h.1 history
    simp only [Hyperlink.nodes]
    okRules
theorem Sdt.okAt : (x : Sdt) → AllS (x.strings) → OkN (x.nodes)
  | ⟨children, property, hn⟩, h => by
    simp only [Sdt.strings, AllS_append] at h
    have h1 := SdtChildren.okAt children h.2
    have h2 := property.ok h.1
    simp only [Sdt.nodes]
    okRules
theorem SdtChildren.okAt : (x : List SdtChild) → AllS (stringsSdtChildren x) → OkN (nodesSdtChildren x)
  | [], _ => by simp only [nodesSdtChildren]; exact .emit .nil
  | c :: cs, h => by
    simp only [stringsSdtChildren, AllS_append] at h
    simp only [nodesSdtChildren]
    exact OkN.thenN (SdtChild.okAt c h.1) (SdtChildren.okAt cs h.2)
theorem SdtChild.okAt : (x : SdtChild) → AllS (x.strings) → OkN (x.nodes)
  | .run r, hs => by simp only [SdtChild.strings] at hs; simp only [SdtChild.nodes]; exact r.ok hs
  | .paragraph p, hs => by simp only [SdtChild.strings] at hs; simp only [SdtChild.nodes]; exact Paragraph.okAt p hs
  | .table t, hs => by simp only [SdtChild.strings] at hs; simp only [SdtChild.nodes]; exact Table.okAt t hs
  | .bookmarkStart id name, hs => by simp only [SdtChild.strings] at hs; simp only [SdtChild.nodes]; exact .emit (bookmarkStart_ok _ (hs name (by simp)))
  | .bookmarkEnd id, hs => by simp only [SdtChild.strings] at hs; simp only [SdtChild.nodes]; exact .emit (bookmarkEnd_ok _)
  | .commentStart id c, hs => by simp only [SdtChild.strings] at hs; simp only [SdtChild.nodes]; exact .emit (commentStart_ok _)
  | .commentEnd id, hs => by simp only [SdtChild.strings] at hs; simp only [SdtChild.nodes]; exact .emit (commentEnd_ok _)
  | .sdt s, hs => by simp only [SdtChild.strings] at hs; simp only [SdtChild.nodes]; exact Sdt.okAt s hs
theorem Paragraph.okAt : (x : Paragraph) → AllS (x.strings) → OkN (x.nodes)
  | ⟨id, children, property, hn⟩, h => by
    simp only [Paragraph.strings, AllS_cons, AllS_append] at h
    simp only [Paragraph.nodes]
    exact paragraphN_ok h.1 h.2.1 (ParagraphChildren.okAt children h.2.2)
theorem Table.okAt : (x : Table) → AllS (x.strings) → OkN (x.nodes)
  | ⟨rows, grid, hn, property⟩, h => by
    simp only [Table.strings, AllS_append] at h
    have h1 := Rows.okAt rows h.2
    have h2 := property.ok h.1
    have h3 := grid_ok grid
    simp only [Table.nodes]
    okRules
theorem Rows.okAt : (x : List Row) → AllS (stringsRows x) → OkN (nodesRows x)
  | [], _ => by simp only [nodesRows]; exact .emit .nil
  | c :: cs, h => by
    simp only [stringsRows, AllS_append] at h
    simp only [nodesRows]
    exact OkN.thenN (Row.okAt c h.1) (Rows.okAt cs h.2)
theorem Row.okAt : (x : Row) → AllS (x.strings) → OkN (x.nodes)
  | ⟨cells, hn, property⟩, h => by
    simp only [Row.strings, AllS_append] at h
    have h1 := Cells.okAt cells h.2
    have h2 := property.ok h.1
    simp only [Row.nodes]
    okRules
theorem Cells.okAt : (x : List Cell) → AllS (stringsCells x) → OkN (nodesCells x)
  | [], _ => by simp only [nodesCells]; exact .emit .nil
  | c :: cs, h => by
    simp only [stringsCells, AllS_append] at h
    simp only [nodesCells]
    exact OkN.thenN (Cell.okAt c h.1) (Cells.okAt cs h.2)
theorem Cell.okAt : (x : Cell) → AllS (x.strings) → OkN (x.nodes)
  | ⟨children, property, hn⟩, h => by
    simp only [Cell.strings, AllS_append] at h
    have h1 := CellContents.okAt (decide (children.length = 1)) children h.2
    have h2 := property.ok h.1
    have h3 := emptyParagraph_ok
    simp only [Cell.nodes]
    okRules
theorem CellContents.okAt (only : Bool) : (x : List CellContent) → AllS (stringsCellContents x) → OkN (nodesCellContents only x)
  | [], _ => by simp only [nodesCellContents]; exact .emit .nil
  | c :: cs, h => by
    simp only [stringsCellContents, AllS_append] at h
    simp only [nodesCellContents]
    exact OkN.thenN (CellContent.okAt only c h.1) (CellContents.okAt only cs h.2)
theorem CellContent.okAt (only : Bool) : (x : CellContent) → AllS (x.strings) → OkN (x.nodes only)
  | .paragraph p, hs => by simp only [CellContent.strings] at hs; simp only [CellContent.nodes]; exact Paragraph.okAt p hs
  | .table t, hs => by
    simp only [CellContent.strings] at hs; simp only [CellContent.nodes]
    have h1 := Table.okAt t hs
    have h2 := emptyParagraph_ok
    okRules
  | .sdt s, hs => by simp only [CellContent.strings] at hs; simp only [CellContent.nodes]; exact Sdt.okAt s hs
  | .toc t, hs => by simp only [CellContent.strings] at hs; simp only [CellContent.nodes]; exact Toc.okAt t hs
theorem Toc.okAt : (x : Toc) → AllS (x.strings) → OkN (x.nodes)
  | ⟨instr, items, au, dirty, withoutSdt, alias, placeholder, before, after, delete, property⟩, h => by
    simp only [Toc.strings, AllS_append, AllS_flatMap, AllS_optS, AllS_optStrings, TocItem.strings, AllS_cons,
      AllS_nil, and_true] at h
    obtain ⟨⟨⟨⟨⟨⟨hi, ht⟩, ha⟩, hb⟩, haf⟩, hd⟩, hp⟩ := h
    have h1 := Blocks.okAt before hb
    have h2 := fun pos => After.okAt pos after haf
    simp only [Toc.nodes]
    apply wrapSdt_ok _ ha
    cases items with
    | nil =>
      have h3 := h2 .firstMerging
      have h4 : OkN (newParagraphN (property.getD {}) (tocStartChildrenN instr delete)) := by
        apply newParagraphN_ok _ (tocStartChildrenN_ok hi _ hd)
        cases property with
        | none => exact emptyProperty_strings
        | some p => exact hp
      dsimp only
      okRules
      exact paragraphN_ok ‹_› emptyProperty_strings fieldEnd_ok
    | cons i is =>
      have h3 := h2 .first
      have h4 : OkN (tocEntriesN (tocPreparedItems instr dirty placeholder (i :: is))) := by
        apply tocEntriesN_ok
        intro t hx
        obtain ⟨u, hu, rfl⟩ := List.mem_map.1 hx
        exact ⟨ht u hu, hi⟩
      dsimp only
      okRules
theorem Blocks.okAt : (x : List Block) → AllS (stringsBlocks x) → OkN (nodesBlocks x)
  | [], _ => by simp only [nodesBlocks]; exact .emit .nil
  | c :: cs, h => by
    simp only [stringsBlocks, AllS_append] at h
    simp only [nodesBlocks]
    exact OkN.thenN (Block.okAt c h.1) (Blocks.okAt cs h.2)
theorem Block.okAt : (x : Block) → AllS (x.strings) → OkN (x.nodes)
  | .paragraph p, hs => by simp only [Block.strings] at hs; simp only [Block.nodes]; exact Paragraph.okAt p hs
  | .table t, hs => by simp only [Block.strings] at hs; simp only [Block.nodes]; exact Table.okAt t hs
theorem After.okAt (pos : TocPosition) : (x : List Block) → AllS (stringsBlocks x) → OkN (nodesAfter pos x)
  | [], _ => by simp only [nodesAfter]; exact .emit .nil
  | c :: cs, h => by
    simp only [stringsBlocks, AllS_append] at h
    simp only [nodesAfter]
    exact OkN.thenN (BlockAfter.okAt pos c h.1) (After.okAt .later cs h.2)
theorem BlockAfter.okAt (pos : TocPosition) : (x : Block) → AllS (Block.strings x) → OkN (x.nodesAfter pos)
  | .paragraph ⟨id, children, property, hn⟩, h => by
    simp only [Block.strings, Paragraph.strings, AllS_cons, AllS_append] at h
    have h1 := ParagraphChildren.okAt children h.2.2
    have h2 := fieldEnd_ok
    simp only [Block.nodesAfter]
    apply paragraphN_ok h.1 h.2.1
    cases pos <;> dsimp only <;> okRules
  | .table t, h => by
    simp only [Block.strings] at h
    have h1 := Table.okAt t h
    have h2 := emptyLineN_ok
    simp only [Block.nodesAfter]
    cases pos <;> dsimp only <;> okRules
end

theorem HeaderChild.ok (x : HeaderChild) (h : AllS x.strings) : OkN x.nodes := by
  cases x with
  | paragraph p => exact Paragraph.okAt p h
  | table t => exact Table.okAt t h
  | sdt s => exact Sdt.okAt s h

theorem headerAttrs_ok : AttrsOk headerAttrs := by unfold headerAttrs; okRules
theorem documentAttrs_ok : AttrsOk documentAttrs := by unfold documentAttrs; okRules
theorem commentsAttrs_ok : AttrsOk commentsAttrs := by unfold commentsAttrs; okRules
theorem footnotesAttrs_ok : AttrsOk footnotesAttrs := by unfold footnotesAttrs; okRules

theorem Header.ok {n : Str} (hn : NameOk n) (x : Header) (h : AllS x.strings) : OkN (x.nodes n) := by
  simp only [Header.strings, AllS_flatMap] at h
  exact .elem hn headerAttrs_ok (.each fun a ha => a.ok (h a ha))

theorem SectionChild.ok (x : SectionChild) (h : AllS x.strings) : OkN x.nodes := by
  cases x with
  | paragraph p => exact Paragraph.okAt p h
  | table t => exact Table.okAt t h
  | sdt s => exact Sdt.okAt s h
  | toc t => exact Toc.okAt t h
  | bookmarkStart i n => exact .emit (bookmarkStart_ok _ (h n (by simp [SectionChild.strings])))
  | bookmarkEnd i => exact .emit (bookmarkEnd_ok _)
  | commentStart i c => exact .emit (commentStart_ok _)
  | commentEnd i => exact .emit (commentEnd_ok _)

theorem Section.ok (x : Section) (h : AllS x.strings) : OkN x.nodes := by
  simp only [Section.strings, AllS_append, AllS_flatMap] at h
  have h1 : OkN (eachN SectionChild.nodes x.children) := .each fun a ha => a.ok (h.1 a ha)
  have h2 := x.property.base.ok h.2
  unfold Section.nodes
  okRules

theorem DocumentChild.ok (x : DocumentChild) (h : AllS x.strings) : OkN x.nodes := by
  cases x with
  | paragraph p => exact Paragraph.okAt p h
  | table t => exact Table.okAt t h
  | sdt s => exact Sdt.okAt s h
  | toc t => exact Toc.okAt t h
  | «section» s => exact s.ok h
  | bookmarkStart i n => exact .emit (bookmarkStart_ok _ (h n (by simp [DocumentChild.strings])))
  | bookmarkEnd i => exact .emit (bookmarkEnd_ok _)
  | commentStart i c => exact .emit (commentStart_ok _)
  | commentEnd i => exact .emit (commentEnd_ok _)

theorem Document.ok (x : Document) (h : AllS x.strings) : OkN x.nodes := by
  simp only [Document.strings, AllS_append, AllS_flatMap] at h
  have h1 : OkN (eachN DocumentChild.nodes x.children) := .each fun a ha => a.ok (h.1 a ha)
  have h2 := x.sectionProperty.base.ok h.2
  have h3 := documentAttrs_ok
  unfold Document.nodes
  okRules

theorem Comment.ok (x : Comment) (h : AllS x.strings) : OkN x.nodes := by
  simp only [Comment.strings, AllS_cons] at h
  have h1 := Blocks.okAt x.children h.2.2
  have h2 : AttrOk [] := by decide
  unfold Comment.nodes
  okRules <;> grind

theorem commentsN_ok (cs : List Comment) (h : ∀ c ∈ cs, AllS c.strings) : OkN (commentsN cs) :=
  .elem (by decide) commentsAttrs_ok (.each fun c hc => c.ok (h c hc))

theorem Footnote.ok (x : Footnote) (h : AllS x.strings) : OkN x.nodes := by
  simp only [Footnote.strings, AllS_flatMap] at h
  have h1 : OkN (eachN Paragraph.nodes x.content) := .each fun p hp => Paragraph.okAt p (h p hp)
  have h2 := emptyParagraph_ok
  unfold Footnote.nodes
  okRules

theorem footnotesN_ok (fs : List Footnote) (h : ∀ f ∈ fs, AllS f.strings) : OkN (footnotesN fs) :=
  .elem (by decide) footnotesAttrs_ok (.each fun f hf => f.ok (h f hf))

end Docx
