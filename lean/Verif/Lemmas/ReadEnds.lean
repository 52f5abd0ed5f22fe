import Verif.Spec.ReadEnds
import Verif.Model.ReadDocx

/-!
# Readers end
-/

namespace Docx

open Docx.Xml Docx.Spec

/-- What can keep a reader from a panic, and from an error. -/
structure Aims where
  calm : Prop
  sure : Prop

/-- What keeps from neither less. -/
def Aims.Le (C' C : Aims) : Prop := (C'.calm → C.calm) ∧ (C'.sure → C.sure)

theorem Aims.le_refl (C : Aims) : Aims.Le C C := ⟨id, id⟩

/-- Errors do not matter. -/
def Aims.quiet (C : Aims) : Aims := ⟨C.calm, False⟩

/-- The events keep the readers from panics, and from errors where these matter. -/
def aims (b : Bool) (x : ReadEnv) (es : List REvent) : Aims := ⟨Calm x es, b = true ∧ Sure x es⟩

theorem quiet_le {b b' : Bool} {x : ReadEnv} {es : List REvent} : Aims.Le (aims b x es).quiet (aims b' x es) := ⟨id, False.elim⟩

theorem aims_false_le {b' : Bool} {x : ReadEnv} {es : List REvent} : Aims.Le (aims false x es) (aims b' x es) :=
  ⟨id, fun h => absurd h.1 Bool.false_ne_true⟩

/-- How a reader may end when the elements `st` are open around it: what is left is an end of what there was, still with these elements open,
if it panics then the one part of `C` does not hold, and if it gives an error then the other does not. -/
def After (C : Aims) (st : List Str) (es : List REvent) {α : Type} : Read α → Prop
  | .ok _ rest => rest <:+ es ∧ ∃ ex, Nested (ex ++ st) rest
  | .err rest => (rest <:+ es ∧ ∃ ex, Nested (ex ++ st) rest) ∧ ¬ C.sure
  | .panic => ¬ C.calm
  | .running => False

theorem Calm.suffix {x : ReadEnv} {a b : List REvent} (h : Calm x b) (hs : a <:+ b) : Calm x a := fun e he => h e (hs.mem he)

theorem aims_suffix {b : Bool} {x : ReadEnv} {es es' : List REvent} (hs : es <:+ es') : Aims.Le (aims b x es') (aims b x es) :=
  ⟨fun h => Calm.suffix h hs, fun h => ⟨h.1, fun e he => h.2 e (hs.mem he)⟩⟩

theorem aims_tail {b : Bool} {x : ReadEnv} {e : REvent} {es : List REvent} : Aims.Le (aims b x (e :: es)) (aims b x es) := aims_suffix (List.suffix_cons _ _)

theorem After.weaken {C C' : Aims} {st st' : List Str} {es es' : List REvent} {α : Type} {r : Read α} (h : After C st es r) (hC : Aims.Le C' C)
    (hs : es <:+ es') (ht : st' <:+ st) : After C' st' es' r := by
  have key : ∀ rest : List REvent, (rest <:+ es ∧ ∃ ex, Nested (ex ++ st) rest) → rest <:+ es' ∧ ∃ ex, Nested (ex ++ st') rest := by
    rintro rest ⟨h1, ex, h2⟩
    obtain ⟨t, rfl⟩ := ht
    exact ⟨h1.trans hs, ex ++ t, by rwa [List.append_assoc]⟩
  cases r with
  | ok a rest => exact key rest h
  | err rest => exact ⟨key rest h.1, fun c => h.2 (hC.2 c)⟩
  | panic => exact fun c => h (hC.1 c)
  | running => exact h

theorem After.bind {C : Aims} {st : List Str} {es : List REvent} {α β : Type} {r : Read α} {f : α → List REvent → Read β} (h : After C st es r)
    (hf : ∀ a rest, rest <:+ es → (∃ ex, Nested (ex ++ st) rest) → After C st es (f a rest)) : After C st es (r.bind f) := by
  cases r with
  | ok a rest => exact hf a rest h.1 h.2
  | err rest => exact h
  | panic => exact h
  | running => exact h

theorem After.caught {C : Aims} {st : List Str} {es : List REvent} {α β : Type} {r : Read α} {f : Option α → List REvent → Read β} (h : After C.quiet st es r)
    (hf : ∀ a rest, rest <:+ es → (∃ ex, Nested (ex ++ st) rest) → After C st es (f a rest)) : After C st es (r.caught f) := by
  cases r with
  | ok a rest => exact hf _ rest h.1 h.2
  | err rest => exact hf _ rest h.1.1 h.1.2
  | panic => exact h
  | running => exact h

theorem After.map {C : Aims} {st : List Str} {es : List REvent} {α β : Type} {r : Read α} {f : α → β} (h : After C st es r) :
    After C st es (r.map f) := h.bind fun _ _ h1 h2 => ⟨h1, h2⟩

/-- A reader of an element with the local name `n`, which has been opened. -/
def Closes (b : Bool) (x : ReadEnv) (d : Nat) (n : Str) {α : Type} (rd : List REvent → Read α) : Prop :=
  ∀ st es, es.length < d → Nested (n :: st) es → After (aims b x es) st es (rd es)

/-- What a loop does at a start is all right. -/
def Handles (b : Bool) (x : ReadEnv) (d : Nat) {σ : Type} (L : Loop σ) : Prop :=
  ∀ s q as es st, es.length + 1 < d → Nested (q.loc :: st) es → After (aims b x (.start q as :: es)) st es (L.start s q as es)

theorem calm_tail {x : ReadEnv} {e : REvent} {es : List REvent} (h : Calm x (e :: es)) : Calm x es := fun _ h' => h _ (.tail _ h')

theorem run_closes {b : Bool} {x : ReadEnv} {d : Nat} {σ : Type} {L : Loop σ} {n : Str} (hL : Handles b x d L) (hc : ∀ s q, q.loc = n → L.close s q = none)
    (st : List Str) : ∀ (m : Nat) (s : σ) (ex : List Str) (es : List REvent), es.length < m → es.length < d → Nested (ex ++ n :: st) es →
    After (aims b x es) st es (L.run m s es)
  | 0, _, _, _, h, _, _ => absurd h (Nat.not_lt_zero _)
  | m + 1, s, ex, [], _, _, h => by simp [Nested] at h
  | m + 1, s, ex, e :: es, hm, hd, h => by
    have hm' : es.length < m := by simpa using hm
    have hd' : es.length + 1 < d := by simpa using hd
    have hs : es <:+ e :: es := List.suffix_cons e es
    unfold Loop.run
    dsimp only [nextEvent]
    cases e with
    | start q as =>
      dsimp only
      have h1 := hL s q as es (ex ++ n :: st) hd' h
      revert h1
      cases L.start s q as es with
      | ok s' rest =>
        rintro ⟨h1, ex', h2⟩
        have hl := h1.length_le
        rw [← List.append_assoc] at h2
        exact (run_closes hL hc st m s' (ex' ++ ex) rest (by omega) (by omega) h2).weaken (aims_suffix (h1.trans hs)) (h1.trans hs) (List.suffix_refl _)
      | err rest =>
        rintro ⟨⟨h1, ex', h2⟩, h3⟩
        exact ⟨⟨h1.trans hs, ex' ++ (ex ++ [n]), by simpa using h2⟩, h3⟩
      | panic => exact id
      | running => exact id
    | «end» q =>
      dsimp only
      cases ex with
      | nil =>
        obtain ⟨h1, h2⟩ : q.loc = n ∧ Nested st es := h
        rw [hc s q h1]
        exact ⟨hs, [], h2⟩
      | cons c ex =>
        obtain ⟨h1, h2⟩ : q.loc = c ∧ Nested (ex ++ n :: st) es := h
        cases L.close s q with
        | none => exact ⟨hs, ex ++ [n], by simpa using h2⟩
        | some s => exact (run_closes hL hc st m s ex es hm' (by omega) h2).weaken aims_tail hs (List.suffix_refl _)
    | chars t => exact (run_closes hL hc st m _ ex es hm' (by omega) h).weaken aims_tail hs (List.suffix_refl _)
    | whitespace t => exact (run_closes hL hc st m _ ex es hm' (by omega) h).weaken aims_tail hs (List.suffix_refl _)
    | endDocument => exact absurd h.1 (by simp)
    | error => exact absurd h (by simp [Nested])

theorem Loop.closes {b : Bool} {x : ReadEnv} {d : Nat} {σ : Type} {L : Loop σ} {n : Str} (hL : Handles b x d L) (hc : ∀ s q, q.loc = n → L.close s q = none) (s : σ) :
    Closes b x d n (L.run d s) := fun st es h1 h2 => run_closes hL hc st d s [] es h1 h1 h2

/-- A loop over a whole text that stops at its end. -/
theorem run_ends {b : Bool} {x : ReadEnv} {d : Nat} {σ : Type} {L : Loop σ} (hL : Handles b x d L) (ha : L.atEnd = true) :
    ∀ (m : Nat) (s : σ) (ex : List Str) (es : List REvent), es.length < m → es.length < d → Nested ex es →
    After (aims b x es) [] es (L.run m s es)
  | 0, _, _, _, h, _, _ => absurd h (Nat.not_lt_zero _)
  | m + 1, s, ex, [], _, _, h => by
    unfold Loop.run
    simp only [nextEvent, ha, if_true]
    exact ⟨List.suffix_refl _, [], rfl⟩
  | m + 1, s, ex, e :: es, hm, hd, h => by
    have hm' : es.length < m := by simpa using hm
    have hd' : es.length + 1 < d := by simpa using hd
    have hs : es <:+ e :: es := List.suffix_cons e es
    unfold Loop.run
    dsimp only [nextEvent]
    cases e with
    | start q as =>
      dsimp only
      have h1 := hL s q as es ex hd' h
      revert h1
      cases L.start s q as es with
      | ok s' rest =>
        rintro ⟨h1, ex', h2⟩
        have hl := h1.length_le
        exact (run_ends hL ha m s' (ex' ++ ex) rest (by omega) (by omega) h2).weaken (aims_suffix (h1.trans hs)) (h1.trans hs) (List.suffix_refl _)
      | err rest =>
        rintro ⟨⟨h1, ex', h2⟩, h3⟩
        exact ⟨⟨h1.trans hs, ex' ++ ex, by simpa using h2⟩, h3⟩
      | panic => exact id
      | running => exact id
    | «end» q =>
      dsimp only
      cases ex with
      | nil => exact absurd h (by simp [Nested])
      | cons c ex =>
        obtain ⟨h1, h2⟩ : q.loc = c ∧ Nested ex es := h
        cases L.close s q with
        | none => exact ⟨hs, ex, by simpa using h2⟩
        | some s => exact (run_ends hL ha m s ex es hm' (by omega) h2).weaken aims_tail hs (List.suffix_refl _)
    | chars t => exact (run_ends hL ha m _ ex es hm' (by omega) h).weaken aims_tail hs (List.suffix_refl _)
    | whitespace t => exact (run_ends hL ha m _ ex es hm' (by omega) h).weaken aims_tail hs (List.suffix_refl _)
    | endDocument =>
      obtain ⟨rfl, rfl⟩ := h
      simp only [ha, if_true]
      exact ⟨hs, [], rfl⟩
    | error => exact absurd h (by simp [Nested])

/-- A loop over a whole text that stops at the end of the element that has everything in it. -/
theorem run_root {b : Bool} {x : ReadEnv} {d : Nat} {σ : Type} {L : Loop σ} {n : Str} (hL : Handles b x d L) (hc : ∀ s q, q.loc = n → L.close s q = none)
    (hi : ∀ s q as es, q.loc = n → L.start s q as es = .ok s es) :
    ∀ (before : List REvent) (m : Nat) (s : σ) (es : List REvent) (q : QName) (as : Attrs) (rest : List REvent), es = before ++ .start q as :: rest →
    (∀ e ∈ before, ∃ t, e = .chars t ∨ e = .whitespace t) → q.loc = n → es.length < m → es.length < d → Nested [] es →
    After (aims b x es) [] es (L.run m s es)
  | _, 0, _, _, _, _, _, _, _, _, h, _, _ => absurd h (Nat.not_lt_zero _)
  | [], m + 1, s, es, q, as, rest, he, hb, hn, hm, hd, h => by
    subst he
    unfold Loop.run
    dsimp only [nextEvent, List.nil_append]
    rw [hi s q as rest hn]
    simp only [List.nil_append, List.length_cons] at hm hd
    have h' : Nested (q.loc :: []) rest := h
    rw [hn] at h'
    exact (run_closes hL hc [] m s [] rest (by omega) (by omega) h').weaken aims_tail (List.suffix_cons _ _) (List.suffix_refl _)
  | e :: before, m + 1, s, es, q, as, rest, he, hb, hn, hm, hd, h => by
    subst he
    have hs : before ++ .start q as :: rest <:+ e :: (before ++ .start q as :: rest) := List.suffix_cons _ _
    rw [List.cons_append] at hm hd h ⊢
    rw [List.length_cons] at hm hd
    unfold Loop.run
    dsimp only [nextEvent]
    obtain ⟨t, rfl | rfl⟩ := hb e (.head _)
    · exact (run_root hL hc hi before m _ _ q as rest rfl (fun e he => hb e (.tail _ he)) hn (by omega) (by omega) h).weaken aims_tail hs (List.suffix_refl _)
    · exact (run_root hL hc hi before m _ _ q as rest rfl (fun e he => hb e (.tail _ he)) hn (by omega) (by omega) h).weaken aims_tail hs (List.suffix_refl _)

/-! ## Readers of attributes -/

/-- A reader of attributes leaves the events alone. -/
def Still (C : Aims) (es : List REvent) {α : Type} : Read α → Prop
  | .ok _ rest => rest = es
  | .err rest => rest = es ∧ ¬ C.sure
  | .panic => ¬ C.calm
  | .running => False

theorem Still.after {C : Aims} {es : List REvent} {α : Type} {r : Read α} (h : Still C es r) {q : Str} {st : List Str} (hn : Nested (q :: st) es) :
    After C st es r := by
  cases r with
  | ok a rest => obtain rfl := h; exact ⟨List.suffix_refl _, [q], hn⟩
  | err rest => obtain ⟨rfl, h⟩ := h; exact ⟨⟨List.suffix_refl _, [q], hn⟩, h⟩
  | panic => exact h
  | running => exact h

theorem Still.bind {C : Aims} {es : List REvent} {α β : Type} {r : Read α} {f : α → List REvent → Read β} (h : Still C es r)
    (hf : ∀ a, Still C es (f a es)) : Still C es (r.bind f) := by
  cases r with
  | ok a rest => obtain rfl := h; exact hf a
  | err rest => exact h
  | panic => exact h
  | running => exact h

theorem Still.caught {C : Aims} {es : List REvent} {α β : Type} {r : Read α} {f : Option α → List REvent → Read β} (h : Still C.quiet es r)
    (hf : ∀ a, Still C es (f a es)) : Still C es (r.caught f) := by
  cases r with
  | ok a rest => obtain rfl := h; exact hf _
  | err rest => obtain ⟨rfl, _⟩ := h; exact hf _
  | panic => exact h
  | running => exact h

theorem Still.map {C : Aims} {es : List REvent} {α β : Type} {r : Read α} {f : α → β} (h : Still C es r) : Still C es (r.map f) :=
  h.bind fun _ => rfl

theorem still_ok {C : Aims} {es : List REvent} {α : Type} (a : α) : Still C es (.ok a es) := rfl

theorem still_orErr {C : Aims} {es : List REvent} {α : Type} {v : Option α} (h : C.sure → ∃ a, v = some a) : Still C es (orErr v es) := by
  cases v with
  | none => exact ⟨rfl, fun c => by obtain ⟨_, h⟩ := h c; cases h⟩
  | some a => rfl

theorem still_first {C : Aims} {es : List REvent} {as : Attrs} (h : C.calm → as ≠ []) : Still C es (firstValue as es) := by
  cases as with
  | nil => exact fun c => h c rfl
  | cons a as => rfl

theorem still_fold {C : Aims} {es : List REvent} {σ : Type} {f : σ → Str → Str → List REvent → Read σ} :
    ∀ (as : Attrs) (s : σ), (∀ s, ∀ a ∈ as, Still C es (f s a.1.loc a.2 es)) → Still C es (foldAttrs f s as es)
  | [], s, _ => rfl
  | (q, v) :: as, s, h => (h s (q, v) (.head _)).bind fun s' => still_fold as s' fun s a ha => h s a (.tail _ ha)

theorem still_firstThen {C : Aims} {es : List REvent} {as : Attrs} {α β : Type} {p : Str → Option α} {f : α → β} (h : C.calm → as ≠ [])
    (h' : C.sure → ∀ a ∈ as.head?, ∃ b, p a.2 = some b) : Still C es ((firstValue as es).bind fun v es => (orErr (p v) es).map f) := by
  cases as with
  | nil => exact fun c => h c rfl
  | cons a as =>
    obtain ⟨q, v⟩ := a
    exact (still_orErr (C := C) (v := p v) fun c => h' c (q, v) rfl).map

theorem widthType_total (s : Str) : ∃ t, WidthType.fromStr s = some t := by
  unfold WidthType.fromStr
  repeat' split
  all_goals exact ⟨_, rfl⟩

theorem breakType_total (s : Str) : ∃ t, BreakType.fromStr s = some t := by
  unfold BreakType.fromStr
  repeat' split
  all_goals exact ⟨_, rfl⟩

theorem tableAlignmentType_total (s : Str) : ∃ t, TableAlignmentType.fromStr s = some t := by
  unfold TableAlignmentType.fromStr
  repeat' split
  all_goals exact ⟨_, rfl⟩

theorem styleType_total (s : Str) : ∃ t, StyleType.fromStr s = some t := by
  unfold StyleType.fromStr
  repeat' split
  all_goals exact ⟨_, rfl⟩

theorem levelSuffixType_total (s : Str) : ∃ t, LevelSuffixType.fromStr s = some t := by
  unfold LevelSuffixType.fromStr
  repeat' split
  all_goals exact ⟨_, rfl⟩

/-- Values that are always taken. -/
macro "settle" : tactic =>
  `(tactic| first
    | exact widthType_total _ | exact breakType_total _ | exact tableAlignmentType_total _
    | exact styleType_total _ | exact levelSuffixType_total _)

/-- Errors do not matter. -/
macro "careless" : tactic =>
  `(tactic| first | assumption | exact False.elim | exact fun c => absurd c.1 Bool.false_ne_true)

/-- The attributes are what the readers of such an element need. -/
def Fit (x : ReadEnv) (e : El) (as : Attrs) : Prop := ∀ a ∈ as, ∀ n, (a.1.loc, n) ∈ needs e → n.met x a.2

/-- Goes through the cases of a reader of attributes whose errors do not matter. -/
macro "still" : tactic =>
  `(tactic| repeat' first | exact still_ok _ | exact still_orErr (fun c => absurd c (by assumption)) | exact (still_orErr (fun c => absurd c (by assumption))).map | split)

theorem Fit.at {x : ReadEnv} {e : El} {as : Attrs} (h : Fit x e as) {a : QName × Str} {k : Str} (ha : a ∈ as) (hk : a.1.loc = k) (n : Need)
    (hn : (k, n) ∈ needs e) : n.met x a.2 := h a ha n (hk ▸ hn)

theorem Fit.or {x : ReadEnv} {e : El} {as : Attrs} (h : Fit x e as) {a : QName × Str} {k k' : Str} (ha : a ∈ as) (hk : a.1.loc = k ∨ a.1.loc = k') (n : Need)
    (hn : (k, n) ∈ needs e) (hn' : (k', n) ∈ needs e) : n.met x a.2 := by
  rcases hk with hk | hk
  · exact h.at ha hk n hn
  · exact h.at ha hk n hn'

/-- Goes through the cases of a reader of attributes. -/
macro "fits" h:ident ha:ident : tactic =>
  `(tactic| repeat' first
    | exact still_ok _
    | exact (still_orErr (fun c => ($h c).at $ha (by assumption) .measure (by decide))).map
    | exact (still_orErr (fun c => ($h c).at $ha (by assumption) .number (by decide))).map
    | exact (still_orErr (fun c => ($h c).or $ha (by assumption) .measure (by decide) (by decide))).map
    | exact (still_orErr (fun c => ($h c).or $ha (by assumption) .number (by decide) (by decide))).map
    | split)

theorem still_border {C : Aims} {es : List REvent} (x : ReadEnv) (as : Attrs) (hC : ¬ C.sure) : Still C es (readBorder x as es) :=
  still_fold as _ fun s a _ => by still

theorem still_indent {C : Aims} {es : List REvent} (x : ReadEnv) (as : Attrs) (h : C.sure → Fit x .indent as) : Still C es (readIndent x as es) :=
  still_fold as _ fun s a ha => by fits h ha

theorem still_lineSpacing {C : Aims} {es : List REvent} (x : ReadEnv) (as : Attrs) (hC : ¬ C.sure) : Still C es (readLineSpacing x as es) :=
  still_fold as _ fun s a _ => by still

theorem still_width {C : Aims} {es : List REvent} (x : ReadEnv) (as : Attrs)
    (h : C.calm → ∀ a ∈ as, a.1.loc = c!"w" → ∃ i, parseFloat x (a.2.filter (· ≠ '%')) = some i) : Still C es (readWidth x as es) :=
  still_fold as _ fun s a ha => by
    split
    · exact (still_orErr fun _ => widthType_total _).map
    · split
      · rename_i hw
        split
        · exact still_ok _
        · rename_i hn
          intro c
          obtain ⟨i, hi⟩ := h c a ha hw
          rw [hi] at hn
          cases hn
      · exact still_ok _

theorem still_pageSize {C : Aims} {es : List REvent} (x : ReadEnv) (as : Attrs) (h : C.sure → Fit x .pageSize as) : Still C es (readPageSize x as es) :=
  still_fold as _ fun s a ha => by fits h ha

theorem still_pageMargin {C : Aims} {es : List REvent} (x : ReadEnv) (as : Attrs) (h : C.sure → Fit x .pageMargin as) : Still C es (readPageMargin x as es) :=
  still_fold as _ fun s a ha => by fits h ha

theorem still_docGrid {C : Aims} {es : List REvent} (x : ReadEnv) (as : Attrs) (hC : ¬ C.sure) : Still C es (readDocGrid x as es) :=
  still_fold as _ fun s a _ => by still

theorem still_cellWidth {C : Aims} {es : List REvent} (as : Attrs) (hC : ¬ C.sure) : Still C es (readCellWidth as es) :=
  still_fold as _ fun s a _ => by still

/-- A reader of attributes, with what is known when it is done. -/
def StillWith (C : Aims) (es : List REvent) {α : Type} (P : α → Prop) : Read α → Prop
  | .ok a rest => rest = es ∧ P a
  | .err rest => rest = es ∧ ¬ C.sure
  | .panic => ¬ C.calm
  | .running => False

theorem still_foldWith {C : Aims} {es : List REvent} {σ : Type} {f : σ → Str → Str → List REvent → Read σ} {P : σ → Attrs → Prop} :
    ∀ (as : Attrs) (s : σ), P s as → (∀ s, ∀ a ∈ as, ∀ as', P s (a :: as') → StillWith C es (P · as') (f s a.1.loc a.2 es)) →
    StillWith C es (P · []) (foldAttrs f s as es)
  | [], s, h, _ => ⟨rfl, h⟩
  | (q, v) :: as, s, h, hf => by
    have h1 := hf s (q, v) (.head _) as h
    unfold foldAttrs
    revert h1
    cases f s q.loc v es with
    | ok s' rest =>
      rintro ⟨rfl, h2⟩
      exact still_foldWith as s' h2 fun s a ha => hf s a (.tail _ ha)
    | err rest => exact id
    | panic => exact id
    | running => exact id

theorem StillWith.bind {C : Aims} {es : List REvent} {α β : Type} {P : α → Prop} {r : Read α} {f : α → List REvent → Read β} (h : StillWith C es P r)
    (hf : ∀ a, P a → Still C es (f a es)) : Still C es (r.bind f) := by
  cases r with
  | ok a rest => obtain ⟨rfl, h⟩ := h; exact hf a h
  | err rest => exact h
  | panic => exact h
  | running => exact h

theorem still_bookmarkStart {C : Aims} {es : List REvent} (x : ReadEnv) (as : Attrs) (h : C.sure → Fit x .bookmarkStart as)
    (h' : C.sure → (∃ a ∈ as, a.1.loc = c!"id") ∧ ∃ a ∈ as, a.1.loc = c!"name") : Still C es (readBookmarkStart as es) := by
  unfold readBookmarkStart
  have := still_foldWith (C := C) (es := es) (f := fun (b : Option Nat × Option Str) name v es =>
    if name = c!"id" then (orErr (usizeFromStr v) es).map fun n => (some n, b.2)
    else if name = c!"name" then .ok (b.1, some v) es
    else .ok b es) (P := fun b as => C.sure → (b.1 = none → ∃ a ∈ as, a.1.loc = c!"id") ∧ (b.2 = none → ∃ a ∈ as, a.1.loc = c!"name")) as (none, none)
    (fun c => ⟨fun _ => (h' c).1, fun _ => (h' c).2⟩) (by
      intro s a ha as' hP
      have hne : c!"name" ≠ c!"id" := by decide
      split
      · rename_i hk
        cases hv : usizeFromStr a.2 with
        | none =>
          refine ⟨rfl, fun c => ?_⟩
          obtain ⟨n, hn⟩ := h c a ha .whole (by rw [hk]; decide)
          rw [hv] at hn
          cases hn
        | some n =>
          refine ⟨rfl, fun c => ⟨fun h => (by cases h), fun hs => ?_⟩⟩
          obtain ⟨b, hb, hb'⟩ := (hP c).2 hs
          rcases List.mem_cons.1 hb with rfl | hb
          · exact absurd (hb'.symm.trans hk) hne
          · exact ⟨b, hb, hb'⟩
      · rename_i hk
        split
        · rename_i hk'
          refine ⟨rfl, fun c => ⟨fun hs => ?_, fun h => (by cases h)⟩⟩
          obtain ⟨b, hb, hb'⟩ := (hP c).1 hs
          rcases List.mem_cons.1 hb with rfl | hb
          · exact absurd hb' hk
          · exact ⟨b, hb, hb'⟩
        · rename_i hk'
          refine ⟨rfl, fun c => ⟨fun hs => ?_, fun hs => ?_⟩⟩
          · obtain ⟨b, hb, hb'⟩ := (hP c).1 hs
            rcases List.mem_cons.1 hb with rfl | hb
            · exact absurd hb' hk
            · exact ⟨b, hb, hb'⟩
          · obtain ⟨b, hb, hb'⟩ := (hP c).2 hs
            rcases List.mem_cons.1 hb with rfl | hb
            · exact absurd hb' hk'
            · exact ⟨b, hb, hb'⟩)
  refine this.bind fun b hP => ?_
  obtain ⟨i, n⟩ := b
  cases i with
  | none => exact ⟨rfl, fun c => by obtain ⟨_, h, _⟩ := (hP c).1 rfl; cases h⟩
  | some i =>
    cases n with
    | none => exact ⟨rfl, fun c => by obtain ⟨_, h, _⟩ := (hP c).2 rfl; cases h⟩
    | some n => rfl

theorem still_bookmarkEnd {C : Aims} {es : List REvent} (x : ReadEnv) (as : Attrs) (h : C.sure → Fit x .bookmarkEnd as)
    (h' : C.sure → ∃ a ∈ as, a.1.loc = c!"id") : Still C es (readBookmarkEnd as es) := by
  unfold readBookmarkEnd
  have := still_foldWith (C := C) (es := es) (f := fun (b : Option Nat) name v es =>
    if name = c!"id" then (orErr (usizeFromStr v) es).map some else .ok b es)
    (P := fun b as => C.sure → b = none → ∃ a ∈ as, a.1.loc = c!"id") as none (fun c _ => h' c) (by
      intro s a ha as' hP
      split
      · rename_i hk
        cases hv : usizeFromStr a.2 with
        | none =>
          refine ⟨rfl, fun c => ?_⟩
          obtain ⟨n, hn⟩ := h c a ha .whole (by rw [hk]; decide)
          rw [hv] at hn
          cases hn
        | some n => exact ⟨rfl, fun c h => (by cases h)⟩
      · rename_i hk
        refine ⟨rfl, fun c hs => ?_⟩
        obtain ⟨b, hb, hb'⟩ := hP c hs
        rcases List.mem_cons.1 hb with rfl | hb
        · exact absurd hb' hk
        · exact ⟨b, hb, hb'⟩)
  refine this.bind fun b hP => ?_
  cases b with
  | none => exact ⟨rfl, fun c => by obtain ⟨_, h, _⟩ := hP c rfl; cases h⟩
  | some i => rfl

theorem still_number {C : Aims} {es : List REvent} (x : ReadEnv) (e : El) (name : Str) (as : Attrs) (h : C.sure → Fit x e as) (hn : (name, .whole) ∈ needs e) :
    Still C es (readNumber name as es) :=
  still_fold as _ fun s a ha => by
    split
    · rename_i hk
      exact still_orErr fun c => h c a ha .whole (hk ▸ hn)
    · exact still_ok _

theorem still_styleAttrs {C : Aims} {es : List REvent} (as : Attrs) : Still C es (readStyleAttrs as es) :=
  still_fold as _ fun s a _ => by
    split
    · exact still_ok _
    · split
      · exact (still_orErr fun _ => styleType_total _).map
      · exact still_ok _

theorem still_withWidth {C : Aims} {es : List REvent} {σ : Type} (x : ReadEnv) (s : σ) (as : Attrs) (f : Int → WidthType → σ)
    (h : C.calm → ∀ a ∈ as, a.1.loc = c!"w" → ∃ i, parseFloat x (a.2.filter (· ≠ '%')) = some i) : Still C es (withWidth x s as es f) :=
  (still_width (C := C.quiet) x as h).caught fun w => by split <;> rfl

/-! ## Steps -/

theorem after_ok {C : Aims} {st : List Str} {es : List REvent} {α : Type} {a : α} {n : Str} (h : Nested (n :: st) es) :
    After C st es (.ok a es) := ⟨List.suffix_refl _, [n], h⟩

theorem after_left {C : Aims} {st : List Str} {es rest : List REvent} {α : Type} {a : α} (h1 : rest <:+ es) (h2 : ∃ ex, Nested (ex ++ st) rest) :
    After C st es (.ok a rest) := ⟨h1, h2⟩

theorem Still.bindAfter {C : Aims} {st : List Str} {es : List REvent} {α β : Type} {r : Read α} {f : α → List REvent → Read β} {n : Str}
    (h : Still C es r) (hn : Nested (n :: st) es) (hf : ∀ a, After C st es (f a es)) : After C st es (r.bind f) := by
  cases r with
  | ok a rest => obtain rfl := h; exact hf a
  | err rest => obtain ⟨rfl, h⟩ := h; exact ⟨⟨List.suffix_refl _, [n], hn⟩, h⟩
  | panic => exact h
  | running => exact h

/-- What is known of the events is enough. -/
macro "aims" : tactic => `(tactic| first | exact Aims.le_refl _ | exact quiet_le | exact aims_false_le)

theorem Closes.at {b : Bool} {x : ReadEnv} {d : Nat} {n : Str} {α : Type} {rd : List REvent → Read α} (h : Closes b x d n rd) {C : Aims} {e : REvent} {st : List Str}
    {es : List REvent} (hd : es.length + 1 < d) (hn : Nested (n :: st) es) (hC : Aims.Le C (aims b x (e :: es))) : After C st es (rd es) :=
  (h st es (by omega) hn).weaken ⟨fun c => aims_tail.1 (hC.1 c), fun c => aims_tail.2 (hC.2 c)⟩ (List.suffix_refl _) (List.suffix_refl _)

theorem After.le {C C' : Aims} {st : List Str} {es : List REvent} {α : Type} {r : Read α} (h : After C st es r) (hC : Aims.Le C' C) : After C' st es r :=
  h.weaken hC (List.suffix_refl _) (List.suffix_refl _)

theorem closesAt_eq {σ : Type} {e : El} {n : Str} (h : elementOf n = e) (s : σ) (q : QName) (hq : q.loc = n) : closesAt e s q = none := by
  unfold closesAt
  rw [hq, if_pos h]

theorem calm_attribute {x : ReadEnv} {q : QName} {as : Attrs} {es : List REvent} {e : El} (h : elementOf q.loc = e)
    (he : e ∈ needAttribute) : Calm x (.start q as :: es) → as ≠ [] := fun c => (c _ (.head _)).1 (h ▸ he)

theorem calm_width {x : ReadEnv} {q : QName} {as : Attrs} {es : List REvent} {e : El} (h : elementOf q.loc = e) (he : e ∈ needWidth) :
    Calm x (.start q as :: es) → ∀ a ∈ as, a.1.loc = c!"w" → ∃ i, parseFloat x (a.2.filter (· ≠ '%')) = some i :=
  fun c => (c _ (.head _)).2.1 (h ▸ he)

theorem sure_fit {b : Bool} {x : ReadEnv} {q : QName} {as : Attrs} {es : List REvent} {e : El} (h : elementOf q.loc = e) :
    (aims b x (.start q as :: es)).sure → Fit x e as := fun c => h ▸ (c.2 _ (.head _)).1

theorem sure_first {b : Bool} {x : ReadEnv} {q : QName} {as : Attrs} {es : List REvent} {e : El} {n : Need} (h : elementOf q.loc = e) (hn : needsFirst e = some n) :
    (aims b x (.start q as :: es)).sure → ∀ a ∈ as.head?, n.met x a.2 := fun c a ha => (c.2 _ (.head _)).2.1 a ha n (h ▸ hn)

theorem attrNamed_mem {as : Attrs} {name v : Str} (h : attrNamed as name = some v) : ∃ a ∈ as, a.1.loc = name ∧ a.2 = v := by
  unfold attrNamed at h
  obtain ⟨a, ha, hv⟩ := Option.map_eq_some_iff.1 h
  exact ⟨a, List.mem_of_find?_eq_some ha, by simpa using List.find?_some ha, hv⟩

theorem sure_named {b : Bool} {x : ReadEnv} {q : QName} {as : Attrs} {es : List REvent} {e : El} {n : Need} {name v : Str} (h : elementOf q.loc = e)
    (ha : attrNamed as name = some v) (hn : (name, n) ∈ needs e) : (aims b x (.start q as :: es)).sure → n.met x v := fun c => by
  obtain ⟨a, hm, rfl, rfl⟩ := attrNamed_mem ha
  exact sure_fit h c a hm n hn

/-- A reader of attributes that can be seen to be one. -/
syntax "quiet" : tactic

macro_rules | `(tactic| quiet) => `(tactic| exact still_orErr fun _ => by settle)
macro_rules | `(tactic| quiet) => `(tactic| exact still_orErr fun c => absurd c (by careless))
macro_rules | `(tactic| quiet) => `(tactic| exact still_orErr (sure_named (n := .small) (by assumption) (by assumption) (by decide)))
macro_rules | `(tactic| quiet) => `(tactic| exact still_first (calm_attribute (by assumption) (by decide)))
macro_rules | `(tactic| quiet) => `(tactic| exact still_width _ _ (calm_width (by assumption) (by decide)))
macro_rules | `(tactic| quiet) => `(tactic| exact still_withWidth _ _ _ _ (calm_width (by assumption) (by decide)))
macro_rules | `(tactic| quiet) => `(tactic| exact still_border _ _ (by careless))
macro_rules | `(tactic| quiet) => `(tactic| exact still_indent _ _ (fun c => absurd c (by careless)))
macro_rules | `(tactic| quiet) => `(tactic| exact still_indent _ _ (sure_fit (by assumption)))
macro_rules | `(tactic| quiet) => `(tactic| exact still_lineSpacing _ _ (by careless))
macro_rules | `(tactic| quiet) => `(tactic| exact still_pageSize _ _ (sure_fit (by assumption)))
macro_rules | `(tactic| quiet) => `(tactic| exact still_pageMargin _ _ (sure_fit (by assumption)))
macro_rules | `(tactic| quiet) => `(tactic| exact still_docGrid _ _ (by careless))
macro_rules | `(tactic| quiet) => `(tactic| exact still_cellWidth _ (by careless))
macro_rules | `(tactic| quiet) => `(tactic| exact still_bookmarkStart ⟨fun _ => none, fun _ => none, fun _ => none, []⟩ _ (fun c => absurd c (by careless)) (fun c => absurd c (by careless)))
macro_rules | `(tactic| quiet) => `(tactic| exact still_bookmarkStart _ _ (sure_fit (by assumption)) (fun c => (c.2 _ (.head _)).2.2.1 (by assumption)))
macro_rules | `(tactic| quiet) => `(tactic| exact still_bookmarkEnd ⟨fun _ => none, fun _ => none, fun _ => none, []⟩ _ (fun c => absurd c (by careless)) (fun c => absurd c (by careless)))
macro_rules | `(tactic| quiet) => `(tactic| exact still_bookmarkEnd _ _ (sure_fit (by assumption)) (fun c => (c.2 _ (.head _)).2.2.2 (by assumption)))
macro_rules | `(tactic| quiet) => `(tactic| exact still_number _ _ _ _ (sure_fit (by assumption)) (by decide))
macro_rules | `(tactic| quiet) => `(tactic| exact still_styleAttrs _)
macro_rules | `(tactic| quiet) => `(tactic| exact still_firstThen (calm_attribute (by assumption) (by decide)) (sure_first (n := .number) (by assumption) rfl))
macro_rules | `(tactic| quiet) => `(tactic| exact still_firstThen (calm_attribute (by assumption) (by decide)) (sure_first (n := .whole) (by assumption) rfl))

/-- A reader of an element that is known to close. -/
syntax "leaf" : tactic

macro_rules | `(tactic| leaf) => `(tactic| exact after_ok (by assumption))
macro_rules | `(tactic| leaf) => `(tactic| exact after_left (by assumption) (by assumption))
macro_rules | `(tactic| leaf) => `(tactic| (refine Still.after ?_ (by assumption); quiet))

/-- Goes through the cases of what a loop does at a start. -/
macro "ends" : tactic =>
  `(tactic| repeat' first
    | leaf
    | (refine Still.bindAfter (by quiet) (by assumption) fun _ => ?_)
    | refine After.map ?_
    | (refine After.caught ?_ fun _ _ _ _ => ?_)
    | (refine After.bind ?_ fun _ _ _ _ => ?_)
    | split)

/-! ## Loops over properties -/

variable {x : ReadEnv} {d : Nat}

theorem skip_closes {b : Bool} {e : El} {n : Str} (h : elementOf n = e) : ∀ (m : Nat) (st ex : List Str) (es : List REvent), es.length < m →
    Nested (ex ++ n :: st) es → After (aims b x es) st es (skipTo m e es)
  | 0, _, _, _, h, _ => absurd h (Nat.not_lt_zero _)
  | m + 1, st, ex, [], _, h => by simp [Nested] at h
  | m + 1, st, ex, e' :: es, hm, hn => by
    have hm' : es.length < m := by simpa using hm
    have hs : es <:+ e' :: es := List.suffix_cons e' es
    unfold skipTo
    dsimp only [nextEvent]
    cases e' with
    | start q as => exact (skip_closes h m st (q.loc :: ex) es hm' hn).weaken aims_tail hs (List.suffix_refl _)
    | «end» q =>
      dsimp only
      cases ex with
      | nil =>
        obtain ⟨h1, h2⟩ : q.loc = n ∧ Nested st es := hn
        rw [if_pos (by rw [h1]; exact h)]
        exact ⟨hs, [], h2⟩
      | cons c ex =>
        obtain ⟨h1, h2⟩ : q.loc = c ∧ Nested (ex ++ n :: st) es := hn
        split
        · exact ⟨hs, ex ++ [n], by simpa using h2⟩
        · exact (skip_closes h m st ex es hm' h2).weaken aims_tail hs (List.suffix_refl _)
    | chars t => exact (skip_closes h m st ex es hm' hn).weaken aims_tail hs (List.suffix_refl _)
    | whitespace t => exact (skip_closes h m st ex es hm' hn).weaken aims_tail hs (List.suffix_refl _)
    | endDocument => exact absurd hn.1 (by simp)
    | error => exact absurd hn (by simp [Nested])

theorem closes_skip {b : Bool} {e : El} {n : Str} (h : elementOf n = e) : Closes b x d n (skipTo d e) := fun st es h1 h2 => skip_closes h d st [] es h1 h2

theorem closes_untilEnd {b : Bool} {σ : Type} {e : El} {n : Str} (h : elementOf n = e) (s : σ) : Closes b x d n (untilEnd d e s) :=
  Loop.closes (fun _ _ _ _ _ _ hn => after_ok hn) (closesAt_eq h) s

theorem closes_ptab {b : Bool} {n : Str} (h : elementOf n = .pTab) (as : Attrs) : Closes b x d n (readPtab d as) := closes_untilEnd h _
theorem closes_tab {b : Bool} {n : Str} (h : elementOf n = .tab) (y : ReadEnv) (as : Attrs) : Closes b x d n (readTab y d as) := closes_untilEnd h _

macro_rules | `(tactic| leaf) => `(tactic| exact Closes.at (closes_skip (b := true) (by assumption)) (by assumption) (by assumption) (by aims))
macro_rules | `(tactic| leaf) => `(tactic| exact Closes.at (closes_ptab (b := true) (by assumption) _) (by assumption) (by assumption) (by aims))
macro_rules | `(tactic| leaf) => `(tactic| exact Closes.at (closes_tab (b := true) (by assumption) _ _) (by assumption) (by assumption) (by aims))

theorem handles_tabs : Handles true x d (tabsLoop x d) := by
  intro s q as es st hd hn
  dsimp only [tabsLoop]
  ends

theorem handles_numPr : Handles false x d numPrLoop := by
  intro s q as es st hd hn
  dsimp only [numPrLoop]
  ends

theorem handles_paragraphBorders : Handles false x d (paragraphBordersLoop x) := by
  intro s q as es st hd hn
  dsimp only [paragraphBordersLoop]
  ends

theorem handles_section : Handles true x d (sectionLoop x) := by
  intro s q as es st hd hn
  dsimp only [sectionLoop]
  ends

theorem handles_tableBorders : Handles false x d (tableBordersLoop x) := by
  intro s q as es st hd hn
  dsimp only [tableBordersLoop]
  ends

theorem handles_cellBorders : Handles false x d (cellBordersLoop x) := by
  intro s q as es st hd hn
  dsimp only [cellBordersLoop]
  ends

theorem handles_cellMargins : Handles false x d (cellMarginsLoop x) := by
  intro s q as es st hd hn
  dsimp only [cellMarginsLoop]
  ends

theorem handles_tableCellMargins : Handles false x d (tableCellMarginsLoop x) := by
  intro s q as es st hd hn
  dsimp only [tableCellMarginsLoop]
  ends


theorem closes_tabs {n : Str} (h : elementOf n = .tabs) {s} : Closes true x d n (Loop.run (tabsLoop x d) d s) :=
  Loop.closes handles_tabs (closesAt_eq h) s

macro_rules | `(tactic| leaf) => `(tactic| exact Closes.at (closes_tabs (by assumption)) (by assumption) (by assumption) (by aims))

theorem closes_numPr {n : Str} (h : elementOf n = .numberingProperty) {s} : Closes false x d n (Loop.run numPrLoop d s) :=
  Loop.closes handles_numPr (closesAt_eq h) s

macro_rules | `(tactic| leaf) => `(tactic| exact Closes.at (closes_numPr (by assumption)) (by assumption) (by assumption) (by aims))

theorem closes_paragraphBorders {n : Str} (h : elementOf n = .paragraphBorders) {s} : Closes false x d n (Loop.run (paragraphBordersLoop x) d s) :=
  Loop.closes handles_paragraphBorders (closesAt_eq h) s

macro_rules | `(tactic| leaf) => `(tactic| exact Closes.at (closes_paragraphBorders (by assumption)) (by assumption) (by assumption) (by aims))

theorem closes_section {n : Str} (h : elementOf n = .sectionProperty) {s} : Closes true x d n (Loop.run (sectionLoop x) d s) :=
  Loop.closes handles_section (closesAt_eq h) s

macro_rules | `(tactic| leaf) => `(tactic| exact Closes.at (closes_section (by assumption)) (by assumption) (by assumption) (by aims))

theorem closes_readSection {n : Str} (h : elementOf n = .sectionProperty) : Closes true x d n (readSection x d) := closes_section h
macro_rules | `(tactic| leaf) => `(tactic| exact Closes.at (closes_readSection (by assumption)) (by assumption) (by assumption) (by aims))

theorem closes_tableBorders {n : Str} (h : elementOf n = .tableBorders) {s} : Closes false x d n (Loop.run (tableBordersLoop x) d s) :=
  Loop.closes handles_tableBorders (closesAt_eq h) s

macro_rules | `(tactic| leaf) => `(tactic| exact Closes.at (closes_tableBorders (by assumption)) (by assumption) (by assumption) (by aims))

theorem closes_cellBorders {n : Str} (h : elementOf n = .tableCellBorders) {s} : Closes false x d n (Loop.run (cellBordersLoop x) d s) :=
  Loop.closes handles_cellBorders (closesAt_eq h) s

macro_rules | `(tactic| leaf) => `(tactic| exact Closes.at (closes_cellBorders (by assumption)) (by assumption) (by assumption) (by aims))

theorem closes_cellMargins {n : Str} (h : elementOf n = .cellMargins) {s} : Closes false x d n (Loop.run (cellMarginsLoop x) d s) :=
  Loop.closes handles_cellMargins (closesAt_eq h) s

macro_rules | `(tactic| leaf) => `(tactic| exact Closes.at (closes_cellMargins (by assumption)) (by assumption) (by assumption) (by aims))

theorem closes_tableCellMargins {n : Str} (h : elementOf n = .tableCellMargin) {s} : Closes false x d n (Loop.run (tableCellMarginsLoop x) d s) :=
  Loop.closes handles_tableCellMargins (closesAt_eq h) s

macro_rules | `(tactic| leaf) => `(tactic| exact Closes.at (closes_tableCellMargins (by assumption)) (by assumption) (by assumption) (by aims))

theorem handles_tableProperty : Handles false x d (tablePropertyLoop x d) := by
  intro s q as es st hd hn
  dsimp only [tablePropertyLoop]
  ends

theorem closes_tableProperty {n : Str} (h : elementOf n = .tableProperty) {s} : Closes false x d n (Loop.run (tablePropertyLoop x d) d s) :=
  Loop.closes handles_tableProperty (closesAt_eq h) s

macro_rules | `(tactic| leaf) => `(tactic| exact Closes.at (closes_tableProperty (by assumption)) (by assumption) (by assumption) (by aims))

/-- A skipped element, before the cases of the others. -/
theorem after_ignore {b : Bool} {C : Aims} {q : QName} {as : Attrs} {e : El} {st : List Str} {es : List REvent} {β : Type} {f : Unit → List REvent → Read β}
    (hd : es.length + 1 < d) (hn : Nested (q.loc :: st) es) (hC : Aims.Le C (aims b x (.start q as :: es)))
    (h1 : elementOf q.loc = e → ∀ rest, rest <:+ es → (∃ ex, Nested (ex ++ st) rest) → After C st es (f () rest))
    (h2 : elementOf q.loc ≠ e → After C st es (f () es)) : After C st es ((ignoreElement d (elementOf q.loc) e es).bind f) := by
  unfold ignoreElement
  split
  · rename_i h
    exact ((closes_skip (x := x) h.symm).at (e := .start q as) hd hn hC).bind fun _ rest a b => h1 h.symm rest a b
  · rename_i h
    exact h2 (Ne.symm h)

theorem handles_cellProperty : Handles false x d (cellPropertyLoop x d) := by
  intro s q as es st hd hn
  dsimp only [cellPropertyLoop]
  refine after_ignore hd hn (Aims.le_refl _) (fun h rest h1 h2 => ?_) (fun h => ?_)
  · rw [h]
    exact after_left h1 h2
  · ends

theorem closes_cellProperty {n : Str} (h : elementOf n = .tableCellProperty) {s} : Closes false x d n (Loop.run (cellPropertyLoop x d) d s) :=
  Loop.closes handles_cellProperty (closesAt_eq h) s

macro_rules | `(tactic| leaf) => `(tactic| exact Closes.at (closes_cellProperty (by assumption)) (by assumption) (by assumption) (by aims))

/-! ## Loops over content -/

/-- The readers that are called in a cycle close. -/
structure ReadersEnd (x : ReadEnv) (R : Readers) : Prop where
  run : ∀ n st es, elementOf n = .run → es.length + 1 < R.fuel → Nested (n :: st) es → After (aims true x es) st es (R.run es)
  paragraphProperty : ∀ n st es, elementOf n = .paragraphProperty → es.length + 1 < R.fuel → Nested (n :: st) es → After (aims true x es) st es (R.paragraphProperty es)
  table : ∀ n st es, elementOf n = .table → es.length + 1 < R.fuel → Nested (n :: st) es → After (aims true x es) st es (R.table es)
  paragraph : ∀ n st es as, elementOf n = .paragraph → es.length + 1 < R.fuel → Nested (n :: st) es → After (aims true x es) st es (R.paragraph as es)

theorem After.head {b : Bool} {C : Aims} {st : List Str} {es : List REvent} {α : Type} {r : Read α} {e : REvent} (h : After (aims b x es) st es r)
    (hC : Aims.Le C (aims b x (e :: es))) : After C st es r := h.le ⟨fun c => aims_tail.1 (hC.1 c), fun c => aims_tail.2 (hC.2 c)⟩

macro_rules | `(tactic| leaf) => `(tactic| exact After.head (ReadersEnd.run (by assumption) _ _ _ (by assumption) (by assumption) (by assumption)) (by aims))
macro_rules | `(tactic| leaf) => `(tactic| exact After.head (ReadersEnd.paragraphProperty (by assumption) _ _ _ (by assumption) (by assumption) (by assumption)) (by aims))
macro_rules | `(tactic| leaf) => `(tactic| exact After.head (ReadersEnd.table (by assumption) _ _ _ (by assumption) (by assumption) (by assumption)) (by aims))
macro_rules | `(tactic| leaf) => `(tactic| exact After.head (ReadersEnd.paragraph (by assumption) _ _ _ _ (by assumption) (by assumption) (by assumption)) (by aims))

variable {R : Readers}

theorem Closes.map {b : Bool} {α β : Type} {f : α → β} {n : Str} {rd : List REvent → Read α} (h : Closes b x d n rd) : Closes b x d n fun es => (rd es).map f :=
  fun st es h1 h2 => (h st es h1 h2).map

theorem handles_delete (hR : ReadersEnd x R) {e : El} : Handles true x R.fuel (deleteLoop R e) := by
  intro s q as es st hd hn
  dsimp only [deleteLoop]
  ends

theorem closes_delete (hR : ReadersEnd x R) {n : Str} (h : elementOf n = .delete) {as : Attrs} : Closes true x R.fuel n (readDelete R as) :=
  Closes.map (Loop.closes (handles_delete hR) (closesAt_eq h) _)

macro_rules | `(tactic| leaf) => `(tactic| exact Closes.at (closes_delete (by assumption) (by assumption)) (by assumption) (by assumption) (by aims))

theorem closes_moveFrom (hR : ReadersEnd x R) {n : Str} (h : elementOf n = .moveFrom) {as : Attrs} : Closes true x R.fuel n (readMoveFrom R as) :=
  Closes.map (Loop.closes (handles_delete hR) (closesAt_eq h) _)

macro_rules | `(tactic| leaf) => `(tactic| exact Closes.at (closes_moveFrom (by assumption) (by assumption)) (by assumption) (by assumption) (by aims))

theorem handles_insert (hR : ReadersEnd x R) {e : El} : Handles true x R.fuel (insertLoop R e) := by
  intro s q as es st hd hn
  dsimp only [insertLoop]
  ends

theorem closes_insert (hR : ReadersEnd x R) {n : Str} (h : elementOf n = .insert) {as : Attrs} : Closes true x R.fuel n (readInsert R as) :=
  Closes.map (Loop.closes (handles_insert hR) (closesAt_eq h) _)

macro_rules | `(tactic| leaf) => `(tactic| exact Closes.at (closes_insert (by assumption) (by assumption)) (by assumption) (by assumption) (by aims))

theorem closes_moveTo (hR : ReadersEnd x R) {n : Str} (h : elementOf n = .moveTo) {as : Attrs} : Closes true x R.fuel n (readMoveTo R as) :=
  Closes.map (Loop.closes (handles_insert hR) (closesAt_eq h) _)

macro_rules | `(tactic| leaf) => `(tactic| exact Closes.at (closes_moveTo (by assumption) (by assumption)) (by assumption) (by assumption) (by aims))

theorem handles_runProperty (hR : ReadersEnd x R) : Handles true x R.fuel (runPropertyLoop x R) := by
  intro s q as es st hd hn
  dsimp only [runPropertyLoop]
  refine after_ignore hd hn (Aims.le_refl _) (fun h rest h1 h2 => ?_) (fun h => ?_)
  · rw [h]
    exact after_left h1 h2
  · ends

theorem closes_runProperty (hR : ReadersEnd x R) {n : Str} (h : elementOf n = .runProperty) : Closes true x R.fuel n (readRunProperty x R) :=
  Loop.closes (handles_runProperty hR) (closesAt_eq h) _

macro_rules | `(tactic| leaf) => `(tactic| exact Closes.at (closes_runProperty (by assumption) (by assumption)) (by assumption) (by assumption) (by aims))

theorem handles_pic  : Handles true x d (picLoop x) := by
  intro s q as es st hd hn
  dsimp only [picLoop]
  ends

theorem closes_pic  {n : Str} (h : n = c!"pic") {s} : Closes true x d n (Loop.run (picLoop x) d s) :=
  Loop.closes handles_pic (fun _ q hq => if_pos (hq.trans h)) s

macro_rules | `(tactic| leaf) => `(tactic| exact Closes.at (closes_pic (by assumption)) (by assumption) (by assumption) (by aims))

theorem handles_position {stop : Str} : Handles true x d (positionLoop x stop) := by
  intro s q as es st hd hn
  dsimp only [positionLoop]
  ends

theorem closes_position {stop : Str} {n : Str} (h : n = stop) {s} : Closes true x d n (Loop.run (positionLoop x stop) d s) :=
  Loop.closes handles_position (fun _ q hq => if_pos (hq.trans h)) s

macro_rules | `(tactic| leaf) => `(tactic| exact Closes.at (closes_position (by assumption)) (by assumption) (by assumption) (by aims))

theorem handles_textBox (hR : ReadersEnd x R) : Handles true x R.fuel (textBoxLoop R) := by
  intro s q as es st hd hn
  dsimp only [textBoxLoop]
  ends

theorem closes_textBox (hR : ReadersEnd x R) {n : Str} (h : n = c!"txbx") {s} : Closes true x R.fuel n (Loop.run (textBoxLoop R) R.fuel s) :=
  Loop.closes (handles_textBox hR) (fun _ q hq => if_pos (hq.trans h)) s

macro_rules | `(tactic| leaf) => `(tactic| exact Closes.at (closes_textBox (by assumption) (by assumption)) (by assumption) (by assumption) (by aims))

theorem handles_fallback  : Handles true x d fallbackLoop := by
  intro s q as es st hd hn
  dsimp only [fallbackLoop]
  ends

theorem closes_fallback  {n : Str} (h : n = c!"Fallback") {s} : Closes true x d n (Loop.run fallbackLoop d s) :=
  Loop.closes handles_fallback (fun _ q hq => if_pos (hq.trans h)) s

macro_rules | `(tactic| leaf) => `(tactic| exact Closes.at (closes_fallback (by assumption)) (by assumption) (by assumption) (by aims))

theorem handles_shape  : Handles true x d shapeLoop := by
  intro s q as es st hd hn
  dsimp only [shapeLoop]
  ends

theorem closes_shape  {n : Str} (h : n = c!"shape") {s} : Closes true x d n (Loop.run shapeLoop d s) :=
  Loop.closes handles_shape (fun _ q hq => if_pos (hq.trans h)) s

macro_rules | `(tactic| leaf) => `(tactic| exact Closes.at (closes_shape (by assumption)) (by assumption) (by assumption) (by aims))

theorem handles_drawing (hR : ReadersEnd x R) : Handles true x R.fuel (drawingLoop x R) := by
  intro s q as es st hd hn
  dsimp only [drawingLoop]
  ends

theorem closes_drawing (hR : ReadersEnd x R) {n : Str} (h : elementOf n = .drawing) : Closes true x R.fuel n (readDrawing x R) :=
  Closes.map (Loop.closes (handles_drawing hR) (closesAt_eq h) _)

macro_rules | `(tactic| leaf) => `(tactic| exact Closes.at (closes_drawing (by assumption) (by assumption)) (by assumption) (by assumption) (by aims))

theorem handles_run (hR : ReadersEnd x R) : Handles true x R.fuel (runLoop x R) := by
  intro s q as es st hd hn
  dsimp only [runLoop]
  split
  · ends
  · split
    · refine after_ignore hd hn (Aims.le_refl _) (fun h rest h1 h2 => ?_) (fun h => ?_)
      · rw [h]
        exact after_left h1 h2
      · ends
    · ends

theorem closes_run (hR : ReadersEnd x R) {n : Str} (h : elementOf n = .run) : Closes true x R.fuel n (readRun x R) := by
  refine Closes.map (Loop.closes (handles_run hR) (fun s q hq => ?_) _)
  dsimp only [runLoop]
  split
  · exact closesAt_eq h s q hq
  · rw [hq, h]

theorem handles_change (hR : ReadersEnd x R) : Handles true x R.fuel (changeLoop R) := by
  intro s q as es st hd hn
  dsimp only [changeLoop]
  ends

theorem closes_change (hR : ReadersEnd x R) {n : Str} (h : elementOf n = .paragraphPropertyChange) {as : Attrs} : Closes true x R.fuel n (readParagraphPropertyChange R as) :=
  Loop.closes (handles_change hR) (closesAt_eq h) _

macro_rules | `(tactic| leaf) => `(tactic| exact Closes.at (closes_change (by assumption) (by assumption)) (by assumption) (by assumption) (by aims))

theorem handles_paragraphProperty (hR : ReadersEnd x R) : Handles true x R.fuel (paragraphPropertyLoop x R) := by
  intro s q as es st hd hn
  dsimp only [paragraphPropertyLoop]
  ends

theorem closes_paragraphProperty (hR : ReadersEnd x R) {n : Str} (h : elementOf n = .paragraphProperty) : Closes true x R.fuel n (readParagraphProperty x R) :=
  Loop.closes (handles_paragraphProperty hR) (closesAt_eq h) _

macro_rules | `(tactic| leaf) => `(tactic| exact Closes.at (closes_paragraphProperty (by assumption) (by assumption)) (by assumption) (by assumption) (by aims))

theorem handles_hyperlink (hR : ReadersEnd x R) : Handles true x R.fuel (hyperlinkLoop R) := by
  intro s q as es st hd hn
  dsimp only [hyperlinkLoop]
  ends

theorem closes_hyperlink (hR : ReadersEnd x R) {n : Str} (h : elementOf n = .hyperlink) {as : Attrs} : Closes true x R.fuel n (readHyperlink R as) :=
  Loop.closes (handles_hyperlink hR) (closesAt_eq h) _

macro_rules | `(tactic| leaf) => `(tactic| exact Closes.at (closes_hyperlink (by assumption) (by assumption)) (by assumption) (by assumption) (by aims))

theorem handles_paragraph (hR : ReadersEnd x R) : Handles true x R.fuel (paragraphLoop x R) := by
  intro s q as es st hd hn
  dsimp only [paragraphLoop]
  ends

theorem closes_paragraph (hR : ReadersEnd x R) {n : Str} (h : elementOf n = .paragraph) {as : Attrs} : Closes true x R.fuel n (readParagraph x R as) :=
  Loop.closes (handles_paragraph hR) (closesAt_eq h) _

macro_rules | `(tactic| leaf) => `(tactic| exact Closes.at (closes_paragraph (by assumption) (by assumption)) (by assumption) (by assumption) (by aims))

theorem handles_sdt (hR : ReadersEnd x R) : Handles true x R.fuel (sdtLoop x R) := by
  intro s q as es st hd hn
  dsimp only [sdtLoop]
  ends

theorem closes_sdt (hR : ReadersEnd x R) {n : Str} (h : elementOf n = .structuredDataTag) : Closes true x R.fuel n (readSdt x R) :=
  Loop.closes (handles_sdt hR) (closesAt_eq h) _

macro_rules | `(tactic| leaf) => `(tactic| exact Closes.at (closes_sdt (by assumption) (by assumption)) (by assumption) (by assumption) (by aims))

theorem handles_cell (hR : ReadersEnd x R) : Handles true x R.fuel (cellLoop x R) := by
  intro s q as es st hd hn
  dsimp only [cellLoop]
  ends

theorem closes_cell (hR : ReadersEnd x R) {n : Str} (h : elementOf n = .tableCell) {s : Cell} : Closes true x R.fuel n ((cellLoop x R).run R.fuel s) :=
  Loop.closes (handles_cell hR) (closesAt_eq h) _

macro_rules | `(tactic| leaf) => `(tactic| exact Closes.at (closes_cell (by assumption) (by assumption)) (by assumption) (by assumption) (by aims))

theorem handles_row (hR : ReadersEnd x R) : Handles true x R.fuel (rowLoop x R) := by
  intro s q as es st hd hn
  dsimp only [rowLoop]
  refine after_ignore hd hn (Aims.le_refl _) (fun h rest h1 h2 => ?_) (fun h => ?_)
  · rw [h]
    exact after_left h1 h2
  · ends

theorem closes_row (hR : ReadersEnd x R) {n : Str} (h : elementOf n = .tableRow) : Closes true x R.fuel n (readRow x R) :=
  Closes.map (Loop.closes (handles_row hR) (closesAt_eq h) _)

macro_rules | `(tactic| leaf) => `(tactic| exact Closes.at (closes_row (by assumption) (by assumption)) (by assumption) (by assumption) (by aims))

theorem handles_table (hR : ReadersEnd x R) : Handles true x R.fuel (tableLoop x R) := by
  intro s q as es st hd hn
  dsimp only [tableLoop]
  refine after_ignore hd hn (Aims.le_refl _) (fun h rest h1 h2 => ?_) (fun h => ?_)
  · rw [h]
    exact after_left h1 h2
  · refine after_ignore hd hn (Aims.le_refl _) (fun h rest h1 h2 => ?_) (fun h => ?_)
    · rw [h]
      exact after_left h1 h2
    · ends

theorem closes_table (hR : ReadersEnd x R) {n : Str} (h : elementOf n = .table) : Closes true x R.fuel n (readTable x R) :=
  Loop.closes (handles_table hR) (closesAt_eq h) _

macro_rules | `(tactic| leaf) => `(tactic| exact Closes.at (closes_table (by assumption) (by assumption)) (by assumption) (by assumption) (by aims))

theorem readersEnd (x : ReadEnv) : ∀ d, ReadersEnd x (readers x d)
  | 0 => ⟨fun _ _ _ _ h => absurd h (Nat.not_lt_zero _), fun _ _ _ _ h => absurd h (Nat.not_lt_zero _), fun _ _ _ _ h => absurd h (Nat.not_lt_zero _),
      fun _ _ _ _ _ h => absurd h (Nat.not_lt_zero _)⟩
  | d + 1 => by
    have hf : ∀ d, (readers x d).fuel = d := fun d => by cases d <;> rfl
    have hR := readersEnd x d
    have hl : ∀ {es : List REvent}, es.length + 1 < (readers x (d + 1)).fuel → es.length < (readers x d).fuel := by
      intro es h
      rw [hf] at h ⊢
      omega
    exact ⟨fun n st es h h1 h2 => closes_run hR h st es (hl h1) h2, fun n st es h h1 h2 => closes_paragraphProperty hR h st es (hl h1) h2,
      fun n st es h h1 h2 => closes_table hR h st es (hl h1) h2, fun n st es as h h1 h2 => closes_paragraph hR h st es (hl h1) h2⟩

theorem handles_document (hR : ReadersEnd x R) : Handles true x R.fuel (documentLoop x R) := by
  intro s q as es st hd hn
  dsimp only [documentLoop]
  ends

/-! ## Loops over parts -/

theorem handles_level (hR : ReadersEnd x R) : Handles true x R.fuel (levelLoop x R) := by
  intro s q as es st hd hn
  dsimp only [levelLoop]
  ends

theorem after_level (hR : ReadersEnd x R) {q : QName} {as : Attrs} {st : List Str} {es : List REvent} (h : elementOf q.loc = .level)
    (hd : es.length + 1 < R.fuel) (hn : Nested (q.loc :: st) es) : After (aims true x (.start q as :: es)) st es (readLevel x R as es) :=
  (still_number x _ _ _ (sure_fit h) (by decide)).bindAfter hn fun _ =>
    (Closes.map (Loop.closes (handles_level hR) (closesAt_eq h) _)).at hd hn (Aims.le_refl _)

macro_rules | `(tactic| leaf) => `(tactic| exact After.le (after_level (by assumption) (by assumption) (by assumption) (by assumption)) (by aims))

theorem handles_levelOverride (hR : ReadersEnd x R) : Handles false x R.fuel (levelOverrideLoop x R) := by
  intro s q as es st hd hn
  dsimp only [levelOverrideLoop]
  ends

theorem after_levelOverride (hR : ReadersEnd x R) {q : QName} {as : Attrs} {st : List Str} {es : List REvent} (h : elementOf q.loc = .lvlOverride)
    (hd : es.length + 1 < R.fuel) (hn : Nested (q.loc :: st) es) : After (aims false x (.start q as :: es)) st es (readLevelOverride x R as es) := by
  refine Still.bindAfter (by quiet) hn fun _ => Still.bindAfter (by quiet) hn fun _ => ?_
  exact (Loop.closes (handles_levelOverride hR) (closesAt_eq h) _).at hd hn (Aims.le_refl _)

macro_rules | `(tactic| leaf) => `(tactic| exact After.le (after_levelOverride (by assumption) (by assumption) (by assumption) (by assumption)) (by aims))

theorem handles_abstractNum (hR : ReadersEnd x R) : Handles true x R.fuel (abstractNumLoop x R) := by
  intro s q as es st hd hn
  dsimp only [abstractNumLoop]
  ends

theorem closes_abstractNum (hR : ReadersEnd x R) {n : Str} (h : elementOf n = .abstractNumbering) {s : AbstractNumbering} : Closes true x R.fuel n ((abstractNumLoop x R).run R.fuel s) :=
  Loop.closes (handles_abstractNum hR) (closesAt_eq h) _

macro_rules | `(tactic| leaf) => `(tactic| exact Closes.at (closes_abstractNum (by assumption) (by assumption)) (by assumption) (by assumption) (by aims))

theorem handles_num (hR : ReadersEnd x R) : Handles true x R.fuel (numLoop x R) := by
  intro s q as es st hd hn
  dsimp only [numLoop]
  ends

theorem closes_num (hR : ReadersEnd x R) {n : Str} (h : elementOf n = .num) {s : Numbering} : Closes true x R.fuel n ((numLoop x R).run R.fuel s) :=
  Loop.closes (handles_num hR) (closesAt_eq h) _

macro_rules | `(tactic| leaf) => `(tactic| exact Closes.at (closes_num (by assumption) (by assumption)) (by assumption) (by assumption) (by aims))

theorem handles_numberings (hR : ReadersEnd x R) : Handles true x R.fuel (numberingsLoop x R) := by
  intro s q as es st hd hn
  dsimp only [numberingsLoop]
  ends

theorem handles_style (hR : ReadersEnd x R) : Handles true x R.fuel (styleLoop x R) := by
  intro s q as es st hd hn
  dsimp only [styleLoop]
  ends

theorem closes_style (hR : ReadersEnd x R) {n : Str} (h : elementOf n = .style) {as : Attrs} : Closes true x R.fuel n (readStyle x R as) :=
  fun st es h1 h2 => (still_styleAttrs _).bindAfter h2 fun _ => (Loop.closes (handles_style hR) (closesAt_eq h) _) st es h1 h2

macro_rules | `(tactic| leaf) => `(tactic| exact Closes.at (closes_style (by assumption) (by assumption)) (by assumption) (by assumption) (by aims))

theorem handles_docDefaults (hR : ReadersEnd x R) : Handles true x R.fuel (docDefaultsLoop x R) := by
  intro s q as es st hd hn
  dsimp only [docDefaultsLoop]
  ends

theorem closes_docDefaults (hR : ReadersEnd x R) {n : Str} (h : elementOf n = .docDefaults) {s : DocDefaults} : Closes true x R.fuel n ((docDefaultsLoop x R).run R.fuel s) :=
  Loop.closes (handles_docDefaults hR) (closesAt_eq h) _

macro_rules | `(tactic| leaf) => `(tactic| exact Closes.at (closes_docDefaults (by assumption) (by assumption)) (by assumption) (by assumption) (by aims))

theorem handles_styles (hR : ReadersEnd x R) : Handles true x R.fuel (stylesLoop x R) := by
  intro s q as es st hd hn
  dsimp only [stylesLoop]
  ends

theorem handles_comment (hR : ReadersEnd x R) : Handles true x R.fuel (commentLoop x R) := by
  intro s q as es st hd hn
  dsimp only [commentLoop]
  ends

theorem attrNamed_some {as : Attrs} {name : Str} (h : ∃ a ∈ as, a.1.loc = name) : attrNamed as name ≠ none := by
  unfold attrNamed
  obtain ⟨a, ha, hn⟩ := h
  cases hf : as.find? (fun a => decide (a.1.loc = name)) with
  | some b => simp
  | none => exact absurd hn (by simpa using List.find?_eq_none.1 hf a ha)

theorem after_comment (hR : ReadersEnd x R) {q : QName} {as : Attrs} {st : List Str} {es : List REvent} (h : elementOf q.loc = .comment)
    (hd : es.length + 1 < R.fuel) (hn : Nested (q.loc :: st) es) : After (aims true x (.start q as :: es)) st es (readComment x R as es) := by
  unfold readComment
  cases ha : attrNamed as c!"id" with
  | none => exact fun c => attrNamed_some ((c _ (.head _)).2.2.1 h) ha
  | some v => exact (still_orErr (sure_named (n := .whole) h ha (by decide))).bindAfter hn fun _ => (Loop.closes (handles_comment hR) (closesAt_eq h) _).at hd hn (Aims.le_refl _)

macro_rules | `(tactic| leaf) => `(tactic| exact After.le (after_comment (by assumption) (by assumption) (by assumption) (by assumption)) (by aims))

theorem handles_comments (hR : ReadersEnd x R) : Handles true x R.fuel (commentsLoop x R) := by
  intro s q as es st hd hn
  dsimp only [commentsLoop]
  ends

theorem handles_commentsExtended : Handles true x d commentsExtendedLoop := by
  intro s q as es st hd hn
  dsimp only [commentsExtendedLoop]
  split
  · rename_i h
    split
    · ends
    · rename_i hr
      intro c
      unfold readCommentExtended at hr
      have := attrNamed_some ((c _ (.head _)).2.2.2 h)
      split at hr
      · contradiction
      · cases hr
  · ends

theorem handles_settings : Handles true x d (settingsLoop x) := by
  intro s q as es st hd hn
  dsimp only [settingsLoop]
  ends

theorem handles_header (hR : ReadersEnd x R) : Handles true x R.fuel (headerLoop x R) := by
  intro s q as es st hd hn
  dsimp only [headerLoop]
  ends

theorem handles_customProperty {key : Str} : Handles true x d (customPropertyLoop key) := by
  intro s q as es st hd hn
  dsimp only [customPropertyLoop]
  split
  · cases es with
    | nil => exact absurd hn (by simp [Nested])
    | cons e es =>
      have hs : es <:+ e :: es := List.suffix_cons _ _
      dsimp only [nextEvent]
      cases e with
      | start q' as' => exact ⟨hs, [q'.loc, q.loc], hn⟩
      | «end» q' => exact ⟨hs, [], hn.2⟩
      | chars t => exact ⟨hs, [q.loc], hn⟩
      | whitespace t => exact ⟨hs, [q.loc], hn⟩
      | endDocument => exact absurd hn.1 (by simp)
      | error => exact absurd hn (by simp [Nested])
  · ends

theorem closes_customProperty {key n : Str} (h : elementOf n = .property) {s} : Closes true x d n (Loop.run (customPropertyLoop key) d s) :=
  Loop.closes handles_customProperty (closesAt_eq h) s

macro_rules | `(tactic| leaf) => `(tactic| exact Closes.at (closes_customProperty (by assumption)) (by assumption) (by assumption) (by aims))

theorem handles_customProps : Handles true x R.fuel (customPropsLoop R) := by
  intro s q as es st hd hn
  dsimp only [customPropsLoop]
  ends

theorem handles_rels {dir : Str} : Handles true x d (relsLoop dir) := by
  intro s q as es st hd hn
  dsimp only [relsLoop]
  ends

theorem handles_packageRels : Handles true x d packageRelsLoop := by
  intro s q as es st hd hn
  dsimp only [packageRelsLoop]
  ends

theorem run_fuel {x : ReadEnv} {d m : Nat} {σ : Type} {L : Loop σ} {n : Str} (hL : Handles b x d L) (hc : ∀ s q, q.loc = n → L.close s q = none) (s : σ)
    (hm : d ≤ m) : Closes b x d n (L.run m s) := fun st es h1 h2 => run_closes hL hc st m s [] es (Nat.lt_of_lt_of_le h1 hm) h1 h2

theorem handles_divsChild {child : Attrs → List REvent → Read Div} (hk : ∀ as n, elementOf n = .div → Closes true x d n (child as)) :
    Handles b x d (divsChildLoop child) := by
  intro s q as es st hd hn
  dsimp only [divsChildLoop]
  split
  · rename_i h
    exact ((hk as q.loc h).at (e := .start q as) hd hn quiet_le).caught fun a rest h3 h4 => by cases a <;> exact ⟨h3, h4⟩
  · exact ⟨List.suffix_refl _, [q.loc], hn⟩

theorem closes_div (fuel : Nat) : ∀ (j : Nat) (as : Attrs) (n : Str), elementOf n = .div → Closes true x (min fuel j) n (readDiv x fuel j as)
  | 0, _, _, _ => fun st es h => absurd h (by simp)
  | j + 1, as, n, h => by
    refine run_fuel ?_ (closesAt_eq h) _ (Nat.min_le_left _ _)
    intro s q as' es st hd hn
    dsimp only [divLoop]
    cases s with
    | mk id l r t b cs =>
      dsimp only
      split
      case h_5 h' =>
        refine After.map ?_
        have hl : es.length < min fuel j := by omega
        exact (run_fuel (handles_divsChild (closes_div fuel j)) (closesAt_eq h') cs (Nat.min_le_left _ _) st es hl hn).weaken aims_tail
          (List.suffix_refl _) (List.suffix_refl _)
      all_goals exact ⟨List.suffix_refl _, [q.loc], hn⟩

theorem handles_webSettings : Handles true x d (webSettingsLoop x d) := by
  intro s q as es st hd hn
  dsimp only [webSettingsLoop]
  split
  · rename_i h
    have := closes_div (x := x) d d as q.loc h
    rw [Nat.min_self] at this
    exact (this.at (e := .start q as) hd hn quiet_le).caught fun a rest h3 h4 => by cases a <;> exact ⟨h3, h4⟩
  · exact ⟨List.suffix_refl _, [q.loc], hn⟩

theorem handles_fontGroup : Handles true x d fontGroupLoop := by
  intro s q as es st hd hn
  dsimp only [fontGroupLoop]
  repeat' split
  all_goals exact ⟨List.suffix_refl _, [q.loc], hn⟩

theorem handles_fontScheme : Handles true x d (fontSchemeLoop d) := by
  intro s q as es st hd hn
  dsimp only [fontSchemeLoop]
  split
  · split
    · rename_i h
      exact ((Loop.closes handles_fontGroup (n := q.loc) (fun _ p hp => if_pos (.inl (hp.trans h))) {}).at (e := .start q as) hd hn quiet_le).caught
        fun a rest h3 h4 => ⟨h3, h4⟩
    · split
      · rename_i h
        exact ((Loop.closes handles_fontGroup (n := q.loc) (fun _ p hp => if_pos (.inr (hp.trans h))) {}).at (e := .start q as) hd hn quiet_le).caught
          fun a rest h3 h4 => ⟨h3, h4⟩
      · exact ⟨List.suffix_refl _, [q.loc], hn⟩
  · exact ⟨List.suffix_refl _, [q.loc], hn⟩

theorem handles_theme : Handles true x d (themeLoop d) := by
  intro s q as es st hd hn
  dsimp only [themeLoop]
  split
  · rename_i h
    exact ((Loop.closes handles_fontScheme (n := q.loc) (fun _ p hp => if_pos (hp.trans h)) {}).at (e := .start q as) hd hn quiet_le).caught
      fun a rest h3 h4 => ⟨h3, h4⟩
  · exact ⟨List.suffix_refl _, [q.loc], hn⟩

/-! ## Parts -/

/-- How a function that reads may end: it does end, if it panics then the one part of `C` does not hold, and if it gives an error then the other does not. -/
def Comes (C : Aims) {α : Type} : Got α → Prop
  | .ok _ => True
  | .err => ¬ C.sure
  | .panic => ¬ C.calm
  | .running => False

theorem After.comes {C : Aims} {st : List Str} {es : List REvent} {α : Type} {r : Read α} (h : After C st es r) : Comes C r.got := by
  cases r with
  | ok => trivial
  | err => exact h.2
  | panic => exact h
  | running => exact h

theorem Comes.bind {C : Aims} {α β : Type} {g : Got α} {f : α → Got β} (h : Comes C g) (hf : ∀ a, g = .ok a → Comes C (f a)) : Comes C (g.bind f) := by
  cases g with
  | ok a => exact hf a rfl
  | err => exact h
  | panic => exact h
  | running => exact h

theorem Comes.orElse {C : Aims} {α : Type} {g : Got α} {b : α} (h : Comes C.quiet g) : Comes C (g.orElse b) := by
  cases g with
  | ok a => trivial
  | err => trivial
  | panic => exact h
  | running => exact h

theorem Comes.mono {C C' : Aims} {α : Type} {g : Got α} (h : Comes C g) (hc : Aims.Le C' C) : Comes C' g := by
  cases g with
  | ok a => trivial
  | err => exact fun c => h (hc.2 c)
  | panic => exact fun c => h (hc.1 c)
  | running => exact h

theorem comes_ofOption {C : Aims} {α : Type} {o : Option α} (h : C.sure → ∃ a, o = some a) : Comes C (Got.ofOption o) := by
  cases o with
  | none => exact fun c => by obtain ⟨_, h⟩ := h c; cases h
  | some a => trivial

theorem readers_fuel (x : ReadEnv) (d : Nat) : (readers x d).fuel = d := by cases d <;> rfl

section
variable {s : Str} {n : Nat}

/-- The text is well-formed and the steps are enough for it. -/
structure Enough (n : Nat) (s : Str) : Prop where
  well : WellFormed s
  steps : (readEvents s).length < n

theorem Enough.ends {σ : Type} {L : Loop σ} {a : σ} (h : Enough n s) (hL : Handles true x n L) (ha : L.atEnd = true) :
    After (aims true x (readEvents s)) [] (readEvents s) (L.run n a (readEvents s)) := run_ends hL ha n a [] _ h.steps h.steps h.well

theorem comes_document (h : Enough n s) : Comes (aims true x (readEvents s)) (readDocument x n s).got := by
  have hL := handles_document (readersEnd x n)
  rw [readers_fuel] at hL
  exact After.comes (h.ends hL rfl)

theorem comes_header (h : Enough n s) : Comes (aims true x (readEvents s)) (readHeader x n s).got := by
  have hL := handles_header (readersEnd x n)
  rw [readers_fuel] at hL
  exact After.comes (h.ends hL rfl)

theorem comes_comments (h : Enough n s) : Comes (aims true x (readEvents s)) (readComments x n s).got := by
  have hL := handles_comments (readersEnd x n)
  rw [readers_fuel] at hL
  exact After.comes (h.ends hL rfl)

theorem comes_commentsExtended (h : Enough n s) : Comes (aims true x (readEvents s)) (readCommentsExtended n s).got :=
  After.comes (h.ends handles_commentsExtended rfl)

theorem comes_settings (h : Enough n s) : Comes (aims true x (readEvents s)) (readSettings x n s).got := After.comes (h.ends handles_settings rfl)

theorem comes_webSettings (h : Enough n s) : Comes (aims true x (readEvents s)) (readWebSettings x n s).got := After.comes (h.ends handles_webSettings rfl)

theorem comes_theme (h : Enough n s) : Comes (aims true x (readEvents s)) (readTheme n s).got := After.comes (h.ends handles_theme rfl)

theorem comes_numberings (h : Enough n s) : Comes (aims true x (readEvents s)) (readNumberings x n s).got := by
  have hL := handles_numberings (readersEnd x n)
  rw [readers_fuel] at hL
  exact After.comes (h.ends hL rfl)

theorem comes_customProps (h : Enough n s) : Comes (aims true x (readEvents s)) (readCustomProps x n s).got := by
  have hL := handles_customProps (x := x) (R := readers x n)
  rw [readers_fuel] at hL
  exact After.comes (h.ends hL rfl)

theorem comes_packageRels (h : Enough n s) : Comes (aims true x (readEvents s)) (readPackageRels n s).got := After.comes (After.map (h.ends handles_packageRels rfl))

theorem comes_styles (h : Enough n s) (hr : RootIs c!"styles" s) : Comes (aims true x (readEvents s)) (readStyles x n s).got := by
  have hL := handles_styles (readersEnd x n)
  rw [readers_fuel] at hL
  obtain ⟨before, q, as, rest, h1, h2, h3⟩ := hr
  have he : elementOf c!"styles" = .styles := by decide
  refine After.comes (run_root hL (fun s q hq => closesAt_eq he s q hq) ?_ before n _ _ q as rest h1 h2 h3 h.steps h.steps h.well)
  intro s q as es hq
  dsimp only [stylesLoop]
  rw [hq, he]

theorem comes_rels {dir : Str} (h : Enough n s) (hr : RootIs c!"Relationships" s) : Comes (aims true x (readEvents s)) (readRelsXml n dir s).got := by
  obtain ⟨before, q, as, rest, h1, h2, h3⟩ := hr
  have he : elementOf c!"Relationships" = .relationships := by decide
  refine After.comes (run_root (handles_rels (x := x)) (fun s q hq => closesAt_eq he s q hq) ?_ before n _ _ q as rest h1 h2 h3 h.steps h.steps h.well)
  intro s q as es hq
  dsimp only [relsLoop]
  rw [hq, he]
  rfl

end

/-! ## The archive -/

/-- Steps that are enough for every text in the archive. -/
def stepsFor (es : List Entry) : Nat :=
  (es.map fun e => match e.content.withoutBom with | .text s => (readEvents s).length | _ => 0).sum + 1

theorem readText_entry {es : List Entry} {name s : Str} (h : readText es name = some s) : ∃ e ∈ es, e.content.withoutBom = .text s := by
  unfold readText readZip at h
  cases hf : (es.filter fun e => decide (e.name = entryName name)).getLast? with
  | none => simp [hf] at h
  | some e =>
    refine ⟨e, (List.mem_filter.1 (List.mem_of_getLast? hf)).1, ?_⟩
    rw [hf] at h
    simp only [Option.map_some] at h
    split at h <;> simp_all

theorem le_sum_of_mem {α : Type} (f : α → Nat) {a : α} : ∀ {l : List α}, a ∈ l → f a ≤ (l.map f).sum
  | _ :: _, .head _ => by simp
  | b :: l, .tail _ h => by
    have := le_sum_of_mem f h
    simp only [List.map_cons, List.sum_cons]
    omega

theorem stepsFor_lt {es : List Entry} {name s : Str} (h : readText es name = some s) : (readEvents s).length < stepsFor es := by
  obtain ⟨e, he, hs⟩ := readText_entry h
  have := le_sum_of_mem (fun e : Entry => match e.content.withoutBom with | .text s => (readEvents s).length | _ => 0) he
  unfold stepsFor
  simp only [hs] at this
  omega

section
variable {es : List Entry} {n : Nat}

theorem enough_of (ht : Tidy es) (hn : stepsFor es ≤ n) {name s : Str} (h : readText es name = some s) : Enough n s := by
  obtain ⟨e, he, hs⟩ := readText_entry h
  exact ⟨ht.wellFormed e he s hs, Nat.lt_of_lt_of_le (stepsFor_lt h) hn⟩

/-- The archive keeps the readers from panics and errors. -/
def archive (x : ReadEnv) (es : List Entry) : Aims := ⟨Harmless x es, Complete x es⟩

theorem archive_le {name s : Str} (h : readText es name = some s) : Aims.Le (archive x es) (aims true x (readEvents s)) := by
  obtain ⟨e, he, hs⟩ := readText_entry h
  exact ⟨fun hh => hh.calm e he s hs, fun hh => ⟨rfl, hh.sure e he s hs⟩⟩

theorem archive_quiet {name s : Str} (h : readText es name = some s) : Aims.Le (archive x es).quiet (aims true x (readEvents s)) :=
  ⟨(archive_le h).1, False.elim⟩

theorem comes_partRels (ht : Tidy es) (hn : stepsFor es ≤ n) (part : Str) (hp : Complete x es → ∃ dir path s, pathParent part = some dir ∧
    relsFileName part = some path ∧ readText es path = some s) : Comes (archive x es) (readPartRels n es part) := by
  unfold readPartRels
  refine (comes_ofOption fun c => ?_).bind fun dir _ => (comes_ofOption fun c => ?_).bind fun p hq => (comes_ofOption fun c => ?_).bind fun s hs => ?_
  · obtain ⟨d, _, _, h, _⟩ := hp c
    exact ⟨d, h⟩
  · obtain ⟨_, p, _, _, h, _⟩ := hp c
    exact ⟨p, h⟩
  · obtain ⟨_, p', s, _, h, h'⟩ := hp c
    have : p' = p := by
      rw [h] at hq
      exact Got.ok.inj hq
    exact ⟨s, this ▸ h'⟩
  have hp' : relsFileName part = some p := by
    cases h : relsFileName part <;> simp_all [Got.ofOption]
  have hs' : readText es p = some s := by
    cases h : readText es p <;> simp_all [Got.ofOption]
  exact (comes_rels (x := x) (enough_of ht hn hs') (ht.rels part p s hp' hs')).mono (archive_le hs')

theorem comes_partRels_quiet (ht : Tidy es) (hn : stepsFor es ≤ n) (part : Str) : Comes (archive x es).quiet (readPartRels n es part) := by
  unfold readPartRels
  refine (comes_ofOption False.elim).bind fun dir _ => (comes_ofOption False.elim).bind fun p hp => (comes_ofOption False.elim).bind fun s hs => ?_
  have hp' : relsFileName part = some p := by
    cases h : relsFileName part <;> simp_all [Got.ofOption]
  have hs' : readText es p = some s := by
    cases h : readText es p <;> simp_all [Got.ofOption]
  exact (comes_rels (x := x) (enough_of ht hn hs') (ht.rels part p s hp' hs')).mono (archive_quiet hs')

theorem comes_parts (ht : Tidy es) (hn : stepsFor es ≤ n) : ∀ ts : List Target, Comes (archive x es) (readPartsFrom x n es ts)
  | [] => trivial
  | t :: ts => by
    unfold readPartsFrom
    split
    · exact comes_parts ht hn ts
    · rename_i s hs
      have h := (comes_header (x := x) (enough_of ht hn hs)).mono (archive_le hs)
      split
      · exact (comes_partRels_quiet ht hn t.path).orElse.bind fun _ _ => (comes_parts ht hn ts).bind fun _ _ => trivial
      · exact comes_parts ht hn ts
      · rename_i hg
        rw [hg] at h
        exact h
      · rename_i hg
        rw [hg] at h
        exact h

theorem comes_themes (ht : Tidy es) (hn : stepsFor es ≤ n) : ∀ ts : List Target, Comes (archive x es) (readThemesFrom n es ts)
  | [] => trivial
  | t :: ts => by
    unfold readThemesFrom
    split
    · exact comes_themes ht hn ts
    · rename_i s hs
      have h := (comes_theme (x := x) (enough_of ht hn hs)).mono (archive_le hs)
      split
      · exact (comes_themes ht hn ts).bind fun _ _ => trivial
      · exact comes_themes ht hn ts
      · rename_i hg
        rw [hg] at h
        exact h
      · rename_i hg
        rw [hg] at h
        exact h

theorem comes_optional {C : Aims} {α : Type} {m : ReadRels} {ty : Str} {a : α} {read : Str → Got α} (h : ∀ p s, readText es p = some s → Comes C (read s)) :
    Comes C (readOptional es m ty a read) := by
  unfold readOptional
  split
  · trivial
  · rename_i s hs
    obtain ⟨t, _, h2⟩ := Option.bind_eq_some_iff.1 hs
    exact h _ _ h2

theorem comes_needed {C : Aims} {α : Type} {m : ReadRels} {ty : Str} {r : ReadFile} {read : Str → Got α} {put : ReadFile → α → ReadFile}
    (h : ∀ t s, firstTarget m ty = some t → readText es t.path = some s → Comes C (read s))
    (hC : C.sure → ∀ t, firstTarget m ty = some t → ∃ s, readText es t.path = some s) : Comes C (readNeeded es m ty r read put) := by
  unfold readNeeded
  split
  · trivial
  · rename_i t h1
    refine (comes_ofOption fun c => hC c t h1).bind fun s hs => (h t s h1 ?_).bind fun _ _ => trivial
    cases h : readText es t.path <;> simp_all [Got.ofOption]

theorem isEmf_settled (path : Str) (b : Bytes) : ∃ r, isEmf path b = some r := by
  unfold isEmf slice?
  split
  · exact ⟨_, rfl⟩
  · split
    · rename_i h
      have h1 : 4 ≤ b.length := by omega
      simp only [Nat.zero_le, h1, and_self, if_true, Option.bind_some]
      split
      · have : 40 ≤ 44 ∧ 44 ≤ b.length := ⟨by omega, h⟩
        simp only [this, and_self, if_true, Option.map_some]
        exact ⟨_, rfl⟩
      · exact ⟨_, rfl⟩
    · exact ⟨_, rfl⟩

theorem comes_imagesFrom {C : Aims} {e : FileEnv} : ∀ (ts : List Target) (r : ReadFile), Comes C (addImagesFrom e es ts r)
  | [], _ => trivial
  | t :: ts, r => by
    unfold addImagesFrom
    split
    · exact comes_imagesFrom ts r
    · refine Comes.bind ?_ fun r _ => comes_imagesFrom ts r
      unfold ReadFile.addImage addImageWithOptions
      rename_i c _
      obtain ⟨b, hb⟩ := isEmf_settled t.path c.toBytes
      rw [hb]
      trivial

theorem comes_images {C : Aims} {e : FileEnv} {m : ReadRels} {r : ReadFile} : Comes C (addImages e es m r) := comes_imagesFrom _ _

theorem comes_assignHeader {C : Aims} {e : FileEnv} {parts : List (Str × Header × ReadRels)} {reference : SectionBase → Option PartReference}
    {set : SectionProperty → Header → Str → SectionProperty} {r : ReadFile} : Comes C (assignHeader e es parts reference set r) := by
  unfold assignHeader
  repeat' split
  · trivial
  · trivial
  · exact comes_images

theorem comes_assignFooter {C : Aims} {e : FileEnv} {parts : List (Str × Header × ReadRels)} {reference : SectionBase → Option PartReference}
    {set : SectionProperty → Header → Str → SectionProperty} {r : ReadFile} : Comes C (assignFooter e es parts reference set r) := by
  unfold assignFooter
  repeat' split
  · trivial
  · trivial
  · exact comes_images

theorem comes_assign {C : Aims} {e : FileEnv} {hs fs : List (Str × Header × ReadRels)} {r : ReadFile} : Comes C (assignParts e es hs fs r) :=
  comes_assignHeader.bind fun _ _ => comes_assignHeader.bind fun _ _ => comes_assignHeader.bind fun _ _ =>
  comes_assignFooter.bind fun _ _ => comes_assignFooter.bind fun _ _ => comes_assignFooter

theorem comes_custom (ht : Tidy es) (hn : stepsFor es ≤ n) (rels : Rels) : Comes (archive x es) (readCustom x n es rels) := by
  unfold readCustom
  split
  · trivial
  · rename_i s hs
    obtain ⟨t, _, h2⟩ := Option.bind_eq_some_iff.1 hs
    exact ((comes_customProps (enough_of ht hn h2)).mono (archive_quiet h2)).orElse

theorem readTypes_some : ∀ (es before : List REvent) (k : Int) (t : List (Str × Str)), k = depthBehind before →
    (∀ b q as rest, before ++ es = b ++ .start q as :: rest → depthBehind b = 1 → 2 ≤ as.length) → ∃ r, readTypes es k t = some r := by
  intro es
  induction es with
  | nil => intro _ _ t _ _; exact ⟨t, rfl⟩
  | cons e es ih =>
    intro before k t hk h
    have h' : ∀ b q as rest, (before ++ [e]) ++ es = b ++ .start q as :: rest → depthBehind b = 1 → 2 ≤ as.length := by simpa using h
    have hd : ∀ k', k' = depthBehind (before ++ [e]) → ∀ t, ∃ r, readTypes es k' t = some r := fun k' hk' t => ih (before ++ [e]) k' t hk' h'
    cases e with
    | start q as =>
      unfold readTypes
      have hs : k + 1 = depthBehind (before ++ [.start q as]) := by
        rw [hk]
        simp [depthBehind]
        omega
      split
      · rename_i h1
        have := h before q as es rfl (hk ▸ h1)
        match as, this with
        | a :: b :: _, _ => exact hd _ hs _
      · exact hd _ hs _
    | «end» q => exact hd _ (by rw [hk]; simp [depthBehind]; omega) t
    | chars s => exact hd _ (by rw [hk]; simp [depthBehind]) t
    | whitespace s => exact hd _ (by rw [hk]; simp [depthBehind]) t
    | endDocument => exact hd _ (by rw [hk]; simp [depthBehind]) t
    | error => exact hd _ (by rw [hk]; simp [depthBehind]) t

theorem comes_from {e : FileEnv} (ht : Tidy es) (hn : stepsFor es ≤ n) {part : Str} {m : ReadRels}
    (hst : ∀ t s, firstTarget m (officeType c!"styles") = some t → readText es t.path = some s → RootIs c!"styles" s)
    (hp : Complete e.x es → ∃ s, readText es part = some s)
    (hm : Complete e.x es → ∀ kind ∈ [c!"styles", c!"numbering", c!"settings", c!"webSettings"], ∀ t, firstTarget m (officeType kind) = some t →
      ∃ s, readText es t.path = some s)
    (custom : List (Str × Str)) : Comes (archive e.x es) (readDocxFrom e n es part custom m) := by
  have E : ∀ {p s}, readText es p = some s → Enough n s := enough_of ht hn
  have K : ∀ {p s}, readText es p = some s → Aims.Le (archive e.x es) (aims true e.x (readEvents s)) := archive_le
  unfold readDocxFrom
  refine (comes_parts ht hn _).bind fun _ _ => (comes_parts ht hn _).bind fun _ _ => (comes_themes ht hn _).bind fun _ _ => ?_
  refine (comes_optional fun p s h => (comes_commentsExtended (E h)).mono (K h)).bind fun _ _ => ?_
  refine (comes_optional fun p s h => Comes.bind (f := fun cs => .ok (threads cs _)) ((comes_comments (E h)).mono (K h)) fun _ _ => trivial).bind fun _ _ => ?_
  refine (comes_ofOption hp).bind fun s hs => ?_
  have hs' : readText es part = some s := by cases h : readText es part <;> simp_all [Got.ofOption]
  refine ((comes_document (E hs')).mono (K hs')).bind fun _ _ => comes_assign.bind fun _ _ => ?_
  refine (comes_needed (fun t s h1 h => (comes_styles (E h) (hst t s h1 h)).mono (K h)) fun c => hm c _ (by decide)).bind fun _ _ => ?_
  refine (comes_needed (fun t s _ h => (comes_numberings (E h)).mono (K h)) fun c => hm c _ (by decide)).bind fun _ _ => ?_
  refine (comes_needed (fun t s _ h => (comes_settings (E h)).mono (K h)) fun c => hm c _ (by decide)).bind fun _ _ => ?_
  refine (comes_needed (fun t s _ h => (comes_webSettings (E h)).mono (K h)) fun c => hm c _ (by decide)).bind fun _ _ => ?_
  exact comes_images.bind fun _ _ => trivial

/-- Reading a tidy archive ends; it panics only where the archive is not harmless and gives an error only where it is not complete. -/
theorem comes_docx (e : FileEnv) (ht : Tidy es) : ∃ k, ∀ n, k ≤ n → Comes (archive e.x es) (readDocx e n es) := by
  obtain ⟨k, hk⟩ := ht.styles
  have hd : ∃ j, Complete e.x es → ∀ n, j ≤ n → ∀ text rels, readText es c!"_rels/.rels" = some text → (readPackageRels n text).got = .ok rels →
    (∃ s, readText es (documentPath rels) = some s) ∧
    (∃ dir path s, pathParent (documentPath rels) = some dir ∧ relsFileName (documentPath rels) = some path ∧ readText es path = some s) ∧
    ∀ m, readPartRels n es (documentPath rels) = .ok m →
      ∀ kind ∈ [c!"styles", c!"numbering", c!"settings", c!"webSettings"], ∀ t, firstTarget m (officeType kind) = some t →
        ∃ s, readText es t.path = some s := by
    by_cases hc : Complete e.x es
    · obtain ⟨j, hj⟩ := hc.document
      exact ⟨j, fun _ => hj⟩
    · exact ⟨0, fun c => absurd c hc⟩
  obtain ⟨j, hj⟩ := hd
  refine ⟨max j (max k (stepsFor es)), fun n hn' => ?_⟩
  have hjn : j ≤ n := Nat.le_trans (Nat.le_max_left _ _) hn'
  have hn' : max k (stepsFor es) ≤ n := Nat.le_trans (Nat.le_max_right _ _) hn'
  have hn : stepsFor es ≤ n := Nat.le_trans (Nat.le_max_right _ _) hn'
  have hst := hk n (Nat.le_trans (Nat.le_max_left _ _) hn')
  unfold readDocx
  refine (comes_ofOption (C := archive e.x es) fun c => Complete.types c).bind fun s hs => ?_
  have hs' : readText es c!"[Content_Types].xml" = some s := by cases h : readText es c!"[Content_Types].xml" <;> simp_all [Got.ofOption]
  split
  · rename_i h
    intro hh
    obtain ⟨r, hr⟩ := readTypes_some (readEvents s) [] 0 [] rfl (hh.types s hs')
    unfold contentTypesFromXml at h
    rw [hr] at h
    cases h
  · refine (comes_ofOption (C := archive e.x es) fun c => Complete.rels c).bind fun s hs => ?_
    have hs' : readText es c!"_rels/.rels" = some s := by cases h : readText es c!"_rels/.rels" <;> simp_all [Got.ofOption]
    refine ((comes_packageRels (enough_of ht hn hs')).mono (archive_le hs')).bind fun rels hr => ?_
    exact (comes_custom ht hn rels).bind fun custom _ => (comes_partRels ht hn _ fun c => (hj c n hjn s rels hs' hr).2.1).bind fun m hm =>
      comes_from ht hn (fun t x => hst s rels m t x hs' hr hm) (fun c => (hj c n hjn s rels hs' hr).1) (fun c => (hj c n hjn s rels hs' hr).2.2 m hm) custom

end

end Docx
