import Verif.Model.ReadDocx
import Verif.Lemmas.Calls
import Verif.Lemmas.Types
import Verif.Lemmas.HeldParts

/-!
# The bookkeeping of a file that was read

`read_docx` puts headers and footers into a new `Docx` and counts them by itself. Whatever archive it reads, the counts, the content
types and the parts the document holds agree.
-/

namespace Docx

open Docx.Xml Docx.Spec

theorem Got.bind_ok {α β : Type} {g : Got α} {f : α → Got β} {b : β} (h : g.bind f = .ok b) : ∃ a, g = .ok a ∧ f a = .ok b := by
  cases g with
  | ok a => exact ⟨a, rfl, h⟩
  | _ => cases h

theorem Got.ofRead {α : Type} {r : Read α} {a : α} (h : r.got = .ok a) : ∃ es, r = .ok a es := by
  cases r with
  | ok b es => simp only [Read.got, Got.ok.injEq] at h; exact ⟨es, by rw [h]⟩
  | _ => simp [Read.got] at h

/-- No sections in the body, and no header or footer in its property. -/
def Bare (x : Document) : Prop :=
  sectionsOf x = [] ∧ ∀ side, Side.own side x.sectionProperty = []

theorem addImagesFrom_file {e : FileEnv} {es : List Entry} : ∀ {ts : List Target} {r r' : ReadFile}, addImagesFrom e es ts r = .ok r' →
    r'.file = r.file := by
  intro ts
  induction ts with
  | nil =>
    intro r r' h
    simp only [addImagesFrom, Got.ok.injEq] at h
    rw [h]
  | cons t ts ih =>
    intro r r' h
    rw [addImagesFrom] at h
    split at h
    · exact ih h
    · obtain ⟨a, h1, h2⟩ := Got.bind_ok h
      rw [ih h2]
      unfold ReadFile.addImage at h1
      split at h1
      · cases h1
      · simp only [Got.ok.injEq] at h1
        rw [← h1]

theorem addImages_file {e : FileEnv} {es : List Entry} {m : ReadRels} {r r' : ReadFile} (h : addImages e es m r = .ok r') :
    r'.file = r.file := addImagesFrom_file h

/-- What holds of the file while it is put together: the books are right, and there is as much counted as held. -/
structure Books (d : DocxFile) : Prop where
  sound : Sound d
  typed : Typed d
  sections : sectionsOf d.document = []
  held : ∀ side, (Side.own side d.document.sectionProperty).length = Side.count side d
  items : d.customItems = []
  web : d.webExtensions = []
  taskpanes : d.taskpanes = false
  footnotes : d.footnotes = []
  numberings : d.documentRels.hasNumberings = false

theorem Sound.oneHeader {d : DocxFile} (h : Sound d) (f : SectionProperty → SectionProperty) : Sound { d.updProperty f with
    documentRels := { d.documentRels with headerCount := d.documentRels.headerCount + 1 }
    contentType := d.contentType.addHeader } where
  links := h.links
  footnotes := h.footnotes
  custom := h.custom
  props := h.props
  crels := h.crels
  header := congrArg (· + 1) h.header
  footer := h.footer
  web := h.web
  sorted := (h.countHeader {}).sorted
  typed := fun y hy => ((h.countHeader {}).typed y hy).mono (Nat.le_refl _) (Nat.le_refl _) id (Nat.le_refl _) id

theorem Sound.oneFooter {d : DocxFile} (h : Sound d) (f : SectionProperty → SectionProperty) : Sound { d.updProperty f with
    documentRels := { d.documentRels with footerCount := d.documentRels.footerCount + 1 }
    contentType := d.contentType.addFooter } where
  links := h.links
  footnotes := h.footnotes
  custom := h.custom
  props := h.props
  crels := h.crels
  header := h.header
  footer := congrArg (· + 1) h.footer
  web := h.web
  sorted := (h.countFooter {}).sorted
  typed := fun y hy => ((h.countFooter {}).typed y hy).mono (Nat.le_refl _) (Nat.le_refl _) id (Nat.le_refl _) id

/-- What a step that assigns a header or footer does to the section property: nothing, or one slot is filled, with the id of the reference
that is already there. -/
def Filled (reference : SectionBase → Option PartReference) (set : SectionProperty → Header → Str → SectionProperty) (p p' : SectionProperty) :
    Prop :=
  p' = p ∨ ∃ q h, reference p.base = some q ∧ p' = set p h q.id

theorem books_header {e : FileEnv} {es : List Entry} {parts : List (Str × Header × ReadRels)} {reference : SectionBase → Option PartReference}
    {set : SectionProperty → Header → Str → SectionProperty} {r r' : ReadFile} (hb : Books r.file)
    (hset : ∀ h id, (Side.own .header (set r.file.document.sectionProperty h id)).length =
        (Side.own .header r.file.document.sectionProperty).length + 1 ∧
      Side.own .footer (set r.file.document.sectionProperty h id) = Side.own .footer r.file.document.sectionProperty)
    (h : assignHeader e es parts reference set r = .ok r') :
    Books r'.file ∧ Filled reference set r.file.document.sectionProperty r'.file.document.sectionProperty := by
  unfold assignHeader at h
  split at h
  · simp only [Got.ok.injEq] at h
    subst h
    exact ⟨hb, .inl rfl⟩
  · next q hq =>
    split at h
    · simp only [Got.ok.injEq] at h
      subst h
      exact ⟨hb, .inl rfl⟩
    · next header rels hp =>
      rw [addImages_file h]
      refine ⟨⟨hb.sound.oneHeader _, typed_same (typed_header hb.typed {}) rfl rfl, hb.sections, ?_, hb.items, hb.web, hb.taskpanes, hb.footnotes,
        hb.numberings⟩, .inr ⟨q, header, hq, rfl⟩⟩
      intro side
      cases side with
      | header => exact (hset header q.id).1.trans (congrArg (· + 1) (hb.held .header))
      | footer => exact (congrArg List.length (hset header q.id).2).trans (hb.held .footer)

theorem books_footer {e : FileEnv} {es : List Entry} {parts : List (Str × Header × ReadRels)} {reference : SectionBase → Option PartReference}
    {set : SectionProperty → Header → Str → SectionProperty} {r r' : ReadFile} (hb : Books r.file)
    (hset : ∀ h id, (Side.own .footer (set r.file.document.sectionProperty h id)).length =
        (Side.own .footer r.file.document.sectionProperty).length + 1 ∧
      Side.own .header (set r.file.document.sectionProperty h id) = Side.own .header r.file.document.sectionProperty)
    (h : assignFooter e es parts reference set r = .ok r') :
    Books r'.file ∧ Filled reference set r.file.document.sectionProperty r'.file.document.sectionProperty := by
  unfold assignFooter at h
  split at h
  · simp only [Got.ok.injEq] at h
    subst h
    exact ⟨hb, .inl rfl⟩
  · next q hq =>
    split at h
    · simp only [Got.ok.injEq] at h
      subst h
      exact ⟨hb, .inl rfl⟩
    · next header rels hp =>
      rw [addImages_file h]
      refine ⟨⟨hb.sound.oneFooter _, typed_same (typed_footer hb.typed {}) rfl rfl, hb.sections, ?_, hb.items, hb.web, hb.taskpanes, hb.footnotes,
        hb.numberings⟩, .inr ⟨q, header, hq, rfl⟩⟩
      intro side
      cases side with
      | footer => exact (hset header q.id).1.trans (congrArg (· + 1) (hb.held .footer))
      | header => exact (congrArg List.length (hset header q.id).2).trans (hb.held .header)

/-- The slots, in the order in which they are filled. -/
def slots (p : SectionProperty) : List (Option (Str × Header)) :=
  [p.header, p.firstHeader, p.evenHeader, p.footer, p.firstFooter, p.evenFooter]

/-- The ids of the references, in the same order. -/
def refIds (p : SectionProperty) : List (Option Str) :=
  [p.base.headerReference, p.base.firstHeaderReference, p.base.evenHeaderReference, p.base.footerReference, p.base.firstFooterReference,
    p.base.evenFooterReference].map (Option.map PartReference.id)

/-- What holds after `k` steps: the slots behind are empty, those before hold something only under the id of the reference, and the ids are
those read. -/
structure Filling (k : Nat) (ids : List (Option Str)) (p : SectionProperty) : Prop where
  behind : ∀ i : Nat, k ≤ i → (slots p)[i]?.join = none
  keyed : ∀ (i : Nat) (x : Str × Header), (slots p)[i]?.join = some x → (refIds p)[i]?.join = some x.1
  ids : refIds p = ids

theorem Filling.step {k : Nat} {ids : List (Option Str)} {reference : SectionBase → Option PartReference}
    {set : SectionProperty → Header → Str → SectionProperty} {p p' : SectionProperty} (hf : Filling k ids p) (h : Filled reference set p p')
    (hs : ∀ h id, slots (set p h id) = (slots p).set k (some (id, h))) (hr : ∀ h id, refIds (set p h id) = (refIds p).set k (some id))
    (hk : (refIds p)[k]? = some ((reference p.base).map PartReference.id)) : Filling (k + 1) ids p' := by
  rcases h with rfl | ⟨q, x, hq, rfl⟩
  · exact ⟨fun i hi => hf.behind i (by omega), hf.keyed, hf.ids⟩
  · rw [hq, Option.map_some] at hk
    have hid : (refIds p).set k (some q.id) = refIds p := by
      apply List.ext_getElem? 
      intro i
      rw [List.getElem?_set]
      split
      · next e =>
        subst e
        rw [hk]
        split
        · rfl
        · next hl => rw [List.getElem?_eq_none (by omega)] at hk; cases hk
      · rfl
    refine ⟨fun i hi => ?_, fun i y hy => ?_, ?_⟩
    · rw [hs, List.getElem?_set_ne (by omega)]
      exact hf.behind i (by omega)
    · rw [hr, hid]
      rw [hs, List.getElem?_set] at hy
      split at hy
      · next e =>
        subst e
        rw [hk]
        split at hy
        · simp only [Option.join_some, Option.some.injEq] at hy
          rw [← hy]
          rfl
        · cases hy
      · exact hf.keyed i y hy
    · rw [hr, hid]
      exact hf.ids

theorem assigned_books {e : FileEnv} {es : List Entry} {headers footers : List (Str × Header × ReadRels)} {r r' : ReadFile} {ids : List (Option Str)}
    (hb : Books r.file) (hf : Filling 0 ids r.file.document.sectionProperty) (h : assignParts e es headers footers r = .ok r') :
    Books r'.file ∧ Filling 6 ids r'.file.document.sectionProperty := by
  unfold assignParts at h
  obtain ⟨r1, h1, h⟩ := Got.bind_ok h
  obtain ⟨r2, h2, h⟩ := Got.bind_ok h
  obtain ⟨r3, h3, h⟩ := Got.bind_ok h
  obtain ⟨r4, h4, h⟩ := Got.bind_ok h
  obtain ⟨r5, h5, h⟩ := Got.bind_ok h
  have n0 : r.file.document.sectionProperty.header = none := hf.behind 0 (by omega)
  obtain ⟨b1, f1⟩ := books_header hb (fun x i => ⟨by simp [Side.own, Side.parts, SectionProperty.setHeader, n0], rfl⟩) h1
  have hf1 := hf.step f1 (fun _ _ => rfl) (fun _ _ => rfl) rfl
  have n1 : r1.file.document.sectionProperty.firstHeader = none := hf1.behind 1 (by omega)
  obtain ⟨b2, f2⟩ := books_header b1 (fun x i => ⟨by
    simp only [Side.own, Side.parts, SectionProperty.setFirstHeaderOnly, n1]
    cases r1.file.document.sectionProperty.header <;> simp, rfl⟩) h2
  have hf2 := hf1.step f2 (fun _ _ => rfl) (fun _ _ => rfl) rfl
  have n2 : r2.file.document.sectionProperty.evenHeader = none := hf2.behind 2 (by omega)
  obtain ⟨b3, f3⟩ := books_header b2 (fun x i => ⟨by
    simp only [Side.own, Side.parts, SectionProperty.setEvenHeader, n2]
    cases r2.file.document.sectionProperty.header <;> cases r2.file.document.sectionProperty.firstHeader <;> simp, rfl⟩) h3
  have hf3 := hf2.step f3 (fun _ _ => rfl) (fun _ _ => rfl) rfl
  have n3 : r3.file.document.sectionProperty.footer = none := hf3.behind 3 (by omega)
  obtain ⟨b4, f4⟩ := books_footer b3 (fun x i => ⟨by simp [Side.own, Side.parts, SectionProperty.setFooter, n3], rfl⟩) h4
  have hf4 := hf3.step f4 (fun _ _ => rfl) (fun _ _ => rfl) rfl
  have n4 : r4.file.document.sectionProperty.firstFooter = none := hf4.behind 4 (by omega)
  obtain ⟨b5, f5⟩ := books_footer b4 (fun x i => ⟨by
    simp only [Side.own, Side.parts, SectionProperty.setFirstFooterOnly, n4]
    cases r4.file.document.sectionProperty.footer <;> simp, rfl⟩) h5
  have hf5 := hf4.step f5 (fun _ _ => rfl) (fun _ _ => rfl) rfl
  have n5 : r5.file.document.sectionProperty.evenFooter = none := hf5.behind 5 (by omega)
  obtain ⟨b6, f6⟩ := books_footer b5 (fun x i => ⟨by
    simp only [Side.own, Side.parts, SectionProperty.setEvenFooter, n5]
    cases r5.file.document.sectionProperty.footer <;> cases r5.file.document.sectionProperty.firstFooter <;> simp, rfl⟩) h
  exact ⟨b6, hf5.step f6 (fun _ _ => rfl) (fun _ _ => rfl) rfl⟩

theorem bind_ok' {α β : Type} {r : Read α} {f : α → List REvent → Read β} {b : β} {es : List REvent} (h : r.bind f = .ok b es) :
    ∃ a es', r = .ok a es' ∧ f a es' = .ok b es := by
  cases r with
  | ok a es' => exact ⟨a, es', rfl, h⟩
  | _ => cases h

/-- What holds of the state of a loop at the start holds of what it gives, if every step keeps it. -/
theorem run_keeps {σ : Type} {L : Loop σ} {P : σ → Prop} (hs : ∀ s q as es s' es', P s → L.start s q as es = .ok s' es' → P s')
    (ht : ∀ s b t, P s → P (L.text s b t)) (hc : ∀ s q s', P s → L.close s q = some s' → P s') :
    ∀ (n : Nat) (s : σ) (es : List REvent) (s' : σ) (es' : List REvent), P s → L.run n s es = .ok s' es' → P s' := by
  intro n
  induction n with
  | zero => intro s es s' es' _ h; cases h
  | succ n ih =>
    intro s es s' es' h0 h
    unfold Loop.run at h
    split at h
    · obtain ⟨a, es1, h1, h2⟩ := bind_ok' h
      exact ih _ _ _ _ (hs _ _ _ _ _ _ h0 h1) h2
    · split at h
      · simp only [Read.ok.injEq] at h
        rw [← h.1]
        exact h0
      · next hcl => exact ih _ _ _ _ (hc _ _ _ h0 hcl) h
    · exact ih _ _ _ _ (ht _ _ _ h0) h
    · exact ih _ _ _ _ (ht _ _ _ h0) h
    · split at h
      · simp only [Read.ok.injEq] at h
        rw [← h.1]
        exact h0
      · exact ih _ _ _ _ h0 h
    · split at h
      · exact ih _ _ _ _ h0 h
      · cases h

theorem map_ok {α β : Type} {f : α → β} {r : Read α} {b : β} {es : List REvent} (h : r.map f = .ok b es) : ∃ a, r = .ok a es ∧ f a = b := by
  cases r with
  | ok a es' =>
    simp only [Read.map, Read.bind, Read.ok.injEq] at h
    exact ⟨a, by rw [h.2], h.1⟩
  | _ => cases h

/-- Whatever the text, the body that is read has no sections among its children and no headers or footers of its own yet. -/
theorem read_bare {x : ReadEnv} {n : Nat} {text : Str} {d : Document} {es : List REvent} (h : readDocument x n text = .ok d es) :
    sectionsOf d = [] ∧ slots d.sectionProperty = [none, none, none, none, none, none] := by
  refine run_keeps (P := fun d : Document => sectionsOf d = [] ∧ slots d.sectionProperty = [none, none, none, none, none, none])
    ?_ (fun _ _ _ h => h) ?_ n {} _ _ _ ⟨rfl, rfl⟩ h
  · intro s q as es s' es' ⟨h1, h2⟩ hst
    have hadd : ∀ c, sectionProp? c = none → sectionsOf { s with children := s.children ++ [c] } = [] := by
      intro c hc
      show (s.children ++ [c]).filterMap sectionProp? = []
      rw [List.filterMap_append, List.filterMap_cons_none hc, List.filterMap_nil, List.append_nil]
      exact h1
    simp only [documentLoop] at hst
    split at hst
    · obtain ⟨a, _, rfl⟩ := map_ok hst
      exact ⟨hadd _ rfl, h2⟩
    · obtain ⟨a, _, rfl⟩ := map_ok hst
      exact ⟨hadd _ rfl, h2⟩
    · obtain ⟨a, _, rfl⟩ := map_ok hst
      exact ⟨hadd _ rfl, h2⟩
    · obtain ⟨a, _, rfl⟩ := map_ok hst
      exact ⟨hadd _ rfl, h2⟩
    · split at hst <;> (simp only [Read.ok.injEq] at hst; rw [← hst.1])
      · exact ⟨hadd _ rfl, h2⟩
      · exact ⟨h1, h2⟩
    · split at hst <;> (simp only [Read.ok.injEq] at hst; rw [← hst.1])
      · exact ⟨hadd _ rfl, h2⟩
      · exact ⟨h1, h2⟩
    · obtain ⟨a, _, rfl⟩ := map_ok hst
      exact ⟨h1, rfl⟩
    · revert hst
      cases readSdt x (readers x n) es with
      | ok a es1 =>
        intro hst
        simp only [Read.caught, Read.ok.injEq] at hst
        rw [← hst.1]
        exact ⟨hadd _ rfl, h2⟩
      | err es1 =>
        intro hst
        simp only [Read.caught, Read.ok.injEq] at hst
        rw [← hst.1]
        exact ⟨h1, h2⟩
      | _ => intro hst; cases hst
    · simp only [Read.ok.injEq] at hst
      rw [← hst.1]
      exact ⟨h1, h2⟩
  · intro s q s' h0 hc
    simp only [documentLoop, Option.some.injEq] at hc
    rw [← hc]
    exact h0

theorem needed_file {α : Type} {es : List Entry} {m : ReadRels} {ty : Str} {r r' : ReadFile} {read : Str → Got α} {put : ReadFile → α → ReadFile}
    {P : ReadFile → Prop} (hp : ∀ a, P r → P (put r a)) (h0 : P r) (h : readNeeded es m ty r read put = .ok r') : P r' := by
  unfold readNeeded at h
  split at h
  · simp only [Got.ok.injEq] at h
    rw [← h]
    exact h0
  · obtain ⟨s, _, h⟩ := Got.bind_ok h
    obtain ⟨a, _, h⟩ := Got.bind_ok h
    simp only [Got.ok.injEq] at h
    rw [← h]
    exact hp a h0

theorem Books.same {d d' : DocxFile} (h : Books d) (e : SameBooks d d') (hd : d'.document = d.document) (hf : d'.footnotes = d.footnotes) :
    Books d' where
  sound := h.sound.same e
  typed := typed_same h.typed e.contentType e.taskpanes
  sections := by rw [hd]; exact h.sections
  held side := by
    rw [hd, h.held]
    cases side
    · show _ = d'.documentRels.headerCount
      rw [e.documentRels]; rfl
    · show _ = d'.documentRels.footerCount
      rw [e.documentRels]; rfl
  items := by rw [e.customItems]; exact h.items
  web := by rw [e.webExtensions]; exact h.web
  taskpanes := by rw [e.taskpanes]; exact h.taskpanes
  footnotes := by rw [hf]; exact h.footnotes
  numberings := by rw [e.documentRels]; exact h.numberings

theorem stored_section (cs : List Comment) (c : DocumentChild) : sectionProp? (storeInChild cs c) = sectionProp? c := by
  cases c <;> rfl

theorem comments_books {r : ReadFile} {cs : List Comment} {rs : List CommentExtended} (h : Books r.file) :
    Books (r.withComments cs rs).file ∧
      (r.withComments cs rs).file.document.sectionProperty = r.file.document.sectionProperty := by
  unfold ReadFile.withComments
  split
  · exact ⟨h, rfl⟩
  · refine ⟨⟨⟨h.sound.links, h.sound.footnotes, h.sound.custom, h.sound.props, h.sound.crels, h.sound.header, h.sound.footer, h.sound.web,
      h.sound.sorted, fun y hy => (h.sound.typed y hy).mono (Nat.le_refl _) (Nat.le_refl _) id (Nat.le_refl _) id⟩,
      typed_same h.typed rfl rfl, ?_, fun side => (h.held side).trans (by cases side <;> rfl), h.items, h.web, h.taskpanes, h.footnotes, h.numberings⟩, rfl⟩
    show (r.file.document.children.map (storeInChild cs)).filterMap sectionProp? = []
    rw [List.filterMap_map]
    have : sectionProp? ∘ storeInChild cs = sectionProp? := funext (stored_section cs)
    rw [this]
    exact h.sections

/-- What holds of every file that was read. -/
structure ReadBooks (d : DocxFile) : Prop where
  books : Books d
  filling : ∃ ids, Filling 6 ids d.document.sectionProperty

theorem readDocx_books {e : FileEnv} {n : Nat} {es : List Entry} {r : ReadFile} (h : readDocx e n es = .ok r) : ReadBooks r.file := by
  unfold readDocx at h
  obtain ⟨_, _, h⟩ := Got.bind_ok h
  split at h
  · cases h
  obtain ⟨_, _, h⟩ := Got.bind_ok h
  obtain ⟨rels, _, h⟩ := Got.bind_ok h
  obtain ⟨custom, _, h⟩ := Got.bind_ok h
  obtain ⟨m, _, h⟩ := Got.bind_ok h
  unfold readDocxFrom at h
  obtain ⟨headers, _, h⟩ := Got.bind_ok h
  obtain ⟨footers, _, h⟩ := Got.bind_ok h
  obtain ⟨themes, _, h⟩ := Got.bind_ok h
  obtain ⟨records, _, h⟩ := Got.bind_ok h
  obtain ⟨comments, _, h⟩ := Got.bind_ok h
  obtain ⟨s, _, h⟩ := Got.bind_ok h
  obtain ⟨document, hd, h⟩ := Got.bind_ok h
  obtain ⟨r1, h1, h⟩ := Got.bind_ok h
  obtain ⟨es', hd⟩ := Got.ofRead hd
  obtain ⟨hb1, hb2⟩ := read_bare hd
  have hslots : ∀ i : Nat, (slots document.sectionProperty)[i]?.join = none := by
    rw [hb2]
    intro i
    match i with
    | 0 | 1 | 2 | 3 | 4 | 5 => rfl
    | _ + 6 => rfl
  have hown : ∀ side, (Side.own side document.sectionProperty).length = 0 := by
    intro side
    simp only [slots, List.cons.injEq] at hb2
    obtain ⟨e1, e2, e3, e4, e5, e6, _⟩ := hb2
    cases side <;> simp [Side.own, Side.parts, *]
  obtain ⟨b1, f1⟩ := assigned_books (ids := refIds document.sectionProperty) (r := { file := { DocxFile.new with custom := custom }.setDocument document, themes := themes })
    ⟨(Sound.new.note _).same ⟨rfl, rfl, rfl, rfl, rfl, rfl, rfl⟩, typed_same typed_new rfl rfl, hb1,
      fun side => (hown side).trans (by cases side <;> rfl), rfl, rfl, rfl, rfl, rfl⟩
    ⟨fun i _ => hslots i, fun i x hx => absurd ((hslots i).symm.trans hx) (by simp), rfl⟩ h1
  have b0 := comments_books (cs := comments) (rs := records) b1
  have p1 : ReadBooks (r1.withComments comments records).file := ⟨b0.1, _, b0.2 ▸ f1⟩
  have step : ∀ {d d' : DocxFile}, SameBooks d d' → d'.document = d.document → d'.footnotes = d.footnotes → ReadBooks d → ReadBooks d' :=
    fun e hd hf h => ⟨h.books.same e hd hf, by obtain ⟨ids, h⟩ := h.filling; exact ⟨ids, hd ▸ h⟩⟩
  obtain ⟨r2, h2, h⟩ := Got.bind_ok h
  have p2 := needed_file (P := fun r => ReadBooks r.file) (fun a => step ⟨rfl, rfl, rfl, rfl, rfl, rfl, rfl⟩ rfl rfl) p1 h2
  obtain ⟨r3, h3, h⟩ := Got.bind_ok h
  have p3 := needed_file (P := fun r => ReadBooks r.file) (fun a => step ⟨rfl, rfl, rfl, rfl, rfl, rfl, rfl⟩ rfl rfl) p2 h3
  obtain ⟨r4, h4, h⟩ := Got.bind_ok h
  have p4 := needed_file (P := fun r => ReadBooks r.file) (fun a => step ⟨rfl, rfl, rfl, rfl, rfl, rfl, rfl⟩ rfl rfl) p3 h4
  obtain ⟨r5, h5, h⟩ := Got.bind_ok h
  have p5 := needed_file (P := fun r => ReadBooks r.file) (fun a h => h) p4 h5
  obtain ⟨r6, h6, h⟩ := Got.bind_ok h
  simp only [Got.ok.injEq] at h
  rw [← h]
  show ReadBooks r6.file
  rw [addImages_file h6]
  exact p5

end Docx
