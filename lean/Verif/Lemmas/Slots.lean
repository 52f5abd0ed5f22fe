import Verif.Lemmas.DocRels
import Verif.Spec.Headers

/-!
# The headers and footers of a document made with the builder
-/

namespace Docx

set_option linter.unusedSimpArgs false

open Docx.Spec

/-- The number of headers or footers counted so far. -/
def Side.count : Side → DocxFile → Nat
  | .header, d => d.documentRels.headerCount
  | .footer, d => d.documentRels.footerCount

/-- The section properties of the sections. -/
def sectionsOf (d : Document) : List SectionProperty := d.children.filterMap sectionProp?

/-- The parts of a section property, in order. -/
def Side.own (side : Side) (p : SectionProperty) : List (Str × Header) := (side.parts p).filterMap id

/-- All parts, in the order in which they are written. -/
def Side.all (side : Side) (d : Document) : List (Str × Header) := (sectionProperties d).flatMap (Side.own side)

theorem Side.all_eq (side : Side) (d : Document) :
    Side.all side d = Side.own side d.sectionProperty ++ (sectionsOf d).flatMap (Side.own side) := by
  unfold Side.all sectionsOf
  rw [sectionProperties_eq, List.flatMap_cons]

/-- Parts with the relationship ids from a number on. -/
def Side.numbered (side : Side) (n : Nat) (hs : List Header) : List (Str × Header) :=
  (hs.zipIdx n).map fun x => (side.rid (x.2 + 1), x.1)

theorem Side.numbered_append (side : Side) (n : Nat) (a b : List Header) :
    Side.numbered side n (a ++ b) = Side.numbered side n a ++ Side.numbered side (n + a.length) b := by
  unfold Side.numbered
  rw [List.zipIdx_append, List.map_append]

theorem Side.numbered_length (side : Side) (n : Nat) (a : List Header) : (Side.numbered side n a).length = a.length := by
  simp [Side.numbered]

theorem Side.numbered_snd (side : Side) (n : Nat) (a : List Header) : (Side.numbered side n a).map Prod.snd = a := by
  unfold Side.numbered
  rw [List.map_map]
  show (a.zipIdx n).map Prod.fst = a
  simp

/-- The references of a section property name its parts. -/
def Referred (p : SectionProperty) : Prop :=
  ∀ side : Side, side.references p.base =
    List.zipWith (fun (t : Str) (o : Option (Str × Header)) => o.map fun x => (⟨t, x.1⟩ : PartReference)) referenceTypes (side.parts p)

theorem fresh_referred {p : SectionProperty} (h : Fresh p) : Referred p := by
  intro side
  obtain ⟨h1, h2⟩ := h side
  cases side <;> simp only [Side.parts, Side.references, List.mem_cons, List.not_mem_nil, or_false, forall_eq_or_imp, forall_eq] at h1 h2 ⊢ <;>
    simp [h1, h2, referenceTypes]

/-- What a call does to the parts of one side. -/
structure Effect (side : Side) (c : Call) (d d' : DocxFile) : Prop where
  count : Side.count side d' = Side.count side d + (side.given c).length
  slot : ∀ k, side.slot c = some k → ∃ h, side.given c = [h] ∧
    side.parts d'.document.sectionProperty = (side.parts d.document.sectionProperty).set k (some (side.rid (Side.count side d + 1), h)) ∧
    (sectionsOf d'.document).flatMap (Side.own side) = (sectionsOf d.document).flatMap (Side.own side)
  rest : side.slot c = none → side.parts d'.document.sectionProperty = side.parts d.document.sectionProperty ∧
    (sectionsOf d'.document).flatMap (Side.own side) =
      (sectionsOf d.document).flatMap (Side.own side) ++ Side.numbered side (Side.count side d) (side.given c)
  referred : (∀ p ∈ sectionProperties d.document, Referred p) → ∀ p ∈ sectionProperties d'.document, Referred p

theorem sectionsOf_append (d : Document) (c : DocumentChild) (b : Bool) :
    sectionsOf { d with children := d.children ++ [c], hasNumbering := b } = sectionsOf d ++ (sectionProp? c).toList := by
  unfold sectionsOf
  rw [List.filterMap_append]
  cases h : sectionProp? c <;> simp [h]

/-- A call that changes neither the section property nor the sections nor the counts. -/
theorem Effect.same {side : Side} {c : Call} {d d' : DocxFile} (hs : side.slot c = none) (hg : side.given c = [])
    (h1 : d'.document.sectionProperty = d.document.sectionProperty) (h2 : sectionsOf d'.document = sectionsOf d.document)
    (h3 : Side.count side d' = Side.count side d) : Effect side c d d' where
  count := by rw [hg, h3]; rfl
  slot := by rw [hs]; intro k hk; cases hk
  rest := by
    intro _
    rw [h1, h2, hg]
    exact ⟨rfl, by simp [Side.numbered]⟩
  referred := by
    intro h p hp
    refine h p ?_
    rw [sectionProperties_eq] at hp ⊢
    rw [h1] at hp
    have := h2
    unfold sectionsOf at this
    rwa [this] at hp

/-- A call that changes only the scalars of the section property. -/
theorem Effect.base {side : Side} {c : Call} {d : DocxFile} (f : SectionBase → SectionBase) (hs : side.slot c = none)
    (hg : side.given c = []) (hf : ∀ (sd : Side) b, sd.references (f b) = sd.references b) : Effect side c d (d.updBase f) where
  count := by rw [hg]; cases side <;> rfl
  slot := by rw [hs]; intro k hk; cases hk
  rest := by
    intro _
    rw [hg]
    exact ⟨by cases side <;> rfl, by simp [Side.numbered, DocxFile.updBase, DocxFile.updProperty, sectionsOf]⟩
  referred := by
    intro h p hp
    rw [sectionProperties_eq] at hp h
    rcases List.mem_cons.1 hp with rfl | hp
    · intro sd
      have := h _ (.head _) sd
      show sd.references (f d.document.sectionProperty.base) = _
      rw [hf, this]
      cases sd <;> rfl
    · exact h p (.tail _ hp)

theorem referred_upd {d : DocxFile} {f : SectionProperty → SectionProperty} (hf : ∀ p, Referred p → Referred (f p))
    (h : ∀ p ∈ sectionProperties d.document, Referred p) : ∀ p ∈ sectionProperties (d.updProperty f).document, Referred p := by
  intro p hp
  rw [sectionProperties_eq] at hp h
  rcases List.mem_cons.1 hp with rfl | hp
  · exact hf _ (h _ (.head _))
  · exact h p (.tail _ hp)

theorem referred_set {p : SectionProperty} (h : Referred p) (x : Header) (r : Str) :
    Referred (p.setHeader x r) ∧ Referred (p.setFirstHeader x r) ∧ Referred (p.setEvenHeader x r) ∧
    Referred (p.setFooter x r) ∧ Referred (p.setFirstFooter x r) ∧ Referred (p.setEvenFooter x r) := by
  have h1 := h .header
  have h2 := h .footer
  simp only [Side.references, Side.parts, referenceTypes, List.zipWith_cons_cons, List.zipWith_nil_left, List.cons.injEq, and_true] at h1 h2
  obtain ⟨a1, a2, a3⟩ := h1
  obtain ⟨b1, b2, b3⟩ := h2
  refine ⟨?_, ?_, ?_, ?_, ?_, ?_⟩ <;> intro sd <;> cases sd <;>
    simp [Side.references, Side.parts, referenceTypes, SectionProperty.setHeader, SectionProperty.setFirstHeader,
      SectionProperty.setEvenHeader, SectionProperty.setFooter, SectionProperty.setFirstFooter, SectionProperty.setEvenFooter,
      a1, a2, a3, b1, b2, b3]

/-- What attaching the parts of a section does. -/
structure Attached (d : DocxFile) (p : SectionProperty) (hs fs : List Header) (x : DocxFile × SectionProperty) : Prop where
  document : x.1.document = d.document
  headers : x.1.documentRels.headerCount = d.documentRels.headerCount + hs.length
  footers : x.1.documentRels.footerCount = d.documentRels.footerCount + fs.length
  ownHeaders : Side.own .header x.2 = Side.own .header p ++ Side.numbered .header d.documentRels.headerCount hs
  ownFooters : Side.own .footer x.2 = Side.own .footer p ++ Side.numbered .footer d.documentRels.footerCount fs
  referred : Referred x.2

theorem attachParts_attached (d : DocxFile) (s : Section) (hf : Fresh s.property) :
    Attached d s.property ((Side.header.ofSection s).filterMap id) ((Side.footer.ofSection s).filterMap id) (d.attachParts s) := by
  obtain ⟨h1, _⟩ := hf .header
  obtain ⟨h2, _⟩ := hf .footer
  have h3 := fresh_referred hf
  simp only [Side.parts, List.mem_cons, List.not_mem_nil, or_false, forall_eq_or_imp, forall_eq] at h1 h2
  obtain ⟨a1, a2, a3⟩ := h1
  obtain ⟨b1, b2, b3⟩ := h2
  obtain ⟨p, cs, n, t1, t2, t3, u1, u2, u3⟩ := s
  dsimp only at a1 a2 a3 b1 b2 b3 h3
  have hr := @referred_set
  refine ⟨?_, ?_, ?_, ?_, ?_, ?_⟩
  · cases t1 <;> cases t2 <;> cases t3 <;> cases u1 <;> cases u2 <;> cases u3 <;> rfl
  · cases t1 <;> cases t2 <;> cases t3 <;> cases u1 <;> cases u2 <;> cases u3 <;> rfl
  · cases t1 <;> cases t2 <;> cases t3 <;> cases u1 <;> cases u2 <;> cases u3 <;> rfl
  · cases t1 <;> cases t2 <;> cases t3 <;> cases u1 <;> cases u2 <;> cases u3 <;>
      simp only [DocxFile.attachParts, attachHeader, attachFooter, Side.own, Side.parts, SectionProperty.setHeader, SectionProperty.setFirstHeader,
        SectionProperty.setEvenHeader, SectionProperty.setFooter, SectionProperty.setFirstFooter, SectionProperty.setEvenFooter, a1, a2, a3] <;> rfl
  · cases t1 <;> cases t2 <;> cases t3 <;> cases u1 <;> cases u2 <;> cases u3 <;>
      simp only [DocxFile.attachParts, attachHeader, attachFooter, Side.own, Side.parts, SectionProperty.setHeader, SectionProperty.setFirstHeader,
        SectionProperty.setEvenHeader, SectionProperty.setFooter, SectionProperty.setFirstFooter, SectionProperty.setEvenFooter, b1, b2, b3] <;> rfl
  · have ah : ∀ (o : Option Header) (x : DocxFile × SectionProperty), Referred x.2 →
        Referred (attachHeader o .setHeader x).2 ∧ Referred (attachHeader o .setFirstHeader x).2 ∧ Referred (attachHeader o .setEvenHeader x).2 := by
      intro o x hx
      cases o with
      | none => exact ⟨hx, hx, hx⟩
      | some o =>
        have := referred_set hx o x.1.nextHeaderRid
        exact ⟨this.1, this.2.1, this.2.2.1⟩
    have af : ∀ (o : Option Header) (x : DocxFile × SectionProperty), Referred x.2 →
        Referred (attachFooter o .setFooter x).2 ∧ Referred (attachFooter o .setFirstFooter x).2 ∧ Referred (attachFooter o .setEvenFooter x).2 := by
      intro o x hx
      cases o with
      | none => exact ⟨hx, hx, hx⟩
      | some o =>
        have := referred_set hx o x.1.nextFooterRid
        exact ⟨this.2.2.2.1, this.2.2.2.2.1, this.2.2.2.2.2⟩
    unfold DocxFile.attachParts
    exact (af _ _ (af _ _ (af _ _ (ah _ _ (ah _ _ (ah _ _ h3).1).2.1).2.2).1).2.1).2.2

theorem own_fresh {p : SectionProperty} (h : Fresh p) (side : Side) : Side.own side p = [] := by
  unfold Side.own
  rw [List.filterMap_eq_nil_iff]
  intro o ho
  rw [(h side).1 o ho]
  rfl

/-- What each call does. -/
theorem call_effect {side : Side} {d d' : DocxFile} {c : Call} (e : d.call c = some d') (hn : ∀ x, c ≠ .document x)
    (hf : ∀ s, c = .addSection s → Fresh s.property) : Effect side c d d' := by
  cases c with
  | document x => exact absurd rfl (hn x)
  | addSection s =>
    simp only [DocxFile.call, Option.some.injEq] at e
    subst e
    have ha := attachParts_attached d s (hf s rfl)
    have h0 := own_fresh (hf s rfl)
    have hsec : sectionsOf (d.addSection s).document = sectionsOf d.document ++ [(d.attachParts s).2] := by
      unfold DocxFile.addSection Document.addSection
      dsimp only
      rw [ha.document]
      unfold sectionsOf
      rw [List.filterMap_append]
      rfl
    have hprop : (d.addSection s).document.sectionProperty = d.document.sectionProperty := by
      unfold DocxFile.addSection Document.addSection
      dsimp only
      rw [ha.document]
    refine ⟨?_, ?_, ?_, ?_⟩
    · cases side
      · exact ha.headers
      · exact ha.footers
    · intro k hk; cases side <;> cases hk
    · intro _
      refine ⟨by rw [hprop], ?_⟩
      rw [hsec, List.flatMap_append, List.flatMap_cons, List.flatMap_nil, List.append_nil]
      congr 1
      cases side
      · rw [ha.ownHeaders, h0]; rfl
      · rw [ha.ownFooters, h0]; rfl
    · intro h p hp
      rw [sectionProperties_eq] at hp h
      rcases List.mem_cons.1 hp with rfl | hp
      · rw [hprop]; exact h _ (.head _)
      · have : p ∈ sectionsOf (d.addSection s).document := hp
        rw [hsec] at this
        rcases List.mem_append.1 this with h' | h'
        · exact h p (.tail _ h')
        · rw [List.mem_singleton] at h'
          rw [h']
          exact ha.referred
  | header h =>
    simp only [DocxFile.call, Option.some.injEq] at e
    subst e
    cases side with
    | header =>
      exact ⟨rfl, fun k hk => by cases hk; exact ⟨h, rfl, rfl, rfl⟩, fun hk => (by cases hk),
        referred_upd (d := d.countHeader h) fun p hp => (referred_set hp _ _).1⟩
    | footer =>
      exact ⟨rfl, fun k hk => (by cases hk), fun _ => ⟨rfl, by simp [Side.numbered, Side.given]; rfl⟩,
        referred_upd (d := d.countHeader h) fun p hp => (referred_set hp _ _).1⟩
  | firstHeader h =>
    simp only [DocxFile.call, Option.some.injEq] at e
    subst e
    cases side with
    | header =>
      exact ⟨rfl, fun k hk => by cases hk; exact ⟨h, rfl, rfl, rfl⟩, fun hk => (by cases hk),
        referred_upd (d := d.countHeader h) fun p hp => (referred_set hp _ _).2.1⟩
    | footer =>
      exact ⟨rfl, fun k hk => (by cases hk), fun _ => ⟨rfl, by simp [Side.numbered, Side.given]; rfl⟩,
        referred_upd (d := d.countHeader h) fun p hp => (referred_set hp _ _).2.1⟩
  | evenHeader h =>
    simp only [DocxFile.call, Option.some.injEq] at e
    subst e
    cases side with
    | header =>
      exact ⟨rfl, fun k hk => by cases hk; exact ⟨h, rfl, rfl, rfl⟩, fun hk => (by cases hk),
        referred_upd (d := d.countHeader h) fun p hp => (referred_set hp _ _).2.2.1⟩
    | footer =>
      exact ⟨rfl, fun k hk => (by cases hk), fun _ => ⟨rfl, by simp [Side.numbered, Side.given]; rfl⟩,
        referred_upd (d := d.countHeader h) fun p hp => (referred_set hp _ _).2.2.1⟩
  | footer h =>
    simp only [DocxFile.call, Option.some.injEq] at e
    subst e
    cases side with
    | header =>
      exact ⟨rfl, fun k hk => (by cases hk), fun _ => ⟨rfl, by simp [Side.numbered, Side.given]; rfl⟩,
        referred_upd (d := d.countFooter h) fun p hp => (referred_set hp _ _).2.2.2.1⟩
    | footer =>
      exact ⟨rfl, fun k hk => by cases hk; exact ⟨h, rfl, rfl, rfl⟩, fun hk => (by cases hk),
        referred_upd (d := d.countFooter h) fun p hp => (referred_set hp _ _).2.2.2.1⟩
  | firstFooter h =>
    simp only [DocxFile.call, Option.some.injEq] at e
    subst e
    cases side with
    | header =>
      exact ⟨rfl, fun k hk => (by cases hk), fun _ => ⟨rfl, by simp [Side.numbered, Side.given]; rfl⟩,
        referred_upd (d := d.countFooter h) fun p hp => (referred_set hp _ _).2.2.2.2.1⟩
    | footer =>
      exact ⟨rfl, fun k hk => by cases hk; exact ⟨h, rfl, rfl, rfl⟩, fun hk => (by cases hk),
        referred_upd (d := d.countFooter h) fun p hp => (referred_set hp _ _).2.2.2.2.1⟩
  | evenFooter h =>
    simp only [DocxFile.call, Option.some.injEq] at e
    subst e
    cases side with
    | header =>
      exact ⟨rfl, fun k hk => (by cases hk), fun _ => ⟨rfl, by simp [Side.numbered, Side.given]; rfl⟩,
        referred_upd (d := d.countFooter h) fun p hp => (referred_set hp _ _).2.2.2.2.2⟩
    | footer =>
      exact ⟨rfl, fun k hk => by cases hk; exact ⟨h, rfl, rfl, rfl⟩, fun hk => (by cases hk),
        referred_upd (d := d.countFooter h) fun p hp => (referred_set hp _ _).2.2.2.2.2⟩
  | addParagraph p =>
    simp only [DocxFile.call, Option.some.injEq] at e
    subst e
    exact .same (by cases side <;> rfl) (by cases side <;> rfl) rfl ((sectionsOf_append _ _ _).trans (List.append_nil _)) (by cases side <;> rfl)
  | addTable p =>
    simp only [DocxFile.call, Option.some.injEq] at e
    subst e
    exact .same (by cases side <;> rfl) (by cases side <;> rfl) rfl ((sectionsOf_append _ _ _).trans (List.append_nil _)) (by cases side <;> rfl)
  | addSdt p =>
    simp only [DocxFile.call, Option.some.injEq] at e
    subst e
    exact .same (by cases side <;> rfl) (by cases side <;> rfl) rfl ((sectionsOf_append _ _ _).trans (List.append_nil _)) (by cases side <;> rfl)
  | addToc p =>
    simp only [DocxFile.call, Option.some.injEq] at e
    subst e
    exact .same (by cases side <;> rfl) (by cases side <;> rfl) rfl ((sectionsOf_append d.document (.toc p) d.document.hasNumbering).trans (List.append_nil _)) (by cases side <;> rfl)
  | addBookmarkStart i n =>
    simp only [DocxFile.call, Option.some.injEq] at e
    subst e
    exact .same (by cases side <;> rfl) (by cases side <;> rfl) rfl ((sectionsOf_append d.document (.bookmarkStart i n) d.document.hasNumbering).trans (List.append_nil _)) (by cases side <;> rfl)
  | addBookmarkEnd i =>
    simp only [DocxFile.call, Option.some.injEq] at e
    subst e
    exact .same (by cases side <;> rfl) (by cases side <;> rfl) rfl ((sectionsOf_append d.document (.bookmarkEnd i) d.document.hasNumbering).trans (List.append_nil _)) (by cases side <;> rfl)
  | titlePg =>
    simp only [DocxFile.call, Option.some.injEq] at e
    subst e
    exact .base _ (by cases side <;> rfl) (by cases side <;> rfl) fun sd b => by cases sd <;> rfl
  | pageSize a b =>
    simp only [DocxFile.call, Option.some.injEq] at e
    subst e
    exact .base _ (by cases side <;> rfl) (by cases side <;> rfl) fun sd b => by cases sd <;> rfl
  | pageMargin m =>
    simp only [DocxFile.call, Option.some.injEq] at e
    subst e
    exact .base _ (by cases side <;> rfl) (by cases side <;> rfl) fun sd b => by cases sd <;> rfl
  | pageOrient o =>
    simp only [DocxFile.call, Option.some.injEq] at e
    subst e
    exact .base _ (by cases side <;> rfl) (by cases side <;> rfl) fun sd b => by cases sd <;> rfl
  | pageNumType o =>
    simp only [DocxFile.call, Option.some.injEq] at e
    subst e
    exact .base _ (by cases side <;> rfl) (by cases side <;> rfl) fun sd b => by cases sd <;> rfl
  | addCustomItem i x =>
    simp only [DocxFile.call] at e
    split at e
    · simp only [Option.some.injEq] at e
      subst e
      exact .same (by cases side <;> rfl) (by cases side <;> rfl) rfl rfl (by cases side <;> rfl)
    · exact absurd e (by simp)
  | _ =>
    simp only [DocxFile.call, Option.some.injEq] at e
    subst e
    exact .same (by cases side <;> rfl) (by cases side <;> rfl) rfl rfl (by cases side <;> rfl)


theorem calls_cons {d d' : DocxFile} {c : Call} {cs : List Call} (h : d.calls (c :: cs) = some d') :
    ∃ x, d.call c = some x ∧ x.calls cs = some d' := by
  rw [DocxFile.calls] at h
  cases e : d.call c with
  | none => rw [e] at h; exact absurd h (by simp)
  | some x => rw [e] at h; exact ⟨x, rfl, h⟩

theorem plainly_tail {c : Call} {cs : List Call} (h : Plainly (c :: cs)) : Plainly cs :=
  ⟨fun x hx => h.1 x (.tail _ hx), fun s hs => h.2 s (.tail _ hs)⟩

theorem plainly_effect {c : Call} {cs : List Call} (h : Plainly (c :: cs)) {d d' : DocxFile} (e : d.call c = some d') (side : Side) :
    Effect side c d d' :=
  call_effect e (fun x hx => h.1 x (by rw [hx]; exact .head _)) fun s hs => h.2 s (by rw [hs]; exact .head _)

theorem parts_three (side : Side) (p : SectionProperty) : ∃ a b c, side.parts p = [a, b, c] := by
  cases side <;> exact ⟨_, _, _, rfl⟩

theorem slot_lt {side : Side} {c : Call} {k : Nat} (h : side.slot c = some k) : k = 0 ∨ k = 1 ∨ k = 2 := by
  cases side <;> cases c <;> simp [Side.slot] at h <;> omega

theorem slot_given {side : Side} {c : Call} {k : Nat} (h : side.slot c = some k) : ∃ x, side.given c = [x] := by
  cases side <;> cases c <;> simp [Side.slot] at h <;> exact ⟨_, rfl⟩

theorem calls_count {side : Side} : ∀ (cs : List Call) (d d' : DocxFile), Plainly cs → d.calls cs = some d' →
    Side.count side d' = Side.count side d + (cs.flatMap side.given).length
  | [], d, d', _, h => by
    simp only [DocxFile.calls, Option.some.injEq] at h
    simp [h]
  | c :: cs, d, d', hp, h => by
    obtain ⟨x, h1, h2⟩ := calls_cons h
    have e := plainly_effect hp h1 side
    rw [calls_count cs x d' (plainly_tail hp) h2, e.count, List.flatMap_cons, List.length_append, Nat.add_assoc]

theorem calls_referred : ∀ (cs : List Call) (d d' : DocxFile), Plainly cs → d.calls cs = some d' →
    (∀ p ∈ sectionProperties d.document, Referred p) → ∀ p ∈ sectionProperties d'.document, Referred p
  | [], d, d', _, h, hr => by
    simp only [DocxFile.calls, Option.some.injEq] at h
    rwa [← h]
  | c :: cs, d, d', hp, h, hr => by
    obtain ⟨x, h1, h2⟩ := calls_cons h
    exact calls_referred cs x d' (plainly_tail hp) h2 ((plainly_effect hp h1 .header).referred hr)

theorem filterMap_set_length {α : Type} : ∀ (l : List (Option α)) (k : Nat) (x : α), l[k]? = some none →
    ((l.set k (some x)).filterMap id).length = (l.filterMap id).length + 1
  | [], k, x, h => by simp at h
  | a :: l, 0, x, h => by
    simp only [List.getElem?_cons_zero, Option.some.injEq] at h
    simp [h]
  | a :: l, k + 1, x, h => by
    simp only [List.getElem?_cons_succ] at h
    have ih := filterMap_set_length l k x h
    cases a <;> simpa using ih

/-- When no slot is set twice, there are as many parts as were counted. -/
theorem calls_length {side : Side} : ∀ (cs : List Call) (d d' : DocxFile), Plainly cs → Once side cs → d.calls cs = some d' →
    (∀ k ∈ cs.filterMap side.slot, (side.parts d.document.sectionProperty)[k]? = some none) →
    (Side.all side d.document).length = Side.count side d → (Side.all side d'.document).length = Side.count side d'
  | [], d, d', _, _, h, _, hl => by
    simp only [DocxFile.calls, Option.some.injEq] at h
    rwa [← h]
  | c :: cs, d, d', hp, ho, h, hk, hl => by
    obtain ⟨x, h1, h2⟩ := calls_cons h
    have e := plainly_effect hp h1 side
    unfold Once at ho
    rw [Side.all_eq, List.length_append] at hl
    cases hs : side.slot c with
    | none =>
      rw [List.filterMap_cons_none hs] at ho hk
      obtain ⟨e1, e2⟩ := e.rest hs
      refine calls_length cs x d' (plainly_tail hp) ho h2 (by rw [e1]; exact hk) ?_
      rw [Side.all_eq, e2, e.count, List.length_append, List.length_append, Side.numbered_length]
      unfold Side.own at hl ⊢
      rw [e1]
      omega
    | some k =>
      rw [List.filterMap_cons_some hs] at ho hk
      rw [List.nodup_cons] at ho
      obtain ⟨y, e0, e1, e2⟩ := e.slot k hs
      refine calls_length cs x d' (plainly_tail hp) ho.2 h2 ?_ ?_
      · intro j hj
        rw [e1, List.getElem?_set_ne (show k ≠ j from fun hjk => ho.1 (by rw [hjk]; exact hj))]
        exact hk j (.tail _ hj)
      · rw [Side.all_eq, e2, e.count, e0, List.length_append]
        unfold Side.own at hl ⊢
        rw [e1, filterMap_set_length _ _ _ (hk k (.head _))]
        simp only [List.length_cons, List.length_nil]
        omega

theorem filterMap_set_last {α : Type} : ∀ (l : List (Option α)) (k : Nat) (x : α), k < l.length →
    (∀ j, k ≤ j → ∀ o, l[j]? = some o → o = none) →
    (l.set k (some x)).filterMap id = l.filterMap id ++ [x]
  | [], k, x, h, _ => by simp at h
  | a :: l, 0, x, h, hn => by
    have h0 : a = none := hn 0 (Nat.le_refl _) a rfl
    have : l.filterMap id = [] := by
      rw [List.filterMap_eq_nil_iff]
      intro o ho
      obtain ⟨j, hj⟩ := List.mem_iff_getElem?.1 ho
      rw [hn (j + 1) (Nat.zero_le _) o (by simpa using hj)]
      rfl
    rw [h0, List.set_cons_zero]
    show x :: l.filterMap id = l.filterMap id ++ [x]
    rw [this]
    rfl
  | a :: l, k + 1, x, h, hn => by
    have ih := filterMap_set_last l k x (by simpa using h) fun j hj o ho => hn (j + 1) (by omega) o (by simpa using ho)
    cases a <;> simpa using ih

/-- When the parts are given in order, they are numbered in the order in which they are written. -/
theorem calls_numbered {side : Side} : ∀ (cs : List Call) (d d' : DocxFile) (gs : List Header), Plainly cs → InOrder side cs →
    d.calls cs = some d' →
    (∀ k ∈ cs.filterMap side.rank, k < 3 → (sectionsOf d.document).flatMap (Side.own side) = [] ∧
      ∀ j, k ≤ j → ∀ o, (side.parts d.document.sectionProperty)[j]? = some o → o = none) →
    Side.count side d = gs.length → Side.all side d.document = Side.numbered side 0 gs →
    Side.all side d'.document = Side.numbered side 0 (gs ++ cs.flatMap side.given)
  | [], d, d', gs, _, _, h, _, _, ha => by
    simp only [DocxFile.calls, Option.some.injEq] at h
    rw [← h, ha]
    simp
  | c :: cs, d, d', gs, hp, ho, h, hk, hc, ha => by
    obtain ⟨x, h1, h2⟩ := calls_cons h
    have e := plainly_effect hp h1 side
    have hcount : Side.count side x = (gs ++ side.given c).length := by rw [e.count, hc, List.length_append]
    rw [List.flatMap_cons, ← List.append_assoc]
    unfold InOrder at ho
    cases hs : side.slot c with
    | none =>
      obtain ⟨e1, e2⟩ := e.rest hs
      have hall : Side.all side x.document = Side.numbered side 0 (gs ++ side.given c) := by
        rw [Side.all_eq] at ha ⊢
        rw [e2, ← List.append_assoc, Side.numbered_append, Nat.zero_add, ← hc]
        congr 1
        rw [← ha]
        unfold Side.own
        rw [e1]
      by_cases hg : side.given c = []
      · have hr : side.rank c = none := by simp [Side.rank, hs, hg]
        rw [List.filterMap_cons_none hr] at ho hk
        refine calls_numbered cs x d' _ (plainly_tail hp) ho h2 ?_ hcount hall
        rw [e1, e2, hg]
        simpa [Side.numbered] using hk
      · have hr : side.rank c = some 3 := by simp [Side.rank, hs, hg]
        rw [List.filterMap_cons_some hr, List.pairwise_cons] at ho
        refine calls_numbered cs x d' _ (plainly_tail hp) ho.2 h2 ?_ hcount hall
        intro k hkm hk3
        have := ho.1 k hkm
        omega
    | some k =>
      have hr : side.rank c = some k := by simp [Side.rank, hs]
      rw [List.filterMap_cons_some hr] at ho hk
      rw [List.pairwise_cons] at ho
      have hk3 := slot_lt hs
      obtain ⟨y, e0, e1, e2⟩ := e.slot k hs
      obtain ⟨hempty, hfree⟩ := hk k (.head _) (by omega)
      have hlen : k < (side.parts d.document.sectionProperty).length := by
        obtain ⟨a, b, c', e3⟩ := parts_three side d.document.sectionProperty
        rw [e3]
        simp only [List.length_cons, List.length_nil]
        omega
      refine calls_numbered cs x d' _ (plainly_tail hp) ho.2 h2 ?_ hcount ?_
      · intro j hj hj3
        have hkj := ho.1 j hj
        refine ⟨by rw [e2]; exact hempty, fun i hi o ho' => ?_⟩
        rw [e1, List.getElem?_set_ne (by omega)] at ho'
        exact hfree i (by omega) o ho'
      · rw [Side.all_eq] at ha ⊢
        rw [e2, hempty, List.append_nil, Side.numbered_append, Nat.zero_add, e0, ← hc]
        rw [hempty, List.append_nil] at ha
        unfold Side.own at ha ⊢
        rw [e1, filterMap_set_last _ _ _ hlen hfree, ha]
        rfl

theorem new_parts (side : Side) : side.parts DocxFile.new.document.sectionProperty = [none, none, none] := by cases side <;> rfl
theorem new_all (side : Side) : Side.all side DocxFile.new.document = [] := by cases side <;> rfl
theorem new_count (side : Side) : Side.count side DocxFile.new = 0 := by cases side <;> rfl

theorem new_referred : ∀ p ∈ sectionProperties DocxFile.new.document, Referred p := by
  intro p hp
  rw [sectionProperties_eq] at hp
  rcases List.mem_cons.1 hp with rfl | hp
  · intro side; cases side <;> rfl
  · cases hp

/-- There are as many parts as were counted. -/
theorem all_length {side : Side} {cs : List Call} {d : DocxFile} (hp : Plainly cs) (ho : Once side cs)
    (h : DocxFile.new.calls cs = some d) : (Side.all side d.document).length = Side.count side d := by
  refine calls_length cs _ d hp ho h ?_ (by rw [new_all, new_count]; rfl)
  intro k hk
  obtain ⟨c, _, hc⟩ := List.mem_filterMap.1 hk
  rw [new_parts]
  rcases slot_lt hc with rfl | rfl | rfl <;> rfl

/-- The parts are numbered in the order in which they are written. -/
theorem all_numbered {side : Side} {cs : List Call} {d : DocxFile} (hp : Plainly cs) (ho : InOrder side cs)
    (h : DocxFile.new.calls cs = some d) : Side.all side d.document = Side.numbered side 0 (cs.flatMap side.given) := by
  refine calls_numbered cs _ d [] hp ho h ?_ (by rw [new_count]; rfl) (by rw [new_all]; rfl)
  intro k _ _
  refine ⟨by cases side <;> rfl, fun j _ o ho => ?_⟩
  rw [new_parts] at ho
  have := List.mem_of_getElem? ho
  simpa using this

theorem referred {cs : List Call} {d : DocxFile} (hp : Plainly cs) (h : DocxFile.new.calls cs = some d) :
    ∀ p ∈ sectionProperties d.document, Referred p := calls_referred cs _ d hp h new_referred

theorem count_given {side : Side} {cs : List Call} {d : DocxFile} (hp : Plainly cs) (h : DocxFile.new.calls cs = some d) :
    Side.count side d = (cs.flatMap side.given).length := by
  rw [calls_count cs _ d hp h, new_count, Nat.zero_add]

end Docx
