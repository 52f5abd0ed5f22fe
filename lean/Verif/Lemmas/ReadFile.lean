import Verif.Model.ReadDocx
import Verif.Spec.Targets
import Verif.Lemmas.PackageSame
import Verif.Lemmas.ReadRels

/-! # What reading a file does with its parts -/

namespace Docx

open Docx.Xml Docx.Spec

/-! ## Every written part begins with a tag -/

theorem Writer.write_appends {w w' : Writer} {e : Event} (h : w.write e = .ok w') : ∃ t, w'.out = w.out ++ t := by
  have hf : ∀ w : Writer, ∃ t, w.flushPending.out = w.out ++ t := by
    intro w
    unfold Writer.flushPending
    split
    · split
      · exact ⟨_, by simp only [List.append_assoc]; rfl⟩
      · exact ⟨[], by simp⟩
    · exact ⟨[], by simp⟩
  cases e with
  | startDocument v enc sa => cases h; exact ⟨_, rfl⟩
  | start e =>
    simp only [Writer.write] at h
    cases e1 : slice e.encoded 1 (1 + e.nameLen) with
    | error x => rw [e1] at h; cases h
    | ok name => rw [e1] at h; cases h; exact hf w
  | «end» =>
    simp only [Writer.write] at h
    split at h
    · cases h
    · split at h
      · cases h; exact ⟨_, by simp only [List.append_assoc]; rfl⟩
      · rename_i state rest _ _
        cases e1 : slice w.names state.nameStart (state.nameStart + state.nameLen) with
        | error x => rw [e1] at h; cases h
        | ok name => rw [e1] at h; cases h; exact ⟨_, by simp only [List.append_assoc]; rfl⟩
  | chars t =>
    cases h
    obtain ⟨u, hu⟩ := hf w
    exact ⟨u ++ t, by simp only [hu, List.append_assoc]⟩

theorem Writer.run_appends : ∀ (es : List Event) {w w' : Writer}, w.run es = .ok w' → ∃ t, w'.out = w.out ++ t
  | [], w, w', h => by cases h; exact ⟨[], by simp⟩
  | e :: es, w, w', h => by
    simp only [Writer.run] at h
    cases e1 : w.write e with
    | error x => rw [e1] at h; cases h
    | ok v =>
      rw [e1] at h
      obtain ⟨t, ht⟩ := Writer.write_appends e1
      obtain ⟨u, hu⟩ := Writer.run_appends es h
      exact ⟨t ++ u, by rw [hu, ht, List.append_assoc]⟩

/-- The part begins with a tag. -/
def Part.Opens (p : Part) : Prop := ∀ s g g', p g = some (.ok s, g') → s.head? = some '<'

theorem writePart_opens (sa : Option Bool) (b : B) : Part.Opens (writePart sa b) := by
  intro s g g' h
  unfold writePart at h
  cases e : b g with
  | none => rw [e] at h; cases h
  | some r =>
    rw [e] at h
    simp only [Option.some.injEq, Prod.mk.injEq] at h
    have h := h.1
    unfold render at h
    cases e1 : ({} : Writer).run (declarationEvent sa :: r.1.map tagEvent) with
    | error x =>
      rw [e1] at h
      cases h
    | ok w =>
      rw [e1] at h
      cases h
      simp only [Writer.run] at e1
      have : ({} : Writer).write (declarationEvent sa) = .ok { out := declaration c!"1.0" (some c!"UTF-8") sa } := rfl
      rw [this] at e1
      obtain ⟨t, ht⟩ := Writer.run_appends _ e1
      show w.out.head? = _
      rw [ht]
      rfl

theorem Part.Const.opens {p : Part} {t : Str} (h : p.Const t) (ht : t.head? = some '<') : p.Opens := by
  intro s g g' e
  rw [h g] at e
  simp only [Option.some.injEq, Prod.mk.injEq, Except.ok.injEq] at e
  rw [← e.1]
  exact ht

theorem constText_opens (sa : Option Bool) (f : List Node) : (constText sa f).head? = some '<' := rfl

theorem readText_opens {es : List Entry} (h : (es.map Entry.name).Nodup) {name s : Str} (he : ⟨name, .text s⟩ ∈ es) (hn : LookedUp name)
    (hs : s.head? = some '<') : readText es name = some s := by
  unfold readText
  rw [readZip_of h he hn]
  cases s with
  | nil => cases hs
  | cons c s =>
    cases hs
    rfl

/-! ## What is found of a type -/

theorem Spec.Finds.none {m : ReadRels} {folder : Str} {rs : List Relation} (h : Finds m folder rs) {ty : Str} (hn : ∀ r ∈ rs, r.type ≠ ty) :
    (m.targets ty).getD [] = [] := by
  cases e : m.targets ty with
  | none => rfl
  | some ts =>
    cases ts with
    | nil => rfl
    | cons t ts =>
      obtain ⟨r, hr, hty, _⟩ := (h.mem ty t).1 ⟨_, e, .head _⟩
      exact absurd hty (hn r hr)

theorem Spec.Finds.firstNone {m : ReadRels} {folder : Str} {rs : List Relation} (h : Finds m folder rs) {ty : Str} (hn : ∀ r ∈ rs, r.type ≠ ty) :
    firstTarget m ty = Option.none := by
  have := h.none hn
  unfold firstTarget
  cases e : m.targets ty with
  | none => rfl
  | some ts => rw [e] at this; simp only [Option.getD_some] at this; rw [this]; rfl

theorem Spec.Finds.first {m : ReadRels} {folder : Str} {rs : List Relation} (h : Finds m folder rs) {ty : Str} {r : Relation} (hr : r ∈ rs)
    (ht : r.type = ty) (hu : ∀ q ∈ rs, q.type = ty → q = r) : firstTarget m ty = some ⟨r.id, placeOf folder r, r.mode⟩ := by
  obtain ⟨ts, e, hm⟩ := (h.mem ty ⟨r.id, placeOf folder r, r.mode⟩).2 ⟨r, hr, ht, rfl⟩
  unfold firstTarget
  rw [e]
  cases ts with
  | nil => cases hm
  | cons t ts =>
    obtain ⟨q, hq, hqt, et⟩ := (h.mem ty t).1 ⟨_, e, .head _⟩
    rw [hu q hq hqt] at et
    rw [et]
    rfl

theorem strictOrder_irrefl (a : Str) : compareStr a a ≠ .lt := by
  intro h
  have : ∀ a : Str, compareStr a a = .eq := by
    intro a
    induction a with
    | nil => rfl
    | cons c a ih => simp [compareStr, ih]
  rw [this] at h
  cases h

/-- The targets of a type have different ids. -/
theorem Spec.Finds.ids_nodup {m : ReadRels} {folder : Str} {rs : List Relation} (h : Finds m folder rs) (ty : Str) :
    (((m.targets ty).getD []).map (·.rid)).Nodup := by
  cases e : m.targets ty with
  | none => exact .nil
  | some ts =>
    have := h.order ty ts e
    rw [Option.getD_some, List.Nodup, List.pairwise_map]
    refine this.imp fun {a b} hab => fun heq => ?_
    rw [heq] at hab
    exact strictOrder_irrefl _ hab

theorem Spec.Finds.mem_targets {m : ReadRels} {folder : Str} {rs : List Relation} (h : Finds m folder rs) (ty : Str) (t : Target) :
    t ∈ (m.targets ty).getD [] ↔ ∃ r ∈ rs, r.type = ty ∧ t = ⟨r.id, placeOf folder r, r.mode⟩ := by
  rw [← h.mem ty t]
  cases e : m.targets ty with
  | none => simp
  | some ts => simp

/-! ## Pictures never stop the reading -/

theorem isEmf_some (path : Str) (b : Bytes) : ∃ v, isEmf path b = some v := by
  unfold isEmf
  split
  · exact ⟨_, rfl⟩
  · split
    · rename_i h
      have h1 : slice? b 0 4 = some ((b.drop 0).take 4) := by unfold slice?; rw [if_pos (by omega)]
      have h2 : slice? b 40 44 = some ((b.drop 40).take 4) := by unfold slice?; rw [if_pos (by omega)]
      rw [h1, h2]
      simp only [Option.bind_some, Option.map_some]
      split <;> exact ⟨_, rfl⟩
    · exact ⟨_, rfl⟩

theorem ReadFile.addImage_ok (e : FileEnv) (r : ReadFile) (id path : Str) (b : Bytes) :
    ∃ l, r.addImage e id path b = .ok { r with images := l } := by
  unfold ReadFile.addImage addImageWithOptions
  obtain ⟨v, hv⟩ := isEmf_some path b
  rw [hv]
  exact ⟨_, rfl⟩

theorem addImagesFrom_ok (e : FileEnv) (es : List Entry) : ∀ (ts : List Target) (r : ReadFile),
    ∃ l, addImagesFrom e es ts r = .ok { r with images := l }
  | [], r => ⟨r.images, rfl⟩
  | t :: ts, r => by
    unfold addImagesFrom
    cases readZip es t.path with
    | none => exact addImagesFrom_ok e es ts r
    | some c =>
      obtain ⟨l, hl⟩ := r.addImage_ok e t.rid t.path c.toBytes
      obtain ⟨l', hl'⟩ := addImagesFrom_ok e es ts { r with images := l }
      refine ⟨l', ?_⟩
      dsimp only
      rw [hl]
      exact hl'

theorem addImages_ok (e : FileEnv) (es : List Entry) (m : ReadRels) (r : ReadFile) :
    ∃ l, addImages e es m r = .ok { r with images := l } := addImagesFrom_ok e es _ r

/-! ## Headers and footers are put in their places -/

/-- The same file but for the properties of the last section, the pictures, and the counts and types of parts. -/
structure ReadFile.Same (r r' : ReadFile) : Prop where
  file : { r'.file with
    document := { r'.file.document with sectionProperty := r.file.document.sectionProperty }
    documentRels := r.file.documentRels
    contentType := r.file.contentType } = r.file
  themes : r'.themes = r.themes
  webSettings : r'.webSettings = r.webSettings
  hyperlinks : r'.hyperlinks = r.hyperlinks

theorem ReadFile.Same.refl (r : ReadFile) : r.Same r := ⟨rfl, rfl, rfl, rfl⟩

theorem ReadFile.Same.trans {a b c : ReadFile} (h : a.Same b) (h' : b.Same c) : a.Same c := by
  refine ⟨?_, h'.themes.trans h.themes, h'.webSettings.trans h.webSettings, h'.hyperlinks.trans h.hyperlinks⟩
  rw [← h.file]
  rw [← h'.file]

/-- What a reference finds. -/
def placed (parts : List (Str × Header × ReadRels)) (reference : Option PartReference)
    (set : Header → Str → SectionProperty) (p : SectionProperty) : SectionProperty :=
  match reference with
  | none => p
  | some h =>
    match partWith parts h.id with
    | none => p
    | some x => set x.1 h.id

theorem assignHeader_ok (e : FileEnv) (es : List Entry) (parts : List (Str × Header × ReadRels))
    (reference : SectionBase → Option PartReference) (set : SectionProperty → Header → Str → SectionProperty) (r : ReadFile) :
    ∃ r', assignHeader e es parts reference set r = .ok r' ∧ r.Same r' ∧
      r'.file.document.sectionProperty =
        placed parts (reference r.file.document.sectionProperty.base) (set r.file.document.sectionProperty) r.file.document.sectionProperty := by
  unfold assignHeader placed
  cases reference r.file.document.sectionProperty.base with
  | none => exact ⟨r, rfl, .refl r, rfl⟩
  | some h =>
    dsimp only
    cases partWith parts h.id with
    | none => exact ⟨r, rfl, .refl r, rfl⟩
    | some x =>
      obtain ⟨l, hl⟩ := addImages_ok e es x.2 { r with file :=
        { r.file.updProperty (fun p => set p x.1 h.id) with
          documentRels := { r.file.documentRels with headerCount := r.file.documentRels.headerCount + 1 }
          contentType := r.file.contentType.addHeader } }
      exact ⟨_, hl, ⟨rfl, rfl, rfl, rfl⟩, rfl⟩

theorem assignFooter_ok (e : FileEnv) (es : List Entry) (parts : List (Str × Header × ReadRels))
    (reference : SectionBase → Option PartReference) (set : SectionProperty → Header → Str → SectionProperty) (r : ReadFile) :
    ∃ r', assignFooter e es parts reference set r = .ok r' ∧ r.Same r' ∧
      r'.file.document.sectionProperty =
        placed parts (reference r.file.document.sectionProperty.base) (set r.file.document.sectionProperty) r.file.document.sectionProperty := by
  unfold assignFooter placed
  cases reference r.file.document.sectionProperty.base with
  | none => exact ⟨r, rfl, .refl r, rfl⟩
  | some h =>
    dsimp only
    cases partWith parts h.id with
    | none => exact ⟨r, rfl, .refl r, rfl⟩
    | some x =>
      obtain ⟨l, hl⟩ := addImages_ok e es x.2 { r with file :=
        { r.file.updProperty (fun p => set p x.1 h.id) with
          documentRels := { r.file.documentRels with footerCount := r.file.documentRels.footerCount + 1 }
          contentType := r.file.contentType.addFooter } }
      exact ⟨_, hl, ⟨rfl, rfl, rfl, rfl⟩, rfl⟩

/-- The part a reference leads to, with the id. -/
def leadsTo (parts : List (Str × Header × ReadRels)) (reference : Option PartReference) : Option (Str × Header) :=
  reference.bind fun h => (partWith parts h.id).map fun x => (h.id, x.1)

set_option maxHeartbeats 1000000 in
theorem assignParts_ok (e : FileEnv) (es : List Entry) (headers footers : List (Str × Header × ReadRels)) (r : ReadFile) (b : SectionBase)
    (hb : r.file.document.sectionProperty = { base := b })
    (h1 : ∀ q, b.headerReference = some q → q.type = c!"default")
    (h2 : ∀ q, b.firstHeaderReference = some q → q.type = c!"first")
    (h3 : ∀ q, b.evenHeaderReference = some q → q.type = c!"even")
    (h4 : ∀ q, b.footerReference = some q → q.type = c!"default")
    (h5 : ∀ q, b.firstFooterReference = some q → q.type = c!"first")
    (h6 : ∀ q, b.evenFooterReference = some q → q.type = c!"even") :
    ∃ r', assignParts e es headers footers r = .ok r' ∧ r.Same r' ∧ r'.file.document.sectionProperty =
      { base := b
        header := leadsTo headers b.headerReference
        firstHeader := leadsTo headers b.firstHeaderReference
        evenHeader := leadsTo headers b.evenHeaderReference
        footer := leadsTo footers b.footerReference
        firstFooter := leadsTo footers b.firstFooterReference
        evenFooter := leadsTo footers b.evenFooterReference } := by
  have key : ∀ (parts : List (Str × Header × ReadRels)) (ref : Option PartReference) (ty : Str) (set : Header → Str → SectionProperty)
      (p p' : SectionProperty), (∀ q, ref = some q → q.type = ty) →
      (leadsTo parts ref = none → p = p') → (∀ id h, ref = some ⟨ty, id⟩ → leadsTo parts ref = some (id, h) → set h id = p') →
      placed parts ref set p = p' := by
    intro parts ref ty set p p' ht hn hs
    unfold placed
    cases ref with
    | none => exact hn rfl
    | some q =>
      obtain ⟨t, id⟩ := q
      obtain rfl : t = ty := ht _ rfl
      dsimp only
      cases e : partWith parts id with
      | none => exact hn (by simp [leadsTo, e])
      | some x => exact hs id x.1 rfl (by simp [leadsTo, e])
  unfold assignParts
  obtain ⟨r1, e1, s1, p1⟩ := assignHeader_ok e es headers (·.headerReference) .setHeader r
  rw [hb] at p1
  rw [key headers _ c!"default" _ _ { base := b, header := leadsTo headers b.headerReference } h1 (fun e => by rw [e])
    (fun id h er e => by obtain ⟨⟩ := b; cases er; rw [e]; rfl)] at p1
  obtain ⟨r2, e2, s2, p2⟩ := assignHeader_ok e es headers (·.firstHeaderReference) .setFirstHeaderOnly r1
  rw [p1] at p2
  rw [key headers _ c!"first" _ _ { base := b, header := leadsTo headers b.headerReference, firstHeader := leadsTo headers b.firstHeaderReference }
    h2 (fun e => by rw [e]) (fun id h er e => by obtain ⟨⟩ := b; cases er; rw [e]; rfl)] at p2
  obtain ⟨r3, e3, s3, p3⟩ := assignHeader_ok e es headers (·.evenHeaderReference) .setEvenHeader r2
  rw [p2] at p3
  rw [key headers _ c!"even" _ _ { base := b, header := leadsTo headers b.headerReference, firstHeader := leadsTo headers b.firstHeaderReference, evenHeader := leadsTo headers b.evenHeaderReference }
    h3 (fun e => by rw [e]) (fun id h er e => by obtain ⟨⟩ := b; cases er; rw [e]; rfl)] at p3
  obtain ⟨r4, e4, s4, p4⟩ := assignFooter_ok e es footers (·.footerReference) .setFooter r3
  rw [p3] at p4
  rw [key footers _ c!"default" _ _ { base := b, header := leadsTo headers b.headerReference, firstHeader := leadsTo headers b.firstHeaderReference, evenHeader := leadsTo headers b.evenHeaderReference, footer := leadsTo footers b.footerReference }
    h4 (fun e => by rw [e]) (fun id h er e => by obtain ⟨⟩ := b; cases er; rw [e]; rfl)] at p4
  obtain ⟨r5, e5, s5, p5⟩ := assignFooter_ok e es footers (·.firstFooterReference) .setFirstFooterOnly r4
  rw [p4] at p5
  rw [key footers _ c!"first" _ _ { base := b, header := leadsTo headers b.headerReference, firstHeader := leadsTo headers b.firstHeaderReference, evenHeader := leadsTo headers b.evenHeaderReference, footer := leadsTo footers b.footerReference, firstFooter := leadsTo footers b.firstFooterReference }
    h5 (fun e => by rw [e]) (fun id h er e => by obtain ⟨⟩ := b; cases er; rw [e]; rfl)] at p5
  obtain ⟨r6, e6, s6, p6⟩ := assignFooter_ok e es footers (·.evenFooterReference) .setEvenFooter r5
  rw [p5] at p6
  rw [key footers _ c!"even" _ _ { base := b, header := leadsTo headers b.headerReference, firstHeader := leadsTo headers b.firstHeaderReference, evenHeader := leadsTo headers b.evenHeaderReference, footer := leadsTo footers b.footerReference, firstFooter := leadsTo footers b.firstFooterReference, evenFooter := leadsTo footers b.evenFooterReference }
    h6 (fun e => by rw [e]) (fun id h er e => by obtain ⟨⟩ := b; cases er; rw [e]; rfl)] at p6
  refine ⟨r6, ?_, s1.trans (s2.trans (s3.trans (s4.trans (s5.trans s6)))), p6⟩
  simp only [e1, e2, e3, e4, e5, e6, Got.bind]

end Docx
