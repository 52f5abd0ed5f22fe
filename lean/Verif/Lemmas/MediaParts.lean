import Verif.Lemmas.Media

/-! Lemmas for the picture properties: from one part to the whole package. -/

namespace Docx
open Docx.Spec

theorem visitEach_append {σ α : Type} (f : α → Visit σ α) : ∀ (a b : List α) (s : σ),
    visitEach f (a ++ b) s =
      ((visitEach f a s).1 ++ (visitEach f b (visitEach f a s).2).1,
        (visitEach f b (visitEach f a s).2).2)
  | [], b, s => by simp [visitEach]
  | x :: a, b, s => by simp [visitEach, visitEach_append f a b]

/-- The header bodies of one section property. -/
def headersOfProp (p : SectionProperty) : List Header :=
  ([p.header, p.firstHeader, p.evenHeader].filterMap id).map Prod.snd

/-- The footer bodies of one section property. -/
def footersOfProp (p : SectionProperty) : List Header :=
  ([p.footer, p.firstFooter, p.evenFooter].filterMap id).map Prod.snd

theorem visitHeadersOfProperty_each {σ : Type} (f : Header → Visit σ Header) (p : SectionProperty) (s : σ) :
    visitEach f (headersOfProp p) s =
      (headersOfProp (visitHeadersOfProperty f p s).1, (visitHeadersOfProperty f p s).2) := by
  obtain ⟨b, h1, h2, h3, f1, f2, f3⟩ := p
  cases h1 <;> cases h2 <;> cases h3 <;>
    simp [headersOfProp, visitHeadersOfProperty, visitPart, visitEach]

theorem visitFootersOfProperty_each {σ : Type} (f : Header → Visit σ Header) (p : SectionProperty) (s : σ) :
    visitEach f (footersOfProp p) s =
      (footersOfProp (visitFootersOfProperty f p s).1, (visitFootersOfProperty f p s).2) := by
  obtain ⟨b, h1, h2, h3, f1, f2, f3⟩ := p
  cases f1 <;> cases f2 <;> cases f3 <;>
    simp [footersOfProp, visitFootersOfProperty, visitPart, visitEach]

theorem visitHeadersOfProperty_footers {σ : Type} (f : Header → Visit σ Header) (p : SectionProperty) (s : σ) :
    footersOfProp (visitHeadersOfProperty f p s).1 = footersOfProp p := rfl

theorem visitFootersOfProperty_headers {σ : Type} (f : Header → Visit σ Header) (p : SectionProperty) (s : σ) :
    headersOfProp (visitFootersOfProperty f p s).1 = headersOfProp p := rfl

/-- The section property of a section child. -/
def sectionProp? : DocumentChild → Option SectionProperty
  | .section s => some s.property
  | _ => none

theorem sectionProperties_eq (d : Document) :
    sectionProperties d = d.sectionProperty :: d.children.filterMap sectionProp? := by
  unfold sectionProperties
  congr 1

theorem visitSectionProperties_each {σ : Type} (g : SectionProperty → Visit σ SectionProperty)
    (f : Header → Visit σ Header) (k : SectionProperty → List Header)
    (h : ∀ p s, visitEach f (k p) s = (k (g p s).1, (g p s).2)) : ∀ (l : List DocumentChild) (s : σ),
    visitEach f ((l.filterMap sectionProp?).flatMap k) s =
      (((visitEach (visitSectionProperties g) l s).1.filterMap sectionProp?).flatMap k,
        (visitEach (visitSectionProperties g) l s).2)
  | [], s => by simp [visitEach]
  | x :: l, s => by
    cases x <;>
      simp [visitEach, visitSectionProperties, sectionProp?, List.filterMap_cons, visitEach_append, h,
        visitSectionProperties_each g f k h l]

theorem visitParts_each {σ : Type} (g : SectionProperty → Visit σ SectionProperty)
    (f : Header → Visit σ Header) (k : SectionProperty → List Header)
    (h : ∀ p s, visitEach f (k p) s = (k (g p s).1, (g p s).2)) (d : Document) (s : σ) :
    visitEach f ((sectionProperties d).flatMap k) s =
      ((sectionProperties (visitParts g d s).1).flatMap k, (visitParts g d s).2) := by
  rw [sectionProperties_eq, sectionProperties_eq]
  simp [visitParts, visitEach_append, h, visitSectionProperties_each g f k h]

theorem visitSectionProperties_keep {σ : Type} (g : SectionProperty → Visit σ SectionProperty)
    (k : SectionProperty → List Header) (h : ∀ p s, k (g p s).1 = k p) : ∀ (l : List DocumentChild) (s : σ),
    ((visitEach (visitSectionProperties g) l s).1.filterMap sectionProp?).flatMap k =
      (l.filterMap sectionProp?).flatMap k
  | [], s => by simp [visitEach]
  | x :: l, s => by
    cases x <;>
      simp [visitEach, visitSectionProperties, sectionProp?, List.filterMap_cons, h,
        visitSectionProperties_keep g k h l]

theorem visitParts_keep {σ : Type} (g : SectionProperty → Visit σ SectionProperty)
    (k : SectionProperty → List Header) (h : ∀ p s, k (g p s).1 = k p) (d : Document) (s : σ) :
    (sectionProperties (visitParts g d s).1).flatMap k = (sectionProperties d).flatMap k := by
  rw [sectionProperties_eq, sectionProperties_eq]
  simp [visitParts, h, visitSectionProperties_keep g k h]

theorem visitSectionProperties_visited {σ : Type} (g : SectionProperty → Visit σ SectionProperty)
    (w : List Place) : ∀ (l : List DocumentChild) (s : σ),
    visited ((visitEach (visitSectionProperties g) l s).1.flatMap (walkDocumentChild w)) =
      visited (l.flatMap (walkDocumentChild w))
  | [], s => by simp [visitEach]
  | x :: l, s => by
    cases x <;>
      simp [visitEach, visitSectionProperties, visited_append, visitSectionProperties_visited g w l,
        visited_cons, walkDocumentChild, walkSection, visited_walkSectionProperty]

theorem visitParts_visited {σ : Type} (g : SectionProperty → Visit σ SectionProperty) (d : Document) (s : σ) :
    visited (walkDocument (visitParts g d s).1) = visited (walkDocument d) := by
  unfold walkDocument
  simp [visited_append, visited_walkSectionProperty, visitParts, visitSectionProperties_visited]

/-- What is known about one part after packaging. -/
structure PartOk (media : List (Str × Bytes)) (before after : List Visited) (rels : List (Str × Str)) : Prop where
  ids : (rels.map Prod.fst).Nodup
  targets : ∀ x ∈ rels, ∃ name b, x.2 = mediaTarget name ∧ (name, b) ∈ media
  items : List.Forall₂ (Matches rels media) before after

theorem PartOk.mono {media media' : List (Str × Bytes)} {a b : List Visited} {rels : List (Str × Str)}
    (hm : media ⊆ media') (h : PartOk media a b rels) : PartOk media' a b rels where
  ids := h.ids
  targets := fun x hx => by
    obtain ⟨n, b, e1, e2⟩ := h.targets x hx
    exact ⟨n, b, e1, hm e2⟩
  items := h.items.imp fun _ _ hx => hx.mono (fun _ hy => hy) hm

/-- The visited items of a header. -/
def headerItems (h : Header) : List Visited := visited (walkHeader [] h)

/-- The pictures among visited items. -/
def picsOf (l : List Visited) : List Bytes := (l.filterMap Visited.pic?).map Pic.image

theorem collectHeaderPart_spec (crc : Bytes → Nat) (pfx : Str) (h : Header) (r : MediaRegistry)
    (hr : r.Inv crc) :
    let c := collectHeaderPart crc pfx h r
    c.2.2.Inv crc ∧ r.media ⊆ c.2.2.media ∧
      PartOk c.2.2.media (headerItems h) (headerItems c.1) c.2.1.relationships ∧
      ∀ m ∈ c.2.2.media, m ∈ r.media ∨ m.2 ∈ picsOf (headerItems h) := by
  have hw := visitHeader_walk (Collector.visitor crc) h [] (Collector.new r pfx) rfl
  obtain ⟨s, f, p, _⟩ := visitItems_collector crc (visited (walkHeader [] h)) (Collector.new r pfx)
    (Collector.Inv.new crc r hr pfx)
  rw [hw] at s f p
  exact ⟨s.inv.reg, s.media, ⟨s.inv.ids, s.inv.targets, f⟩, p⟩

theorem collectHeaderImages_spec (crc : Bytes → Nat) (pfx : Str) : ∀ (hs : List Header) (r : MediaRegistry)
    (acc : List (List (Str × Str))), r.Inv crc →
    let c := visitEach (collectHeaderImages crc pfx) hs (r, acc)
    c.2.1.Inv crc ∧ r.media ⊆ c.2.1.media ∧ c.1.length = hs.length ∧
      (∀ m ∈ c.2.1.media, m ∈ r.media ∨ m.2 ∈ picsOf (hs.flatMap headerItems)) ∧
      ∃ out, c.2.2 = acc ++ out ∧ out.length = hs.length ∧
        ∀ (i : Nat) h h' o, hs[i]? = some h → c.1[i]? = some h' → out[i]? = some o →
          PartOk c.2.1.media (headerItems h) (headerItems h') o
  | [], r, acc, hr => by
    refine ⟨hr, fun _ hx => hx, rfl, fun m hm => Or.inl hm, [], by simp [visitEach], rfl, ?_⟩
    intro i h h' o e
    simp at e
  | h :: hs, r, acc, hr => by
    obtain ⟨i1, s1, p1, m1⟩ := collectHeaderPart_spec crc pfx h r hr
    obtain ⟨i2, s2, l2, m2, out, e2, ol2, p2⟩ := collectHeaderImages_spec crc pfx hs
      (collectHeaderPart crc pfx h r).2.2 (acc ++ [(collectHeaderPart crc pfx h r).2.1.relationships]) i1
    simp only [visitEach, collectHeaderImages] at *
    refine ⟨i2, fun _ hx => s2 (s1 hx), by simp [l2], ?_,
      (collectHeaderPart crc pfx h r).2.1.relationships :: out, by rw [e2]; simp, by simp [ol2], ?_⟩
    · intro m hm
      simp only [List.flatMap_cons, picsOf, List.filterMap_append, List.map_append, List.mem_append] at *
      rcases m2 m hm with hm | hm
      · rcases m1 m hm with hm | hm
        · exact Or.inl hm
        · exact Or.inr (Or.inl hm)
      · exact Or.inr (Or.inr hm)
    · intro i a a' o ha ha' ho
      cases i with
      | zero =>
        simp only [List.getElem?_cons_zero, Option.some.injEq] at ha ha' ho
        subst ha; subst ha'; subst ho
        exact p1.mono s2
      | succ i =>
        rw [List.getElem?_cons_succ] at ha ha' ho
        exact p2 i a a' o ha ha' ho

theorem sparse_lookup_aux : ∀ (l : List (List (Str × Str))) (k i : Nat),
    ((((l.zipIdx k).map Prod.swap).filter (fun x => decide (x.2 ≠ []))).lookup (k + i)).getD [] =
      (l[i]?).getD [] ∧
    ∀ j, j < k → (((l.zipIdx k).map Prod.swap).filter (fun x => decide (x.2 ≠ []))).lookup j = none
  | [], k, i => by simp
  | x :: l, k, i => by
    have ih := sparse_lookup_aux l (k + 1)
    simp only [List.zipIdx_cons, List.map_cons, Prod.swap_prod_mk, List.filter_cons]
    constructor
    · cases i with
      | zero =>
        by_cases hx : x = []
        · simp only [hx, ne_eq, not_true_eq_false, decide_false, Bool.false_eq_true, if_false]
          rw [Nat.add_zero, (ih 0).2 k (by omega)]
          simp
        · simp [hx, List.lookup]
      | succ i =>
        have hi := (ih i).1
        have e : k + (i + 1) = k + 1 + i := by omega
        rw [e]
        by_cases hx : x = []
        · simp only [hx, ne_eq, not_true_eq_false, decide_false, Bool.false_eq_true, if_false]
          simpa using hi
        · simp only [ne_eq, hx, not_false_eq_true, decide_true, if_true]
          rw [lookup_cons_ne _ _ (by omega)]
          simpa using hi
    · intro j hj
      by_cases hx : x = []
      · simp only [hx, ne_eq, not_true_eq_false, decide_false, Bool.false_eq_true, if_false]
        exact (ih i).2 j (by omega)
      · simp only [ne_eq, hx, not_false_eq_true, decide_true, if_true]
        rw [lookup_cons_ne _ _ (by omega)]
        exact (ih i).2 j (by omega)

theorem relsOfPart_sparse (l : List (List (Str × Str))) (i : Nat) :
    relsOfPart (sparse l) i = (l[i]?).getD [] := by
  have := (sparse_lookup_aux l 0 i).1
  simpa [relsOfPart, sparse] using this

theorem mem_sparse (l : List (List (Str × Str))) (i : Nat) (o : List (Str × Str))
    (h : (i, o) ∈ sparse l) : l[i]? = some o ∧ o ≠ [] := by
  unfold sparse at h
  rw [List.mem_filter] at h
  obtain ⟨h, hne⟩ := h
  rw [List.mem_map] at h
  obtain ⟨⟨a, b⟩, hx, e⟩ := h
  simp only [Prod.swap_prod_mk, Prod.mk.injEq] at e
  obtain ⟨rfl, rfl⟩ := e
  exact ⟨List.mem_zipIdx_iff_getElem?.mp hx, by simpa using hne⟩

/-- Everything the picture theorems need about `collectImages`. -/
theorem collectImages_spec (crc : Bytes → Nat) (d : Document) :
    let r := collectImages crc d
    (r.media.map Prod.fst).Nodup ∧ (r.media.map Prod.snd).Nodup ∧
    (∀ m ∈ r.media, m.2 ∈ picsOf (visited (walkDocument d)) ∨
      m.2 ∈ picsOf ((headersOf d).flatMap headerItems) ∨ m.2 ∈ picsOf ((footersOf d).flatMap headerItems)) ∧
    PartOk r.media (visited (walkDocument d)) (visited (walkDocument r.document)) r.documentRels ∧
    ((headersOf r.document).length = (headersOf d).length ∧ ∃ out, r.headerRels = sparse out ∧
      out.length = (headersOf d).length ∧ ∀ (i : Nat) h h' o, (headersOf d)[i]? = some h →
        (headersOf r.document)[i]? = some h' → out[i]? = some o →
          PartOk r.media (headerItems h) (headerItems h') o) ∧
    ((footersOf r.document).length = (footersOf d).length ∧ ∃ out, r.footerRels = sparse out ∧
      out.length = (footersOf d).length ∧ ∀ (i : Nat) h h' o, (footersOf d)[i]? = some h →
        (footersOf r.document)[i]? = some h' → out[i]? = some o →
          PartOk r.media (headerItems h) (headerItems h') o) ∧
    r.footnotes = partFootnotes (walkDocument d) := by
  intro r
  have hw := visitDocument_walk (Collector.visitor crc) d (Collector.new {} [])
  obtain ⟨s0, f0, p0, fn0⟩ := visitItems_collector crc (visited (walkDocument d)) (Collector.new {} [])
    (Collector.Inv.new crc {} (MediaRegistry.Inv.empty crc) [])
  rw [hw] at s0 f0 p0 fn0
  generalize hv : visitDocument (Collector.visitor crc) d (Collector.new {} []) = v at *
  -- headers
  have hk0 : ∀ (k : SectionProperty → List Header), (sectionProperties v.1).flatMap k =
      (sectionProperties d).flatMap k := by
    intro k
    have hsp : ∀ (l : List DocumentChild) (s : Collector),
        (visitEach (visitDocumentChild (Collector.visitor crc)) l s).1.filterMap sectionProp? =
          l.filterMap sectionProp? := by
      intro l
      induction l with
      | nil => intro s; rfl
      | cons x l ih =>
        intro s
        cases x <;> simp [visitEach, visitDocumentChild, sectionProp?, List.filterMap_cons, ih, visitSection]
    rw [sectionProperties_eq, sectionProperties_eq, ← hv]
    unfold visitDocument
    simp only [hsp]
  have hH := visitParts_each (visitHeadersOfProperty (collectHeaderImages crc c!"header"))
    (collectHeaderImages crc c!"header") headersOfProp (visitHeadersOfProperty_each _) v.1
    (v.2.registry, [])
  rw [hk0] at hH
  obtain ⟨hi, hs, hl, hm, outH, eH, lH, pH⟩ := collectHeaderImages_spec crc c!"header"
    ((sectionProperties d).flatMap headersOfProp) v.2.registry [] s0.inv.reg
  rw [hH] at hi hs hl hm eH pH
  have hk1 := visitParts_keep (visitHeadersOfProperty (collectHeaderImages crc c!"header")) footersOfProp
    (visitHeadersOfProperty_footers _) v.1 (v.2.registry, [])
  have hb1 := visitParts_visited (visitHeadersOfProperty (collectHeaderImages crc c!"header")) v.1
    (v.2.registry, [])
  generalize hu : visitParts (visitHeadersOfProperty (collectHeaderImages crc c!"header")) v.1
    (v.2.registry, []) = u at *
  have hF := visitParts_each (visitFootersOfProperty (collectHeaderImages crc c!"footer"))
    (collectHeaderImages crc c!"footer") footersOfProp (visitFootersOfProperty_each _) u.1
    (u.2.1, [])
  rw [hk1, hk0] at hF
  obtain ⟨fi, fs, fl, fm, outF, eF, lF, pF⟩ := collectHeaderImages_spec crc c!"footer"
    ((sectionProperties d).flatMap footersOfProp) u.2.1 [] hi
  rw [hF] at fi fs fl fm eF pF
  have hk2 := visitParts_keep (visitFootersOfProperty (collectHeaderImages crc c!"footer")) headersOfProp
    (visitFootersOfProperty_headers _) u.1 (u.2.1, [])
  have hb2 := visitParts_visited (visitFootersOfProperty (collectHeaderImages crc c!"footer")) u.1
    (u.2.1, [])
  generalize ht : visitParts (visitFootersOfProperty (collectHeaderImages crc c!"footer")) u.1
    (u.2.1, []) = t at *
  have hr : r = CollectedImages.mk t.1 v.2.relationships (sparse u.2.2) (sparse t.2.2) t.2.1.media
      v.2.footnotes := by
    show collectImages crc d = _
    unfold collectImages collectDocumentPart
    simp only [hv, Collector.finish, hu, ht]
  simp only [List.nil_append] at eH eF
  subst eH
  subst eF
  have hHO : headersOf r.document = (sectionProperties u.1).flatMap headersOfProp := by
    rw [hr]; exact hk2
  have hFO : footersOf r.document = (sectionProperties t.1).flatMap footersOfProp := by
    rw [hr]; rfl
  have hdH : headersOf d = (sectionProperties d).flatMap headersOfProp := rfl
  have hdF : footersOf d = (sectionProperties d).flatMap footersOfProp := rfl
  rw [hHO, hFO, hdH, hdF]
  refine ⟨?_, ?_, ?_, ?_, ⟨hl, u.2.2, ?_, lH, ?_⟩, ⟨fl, t.2.2, ?_, lF, ?_⟩, ?_⟩
  · rw [hr]; exact fi.ids
  · rw [hr]; exact fi.bytes
  · intro m hm'
    rw [hr] at hm'
    rcases fm m hm' with h | h
    · rcases hm m h with h | h
      · rcases p0 m h with h | h
        · simp [Collector.new] at h
        · exact Or.inl h
      · exact Or.inr (Or.inl h)
    · exact Or.inr (Or.inr h)
  · have hb : visited (walkDocument r.document) = visited (walkDocument v.1) := by
      rw [hr]; exact hb2.trans hb1
    have : PartOk v.2.registry.media (visited (walkDocument d)) (visited (walkDocument v.1)) v.2.relationships :=
      ⟨s0.inv.ids, s0.inv.targets, f0⟩
    rw [hb, hr]
    exact this.mono fun _ hx => fs (hs hx)
  · rw [hr]
  · intro i h h' o e1 e2 e3
    rw [hr]
    exact (pH i h h' o e1 e2 e3).mono fs
  · rw [hr]
  · intro i h h' o e1 e2 e3
    rw [hr]
    exact pF i h h' o e1 e2 e3
  · rw [hr, partFootnotes_eq]
    simpa [Collector.new] using fn0

end Docx
