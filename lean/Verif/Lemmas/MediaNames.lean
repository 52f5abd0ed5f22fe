import Verif.Lemmas.MediaParts

/-!
# The names of media files and the ids of picture relationships
-/

namespace Docx

open Docx.Spec

/-- A name or id made from a preferred one. -/
def NameOf (p s : Str) : Prop := s = p ∨ ∃ n, s = suffixed p n

theorem freeSuffix_name (used : List Str) (p : Str) : ∀ (fuel n : Nat) (c : Str) (m : Nat),
    freeSuffix used p fuel n = some (c, m) → ∃ k, c = suffixed p k
  | 0, n, c, m, h => by simp [freeSuffix] at h
  | fuel + 1, n, c, m, h => by
    unfold freeSuffix at h
    split at h
    · exact freeSuffix_name used p fuel (n + 1) c m h
    · simp only [Option.some.injEq, Prod.mk.injEq] at h
      exact ⟨n, h.1.symm⟩

theorem uniqueId_name (used : List Str) (next : List (Str × Nat)) (p : Str) : NameOf p (uniqueId used next p).1 := by
  unfold uniqueId
  by_cases h : p ∈ used
  · rw [if_neg (by simpa using h)]
    obtain ⟨k, hk, hn⟩ := exists_not_mem_of_injective (suffixed p) (suffixed_inj p) used
      ((next.lookup p).getD 2)
    obtain ⟨c, m, e, hc⟩ := freeSuffix_spec used p (used.length + 1) _ ⟨k, by omega, hn⟩
    rw [e]
    exact .inr (freeSuffix_name _ _ _ _ _ _ e)
  · rw [if_pos h]
    exact .inl rfl

theorem MediaRegistry.register_names (crc : Bytes → Nat) (r : MediaRegistry) (p : Str) (b : Bytes) :
    ∀ m ∈ (r.register crc p b).2.media, m ∈ r.media ∨ NameOf p m.1 := by
  intro m hm
  unfold MediaRegistry.register at hm
  split at hm
  · exact .inl hm
  · dsimp only at hm
    split at hm
    · exact .inl hm
    · rcases List.mem_append.1 hm with hm | hm
      · exact .inl hm
      · rw [List.mem_singleton] at hm
        subst hm
        exact .inr (uniqueId_name _ _ _)

theorem Collector.visitPicture_names (crc : Bytes → Nat) (p : Pic) (c : Collector) :
    (c.visitPicture crc p).2.relationshipPrefix = c.relationshipPrefix ∧
    (∀ x ∈ (c.visitPicture crc p).2.relationships, x ∈ c.relationships ∨
      (NameOf (c.relationshipPrefix ++ p.id) x.1 ∧ (c.visitPicture crc p).1.id = x.1)) ∧
    (∀ m ∈ (c.visitPicture crc p).2.registry.media, m ∈ c.registry.media ∨ NameOf (c.relationshipPrefix ++ p.id) m.1) := by
  have hr := c.registry.register_names crc (c.relationshipId p.id) p.image
  unfold Collector.visitPicture
  dsimp only
  generalize c.registry.register crc (c.relationshipId p.id) p.image = g at *
  split
  · exact ⟨rfl, fun x hx => .inl hx, hr⟩
  · refine ⟨rfl, fun x hx => ?_, hr⟩
    rcases List.mem_append.1 hx with hx | hx
    · exact .inl hx
    · rw [List.mem_singleton] at hx
      subst hx
      exact .inr ⟨uniqueId_name _ _ _, rfl⟩

/-- Where the relationships of a part come from. -/
structure PartNamed (pfx : Str) (before after : List Visited) (rels : List (Str × Str)) : Prop where
  named : ∀ x ∈ rels, ∃ p, Visited.pic p ∈ before ∧ NameOf (pfx ++ p.id) x.1
  used : ∀ x ∈ rels, ∃ q, Visited.pic q ∈ after ∧ q.id = x.1

/-- Where the name of a media file comes from. -/
def MediaNamed (pfx : Str) (l : List Visited) (s : Str) : Prop := ∃ p, Visited.pic p ∈ l ∧ NameOf (pfx ++ p.id) s

theorem visitItems_names (crc : Bytes → Nat) : ∀ (l : List Visited) (c : Collector),
    (∀ x ∈ (visitItems (Collector.visitor crc) l c).2.relationships, x ∈ c.relationships ∨
      ((∃ p, Visited.pic p ∈ l ∧ NameOf (c.relationshipPrefix ++ p.id) x.1) ∧
        ∃ q, Visited.pic q ∈ (visitItems (Collector.visitor crc) l c).1 ∧ q.id = x.1)) ∧
    ∀ m ∈ (visitItems (Collector.visitor crc) l c).2.registry.media, m ∈ c.registry.media ∨
      MediaNamed c.relationshipPrefix l m.1
  | [], c => ⟨fun x hx => .inl hx, fun m hm => .inl hm⟩
  | .pic p :: l, c => by
    obtain ⟨h0, h1, h2⟩ := c.visitPicture_names crc p
    obtain ⟨i1, i2⟩ := visitItems_names crc l (c.visitPicture crc p).2
    have e : (Collector.visitor crc).picture p c = c.visitPicture crc p := rfl
    simp only [visitItems, e]
    rw [h0] at i1 i2
    refine ⟨fun x hx => ?_, fun m hm => ?_⟩
    · rcases i1 x hx with h | ⟨⟨p', hp, hn⟩, q, hq, he⟩
      · rcases h1 x h with h | ⟨hn, he⟩
        · exact .inl h
        · exact .inr ⟨⟨p, .head _, hn⟩, _, .head _, he⟩
      · exact .inr ⟨⟨p', .tail _ hp, hn⟩, q, .tail _ hq, he⟩
    · rcases i2 m hm with h | ⟨p', hp, hn⟩
      · rcases h2 m h with h | h
        · exact .inl h
        · exact .inr ⟨p, .head _, h⟩
      · exact .inr ⟨p', .tail _ hp, hn⟩
  | .fn f :: l, c => by
    obtain ⟨i1, i2⟩ := visitItems_names crc l (c.visitFootnote f)
    have e : (Collector.visitor crc).footnote f c = c.visitFootnote f := rfl
    simp only [visitItems, e]
    refine ⟨fun x hx => ?_, fun m hm => ?_⟩
    · rcases i1 x hx with h | ⟨⟨p', hp, hn⟩, q, hq, he⟩
      · exact .inl h
      · exact .inr ⟨⟨p', .tail _ hp, hn⟩, q, .tail _ hq, he⟩
    · rcases i2 m hm with h | ⟨p', hp, hn⟩
      · exact .inl h
      · exact .inr ⟨p', .tail _ hp, hn⟩

theorem collectHeaderPart_names (crc : Bytes → Nat) (pfx : Str) (h : Header) (r : MediaRegistry) :
    PartNamed pfx (headerItems h) (headerItems (collectHeaderPart crc pfx h r).1)
        (collectHeaderPart crc pfx h r).2.1.relationships ∧
      ∀ m ∈ (collectHeaderPart crc pfx h r).2.2.media, m ∈ r.media ∨ MediaNamed pfx (headerItems h) m.1 := by
  have hw := visitHeader_walk (Collector.visitor crc) h [] (Collector.new r pfx) rfl
  obtain ⟨h1, h2⟩ := visitItems_names crc (visited (walkHeader [] h)) (Collector.new r pfx)
  rw [hw] at h1 h2
  refine ⟨⟨fun x hx => ?_, fun x hx => ?_⟩, h2⟩ <;> rcases h1 x hx with h | h
  · exact absurd h (by simp [Collector.new])
  · exact h.1
  · exact absurd h (by simp [Collector.new])
  · exact h.2

theorem collectHeaderImages_names (crc : Bytes → Nat) (pfx : Str) : ∀ (hs : List Header) (r : MediaRegistry)
    (acc : List (List (Str × Str))),
    (∀ m ∈ (visitEach (collectHeaderImages crc pfx) hs (r, acc)).2.1.media, m ∈ r.media ∨
      ∃ h ∈ hs, MediaNamed pfx (headerItems h) m.1) ∧
    ∃ out, (visitEach (collectHeaderImages crc pfx) hs (r, acc)).2.2 = acc ++ out ∧
      ∀ (i : Nat) h h' o, hs[i]? = some h → (visitEach (collectHeaderImages crc pfx) hs (r, acc)).1[i]? = some h' →
        out[i]? = some o → PartNamed pfx (headerItems h) (headerItems h') o
  | [], r, acc => by
    refine ⟨fun m hm => .inl hm, [], by simp [visitEach], ?_⟩
    intro i h h' o e
    simp at e
  | h :: hs, r, acc => by
    obtain ⟨p1, m1⟩ := collectHeaderPart_names crc pfx h r
    obtain ⟨m2, out, e2, p2⟩ := collectHeaderImages_names crc pfx hs
      (collectHeaderPart crc pfx h r).2.2 (acc ++ [(collectHeaderPart crc pfx h r).2.1.relationships])
    simp only [visitEach, collectHeaderImages] at *
    refine ⟨?_, (collectHeaderPart crc pfx h r).2.1.relationships :: out, by rw [e2]; simp, ?_⟩
    · intro m hm
      rcases m2 m hm with hm | ⟨a, ha, hm⟩
      · rcases m1 m hm with hm | hm
        · exact Or.inl hm
        · exact Or.inr ⟨h, .head _, hm⟩
      · exact Or.inr ⟨a, .tail _ ha, hm⟩
    · intro i a a' o ha ha' ho
      cases i with
      | zero =>
        simp only [List.getElem?_cons_zero, Option.some.injEq] at ha ha' ho
        subst ha; subst ha'; subst ho
        exact p1
      | succ i =>
        rw [List.getElem?_cons_succ] at ha ha' ho
        exact p2 i a a' o ha ha' ho

theorem collectImages_names (crc : Bytes → Nat) (d : Document) :
    let r := collectImages crc d
    (∀ m ∈ r.media, MediaNamed [] (visited (walkDocument d)) m.1 ∨ (∃ h ∈ headersOf d, MediaNamed c!"header" (headerItems h) m.1) ∨
      ∃ h ∈ footersOf d, MediaNamed c!"footer" (headerItems h) m.1) ∧
    PartNamed [] (visited (walkDocument d)) (visited (walkDocument r.document)) r.documentRels ∧
    (∀ x ∈ r.documentRels, ∃ name b, x.2 = mediaTarget name ∧ (name, b) ∈ r.media ∧ MediaNamed [] (visited (walkDocument d)) name) ∧
    (∃ out, r.headerRels = sparse out ∧ ∀ (i : Nat) h h' o, (headersOf d)[i]? = some h →
        (headersOf r.document)[i]? = some h' → out[i]? = some o → PartNamed c!"header" (headerItems h) (headerItems h') o) ∧
    (∃ out, r.footerRels = sparse out ∧ ∀ (i : Nat) h h' o, (footersOf d)[i]? = some h →
        (footersOf r.document)[i]? = some h' → out[i]? = some o → PartNamed c!"footer" (headerItems h) (headerItems h') o) := by
  intro r
  have hw := visitDocument_walk (Collector.visitor crc) d (Collector.new {} [])
  obtain ⟨s0, _⟩ := visitItems_collector crc (visited (walkDocument d)) (Collector.new {} [])
    (Collector.Inv.new crc {} (MediaRegistry.Inv.empty crc) [])
  obtain ⟨n0, n1⟩ := visitItems_names crc (visited (walkDocument d)) (Collector.new {} [])
  rw [hw] at s0 n0 n1
  generalize hv : visitDocument (Collector.visitor crc) d (Collector.new {} []) = v at *
  have hk0 : ∀ (k : SectionProperty → List Header), (sectionProperties v.1).flatMap k =
      (sectionProperties d).flatMap k := by
    intro k
    have hsp : ∀ (l : List DocumentChild) (s : Collector),
        (visitEach (visitDocumentChild (Collector.visitor crc)) l s).1.filterMap sectionProp? =
          l.filterMap sectionProp? := by
      intro l
      induction l with
      | nil => intro s; rfl
      | cons x l ih =>
        intro s
        cases x <;> simp [visitEach, visitDocumentChild, sectionProp?, List.filterMap_cons, ih, visitSection]
    rw [sectionProperties_eq, sectionProperties_eq, ← hv]
    unfold visitDocument
    simp only [hsp]
  have hH := visitParts_each (visitHeadersOfProperty (collectHeaderImages crc c!"header"))
    (collectHeaderImages crc c!"header") headersOfProp (visitHeadersOfProperty_each _) v.1
    (v.2.registry, [])
  rw [hk0] at hH
  obtain ⟨hi, hs, _⟩ := collectHeaderImages_spec crc c!"header"
    ((sectionProperties d).flatMap headersOfProp) v.2.registry [] s0.inv.reg
  obtain ⟨hm, outH, eH, pH⟩ := collectHeaderImages_names crc c!"header"
    ((sectionProperties d).flatMap headersOfProp) v.2.registry []
  rw [hH] at hi hs hm eH pH
  have hk1 := visitParts_keep (visitHeadersOfProperty (collectHeaderImages crc c!"header")) footersOfProp
    (visitHeadersOfProperty_footers _) v.1 (v.2.registry, [])
  have hb1 := visitParts_visited (visitHeadersOfProperty (collectHeaderImages crc c!"header")) v.1
    (v.2.registry, [])
  generalize hu : visitParts (visitHeadersOfProperty (collectHeaderImages crc c!"header")) v.1
    (v.2.registry, []) = u at *
  have hF := visitParts_each (visitFootersOfProperty (collectHeaderImages crc c!"footer"))
    (collectHeaderImages crc c!"footer") footersOfProp (visitFootersOfProperty_each _) u.1
    (u.2.1, [])
  rw [hk1, hk0] at hF
  obtain ⟨fi, fs, _⟩ := collectHeaderImages_spec crc c!"footer"
    ((sectionProperties d).flatMap footersOfProp) u.2.1 [] hi
  obtain ⟨fm, outF, eF, pF⟩ := collectHeaderImages_names crc c!"footer"
    ((sectionProperties d).flatMap footersOfProp) u.2.1 []
  rw [hF] at fi fs fm eF pF
  have hk2 := visitParts_keep (visitFootersOfProperty (collectHeaderImages crc c!"footer")) headersOfProp
    (visitFootersOfProperty_headers _) u.1 (u.2.1, [])
  have hb2 := visitParts_visited (visitFootersOfProperty (collectHeaderImages crc c!"footer")) u.1
    (u.2.1, [])
  generalize ht : visitParts (visitFootersOfProperty (collectHeaderImages crc c!"footer")) u.1
    (u.2.1, []) = t at *
  have hr : r = CollectedImages.mk t.1 v.2.relationships (sparse u.2.2) (sparse t.2.2) t.2.1.media
      v.2.footnotes := by
    show collectImages crc d = _
    unfold collectImages collectDocumentPart
    simp only [hv, Collector.finish, hu, ht]
  simp only [List.nil_append] at eH eF
  subst eH
  subst eF
  have hHO : headersOf r.document = (sectionProperties u.1).flatMap headersOfProp := by
    rw [hr]; exact hk2
  have hFO : footersOf r.document = (sectionProperties t.1).flatMap footersOfProp := by
    rw [hr]; rfl
  have hdH : headersOf d = (sectionProperties d).flatMap headersOfProp := rfl
  have hdF : footersOf d = (sectionProperties d).flatMap footersOfProp := rfl
  rw [hHO, hFO, hdH, hdF]
  have hbody : ∀ m ∈ v.2.registry.media, MediaNamed [] (visited (walkDocument d)) m.1 := by
    intro m hm
    rcases n1 m hm with h | h
    · exact absurd h (by simp [Collector.new])
    · exact h
  have hwalk : visited (walkDocument r.document) = visited (walkDocument v.1) := by
    rw [hr]
    exact hb2.trans hb1
  refine ⟨?_, ⟨fun x hx => ?_, fun x hx => ?_⟩, ?_, ⟨u.2.2, by rw [hr], pH⟩, ⟨t.2.2, by rw [hr], pF⟩⟩
  · rw [hr]
    intro m hmm
    rcases fm m hmm with h | h
    · rcases hm m h with h | h
      · exact .inl (hbody m h)
      · exact .inr (.inl h)
    · exact .inr (.inr h)
  · rw [hr] at hx
    rcases n0 x hx with h | h
    · exact absurd h (by simp [Collector.new])
    · exact h.1
  · rw [hwalk]
    rw [hr] at hx
    rcases n0 x hx with h | h
    · exact absurd h (by simp [Collector.new])
    · exact h.2
  · intro x hx
    rw [hr] at hx ⊢
    obtain ⟨name, b, e1, e2⟩ := s0.inv.targets x hx
    exact ⟨name, b, e1, fs (hs e2), hbody _ e2⟩

end Docx
