import Verif.Model.Media
import Verif.Lemmas.DocTree
import Verif.Lemmas.Digits
import Mathlib.Data.List.Forall2

/-! Lemmas for the picture and footnote properties: the invariants of the media registry and of the
part collector. -/

namespace Docx
open Docx.Spec

theorem suffixed_inj (p : Str) {a b : Nat} (h : suffixed p a = suffixed p b) : a = b := by
  unfold suffixed at h
  exact dec_inj (List.append_cancel_left h)

theorem freeSuffix_spec (used : List Str) (p : Str) : ∀ (fuel n : Nat),
    (∃ k, k < fuel ∧ suffixed p (n + k) ∉ used) →
    ∃ c m, freeSuffix used p fuel n = some (c, m) ∧ c ∉ used
  | 0, n, ⟨k, hk, _⟩ => by omega
  | fuel + 1, n, ⟨k, hk, hn⟩ => by
    unfold freeSuffix
    by_cases h : suffixed p n ∈ used
    · rw [if_pos h]
      cases k with
      | zero => exact absurd h hn
      | succ k =>
        exact freeSuffix_spec used p fuel (n + 1) ⟨k, by omega, by rwa [Nat.add_right_comm, Nat.add_assoc]⟩
    · rw [if_neg h]
      exact ⟨_, _, rfl, h⟩

/-- The id chosen by `unique_media_id` and `unique_relationship_id` is free. -/
theorem uniqueId_fresh (used : List Str) (next : List (Str × Nat)) (p : Str) :
    (uniqueId used next p).1 ∉ used := by
  unfold uniqueId
  by_cases h : p ∈ used
  · rw [if_neg (by simpa using h)]
    obtain ⟨k, hk, hn⟩ := exists_not_mem_of_injective (suffixed p) (suffixed_inj p) used
      ((next.lookup p).getD 2)
    obtain ⟨c, m, e, hc⟩ := freeSuffix_spec used p (used.length + 1) _ ⟨k, by omega, hn⟩
    rw [e]
    exact hc
  · rw [if_pos h]
    exact h

theorem lookup_cons_eq {α β : Type} [BEq α] [LawfulBEq α] (a : α) (b : β) (l : List (α × β)) :
    ((a, b) :: l).lookup a = some b := by simp [List.lookup]

theorem lookup_cons_ne {α β : Type} [BEq α] [LawfulBEq α] {a x : α} (b : β) (l : List (α × β))
    (h : x ≠ a) : ((a, b) :: l).lookup x = l.lookup x := by
  have : (x == a) = false := by simpa using h
  simp [List.lookup, this]

/-- The invariant of the media registry. -/
structure MediaRegistry.Inv (crc : Bytes → Nat) (r : MediaRegistry) : Prop where
  ids : (r.media.map Prod.fst).Nodup
  bytes : (r.media.map Prod.snd).Nodup
  keys : ∀ id, id ∈ r.media.map Prod.fst → id ∈ r.mediaById.map Prod.fst
  fp : ∀ (i : Nat) (m : Str × Bytes), r.media[i]? = some m →
    i ∈ (r.byFingerprint.lookup (m.2.length, crc m.2)).getD []

theorem MediaRegistry.Inv.empty (crc : Bytes → Nat) : ({} : MediaRegistry).Inv crc :=
  ⟨by simp, by simp, by simp, by simp⟩

theorem MediaRegistry.holds_iff (r : MediaRegistry) (b : Bytes) (i : Nat) :
    r.holds b i = true ↔ ∃ n, r.media[i]? = some (n, b) := by
  unfold MediaRegistry.holds
  cases h : r.media[i]? with
  | none => simp
  | some m => 
    rcases m with ⟨n, x⟩
    simp only [Option.any_some, decide_eq_true_eq, Option.some.injEq, Prod.mk.injEq]
    exact ⟨fun e => ⟨n, rfl, e⟩, fun ⟨_, _, e⟩ => e⟩

theorem MediaRegistry.register_spec (crc : Bytes → Nat) (r : MediaRegistry) (h : r.Inv crc)
    (p : Str) (b : Bytes) :
    (r.register crc p b).2.Inv crc ∧ (∃ n, (r.register crc p b).2.media[(r.register crc p b).1]? = some (n, b)) ∧
      ∃ t, (r.register crc p b).2.media = r.media ++ t ∧ ∀ m ∈ t, m.2 = b := by
  unfold MediaRegistry.register
  cases h1 : (r.mediaById.lookup p).filter (r.holds b) with
  | some i =>
    have := (Option.filter_eq_some_iff.mp h1).2
    exact ⟨h, (r.holds_iff b i).mp this, [], by simp⟩
  | none =>
    dsimp only
    cases h2 : ((r.byFingerprint.lookup (b.length, crc b)).getD []).find? (r.holds b) with
    | some i =>
      have := List.find?_some h2
      exact ⟨h, (r.holds_iff b i).mp this, [], by simp⟩
    | none =>
      dsimp only
      have hfresh := uniqueId_fresh (r.mediaById.map Prod.fst) r.nextSuffixById p
      generalize uniqueId (r.mediaById.map Prod.fst) r.nextSuffixById p = u at *
      have hnew : b ∉ r.media.map Prod.snd := by
        intro hb
        obtain ⟨m, hm, rfl⟩ := List.mem_map.mp hb
        obtain ⟨i, hi⟩ := List.mem_iff_getElem?.mp hm
        have hc := h.fp i m hi
        have := (List.find?_eq_none.mp h2) i hc
        exact this ((r.holds_iff m.2 i).mpr ⟨m.1, by rw [hi]⟩)
      refine ⟨⟨?_, ?_, ?_, ?_⟩, ⟨u.1, by simp⟩, [(u.1, b)], rfl, by simp⟩
      · rw [List.map_append, List.nodup_append]
        refine ⟨h.ids, by simp, ?_⟩
        intro x hx y hy e
        simp at hy
        subst hy
        subst e
        exact hfresh (h.keys _ hx)
      · rw [List.map_append, List.nodup_append]
        refine ⟨h.bytes, by simp, ?_⟩
        intro x hx y hy e
        simp at hy
        subst hy
        subst e
        exact hnew hx
      · intro id hid
        rw [List.map_append, List.mem_append] at hid
        rw [List.map_cons, List.mem_cons]
        rcases hid with hid | hid
        · exact Or.inr (h.keys _ hid)
        · exact Or.inl (by simpa using hid)
      · intro i m hi
        dsimp only at hi ⊢
        by_cases hl : i < r.media.length
        · rw [List.getElem?_append_left hl] at hi
          have := h.fp i m hi
          by_cases hk : (m.2.length, crc m.2) = (b.length, crc b)
          · rw [hk] at this ⊢
            rw [lookup_cons_eq]
            simp only [Option.getD_some, List.mem_append]
            exact Or.inl this
          · rw [lookup_cons_ne _ _ hk]
            exact this
        · rw [List.getElem?_append_right (by omega)] at hi
          have hi0 : i = r.media.length := by
            by_contra hne
            have : i - r.media.length ≠ 0 := by omega
            cases hh : i - r.media.length with
            | zero => exact this hh
            | succ k => rw [hh] at hi; simp at hi
          subst hi0
          simp at hi
          subst hi
          rw [lookup_cons_eq]
          simp

/-- The invariant of the part collector. -/
structure Collector.Inv (crc : Bytes → Nat) (c : Collector) : Prop where
  reg : c.registry.Inv crc
  ids : (c.relationships.map Prod.fst).Nodup
  keys : ∀ id, id ∈ c.relationships.map Prod.fst → id ∈ c.relationshipIds
  byMedia : ∀ m i, c.relationshipsByMedia.lookup m = some i →
    ∃ id name b, c.relationships[i]? = some (id, mediaTarget name) ∧ c.registry.media[m]? = some (name, b)
  targets : ∀ x ∈ c.relationships, ∃ name b, x.2 = mediaTarget name ∧ (name, b) ∈ c.registry.media

theorem Collector.Inv.new (crc : Bytes → Nat) (r : MediaRegistry) (h : r.Inv crc) (pfx : Str) :
    (Collector.new r pfx).Inv crc :=
  ⟨h, by simp [Collector.new], by simp [Collector.new], by simp [Collector.new], by simp [Collector.new]⟩

/-- A relationship id leads to bytes. -/
def LeadsTo (rels : List (Str × Str)) (media : List (Str × Bytes)) (id : Str) (b : Bytes) : Prop :=
  ∃ name, (id, mediaTarget name) ∈ rels ∧ (name, b) ∈ media

theorem LeadsTo.mono {rels rels' : List (Str × Str)} {media media' : List (Str × Bytes)} {id : Str}
    {b : Bytes} (hr : rels ⊆ rels') (hm : media ⊆ media') (h : LeadsTo rels media id b) :
    LeadsTo rels' media' id b := by
  obtain ⟨n, h1, h2⟩ := h
  exact ⟨n, hr h1, hm h2⟩

/-- What one picture does to the collector. -/
structure Step (crc : Bytes → Nat) (c c' : Collector) : Prop where
  inv : c'.Inv crc
  rels : c.relationships ⊆ c'.relationships
  media : c.registry.media ⊆ c'.registry.media

theorem Collector.visitPicture_spec (crc : Bytes → Nat) (p : Pic) (c : Collector) (h : c.Inv crc) :
    Step crc c (c.visitPicture crc p).2 ∧ SamePicture p (c.visitPicture crc p).1 ∧
    LeadsTo (c.visitPicture crc p).2.relationships (c.visitPicture crc p).2.registry.media
      (c.visitPicture crc p).1.id p.image ∧
    (∀ m ∈ (c.visitPicture crc p).2.registry.media, m ∈ c.registry.media ∨ m.2 = p.image) ∧
    (c.visitPicture crc p).2.footnotes = c.footnotes := by
  have hr := c.registry.register_spec crc h.reg (c.relationshipId p.id) p.image
  unfold Collector.visitPicture
  dsimp only
  generalize c.registry.register crc (c.relationshipId p.id) p.image = g at *
  obtain ⟨g1, g2⟩ := g
  dsimp only at hr ⊢
  obtain ⟨hinv, ⟨n, hn⟩, t, ht, htb⟩ := hr
  have hsub : c.registry.media ⊆ g2.media := by rw [ht]; exact List.subset_append_left _ _
  have hprov : ∀ m ∈ g2.media, m ∈ c.registry.media ∨ m.2 = p.image := by
    intro m hm
    rw [ht] at hm
    rcases List.mem_append.mp hm with hm | hm
    · exact Or.inl hm
    · exact Or.inr (htb m hm)
  have hold : ∀ (m : Nat) x, c.registry.media[m]? = some x → g2.media[m]? = some x := by
    intro m x hx
    have hlt : m < c.registry.media.length := (List.getElem?_eq_some_iff.mp hx).1
    rw [ht, List.getElem?_append_left hlt]
    exact hx
  cases h1 : c.relationshipsByMedia.lookup g1 with
  | some i =>
    obtain ⟨id, name, b, e1, e2⟩ := h.byMedia g1 i h1
    dsimp only
    have e3 := hold g1 _ e2
    rw [hn] at e3
    obtain ⟨rfl, rfl⟩ : n = name ∧ p.image = b := by simpa using e3
    refine ⟨⟨⟨hinv, h.ids, h.keys, ?_, ?_⟩, fun _ hx => hx, hsub⟩, by simp [SamePicture], ?_, hprov, rfl⟩
    · intro m j hj
      obtain ⟨id', name', b', e1', e2'⟩ := h.byMedia m j hj
      exact ⟨id', name', b', e1', hold m _ e2'⟩
    · intro x hx
      obtain ⟨name', b', e1', e2'⟩ := h.targets x hx
      exact ⟨name', b', e1', hsub e2'⟩
    · refine ⟨n, ?_, List.mem_of_getElem? hn⟩
      simp only [e1, Option.map_some, Option.getD_some]
      exact List.mem_of_getElem? e1
  | none =>
    dsimp only
    have hfresh := uniqueId_fresh c.relationshipIds c.nextRelationshipSuffixById (c.relationshipId p.id)
    generalize uniqueId c.relationshipIds c.nextRelationshipSuffixById (c.relationshipId p.id) = u at *
    rw [hn]
    simp only [Option.map_some, Option.getD_some]
    refine ⟨⟨⟨hinv, ?_, ?_, ?_, ?_⟩, List.subset_append_left _ _, hsub⟩, by simp [SamePicture], ?_, hprov, trivial⟩
    · rw [List.map_append, List.nodup_append]
      refine ⟨h.ids, by simp, ?_⟩
      intro x hx y hy e
      simp at hy
      subst hy
      subst e
      exact hfresh (h.keys _ hx)
    · intro id hid
      rw [List.map_append, List.mem_append] at hid
      rw [List.mem_cons]
      rcases hid with hid | hid
      · exact Or.inr (h.keys _ hid)
      · exact Or.inl (by simpa using hid)
    · intro m j hj
      by_cases hm : m = g1
      · subst hm
        rw [lookup_cons_eq] at hj
        obtain rfl : c.relationships.length = j := by simpa using hj
        exact ⟨u.1, n, p.image, by simp, hn⟩
      · rw [lookup_cons_ne _ _ hm] at hj
        obtain ⟨id', name', b', e1', e2'⟩ := h.byMedia m j hj
        have hlt : j < c.relationships.length := (List.getElem?_eq_some_iff.mp e1').1
        refine ⟨id', name', b', ?_, hold m _ e2'⟩
        dsimp only
        rw [List.getElem?_append_left hlt]
        exact e1'
    · intro x hx
      rcases List.mem_append.mp hx with hx | hx
      · obtain ⟨name', b', e1', e2'⟩ := h.targets x hx
        exact ⟨name', b', e1', hsub e2'⟩
      · obtain rfl : x = (u.1, mediaTarget n) := by simpa using hx
        exact ⟨n, p.image, rfl, List.mem_of_getElem? hn⟩
    · exact ⟨n, by simp, List.mem_of_getElem? hn⟩

/-- A visited item before and after. -/
def Matches (rels : List (Str × Str)) (media : List (Str × Bytes)) : Visited → Visited → Prop
  | .pic p, .pic q => SamePicture p q ∧ LeadsTo rels media q.id p.image
  | .fn f, .fn g => f = g
  | _, _ => False

theorem Matches.mono {rels rels' : List (Str × Str)} {media media' : List (Str × Bytes)}
    (hr : rels ⊆ rels') (hm : media ⊆ media') {x y : Visited} (h : Matches rels media x y) :
    Matches rels' media' x y := by
  cases x <;> cases y <;> simp only [Matches] at *
  · exact ⟨h.1, h.2.mono hr hm⟩
  · exact h

def Visited.pic? : Visited → Option Pic
  | .pic p => some p
  | .fn _ => none

def Visited.fn? : Visited → Option Footnote
  | .fn f => some f
  | .pic _ => none

theorem filterMap_pic_pic (p : Pic) (l : List Visited) :
    (Visited.pic p :: l).filterMap Visited.pic? = p :: l.filterMap Visited.pic? := rfl
theorem filterMap_pic_fn (f : Footnote) (l : List Visited) :
    (Visited.fn f :: l).filterMap Visited.pic? = l.filterMap Visited.pic? := rfl
theorem filterMap_fn_pic (p : Pic) (l : List Visited) :
    (Visited.pic p :: l).filterMap Visited.fn? = l.filterMap Visited.fn? := rfl
theorem filterMap_fn_fn (f : Footnote) (l : List Visited) :
    (Visited.fn f :: l).filterMap Visited.fn? = f :: l.filterMap Visited.fn? := rfl

theorem visitItems_collector (crc : Bytes → Nat) : ∀ (l : List Visited) (c : Collector), c.Inv crc →
    Step crc c (visitItems (Collector.visitor crc) l c).2 ∧
    List.Forall₂ (Matches (visitItems (Collector.visitor crc) l c).2.relationships
      (visitItems (Collector.visitor crc) l c).2.registry.media) l
      (visitItems (Collector.visitor crc) l c).1 ∧
    (∀ m ∈ (visitItems (Collector.visitor crc) l c).2.registry.media,
      m ∈ c.registry.media ∨ m.2 ∈ (l.filterMap Visited.pic?).map Pic.image) ∧
    (visitItems (Collector.visitor crc) l c).2.footnotes = c.footnotes ++ l.filterMap Visited.fn?
  | [], c, h => ⟨⟨h, fun _ => id, fun _ => id⟩, by simp [visitItems], fun m hm => Or.inl hm, by simp [visitItems]⟩
  | .pic p :: l, c, h => by
    obtain ⟨s1, sp, lt, pv, fn⟩ := c.visitPicture_spec crc p h
    have e : (Collector.visitor crc).picture p c = c.visitPicture crc p := rfl
    simp only [visitItems, e]
    obtain ⟨s2, f2, pv2, fn2⟩ := visitItems_collector crc l (c.visitPicture crc p).2 s1.inv
    refine ⟨⟨s2.inv, fun _ hx => s2.rels (s1.rels hx), fun _ hx => s2.media (s1.media hx)⟩, ?_, ?_, ?_⟩
    · exact List.Forall₂.cons ⟨sp, lt.mono s2.rels s2.media⟩ f2
    · intro m hm
      rw [filterMap_pic_pic, List.map_cons, List.mem_cons]
      rcases pv2 m hm with hm | hm
      · rcases pv m hm with hm | hm
        · exact Or.inl hm
        · exact Or.inr (Or.inl hm)
      · exact Or.inr (Or.inr hm)
    · rw [fn2, fn, filterMap_fn_pic]
  | .fn f :: l, c, h => by
    have e : (Collector.visitor crc).footnote f c = c.visitFootnote f := rfl
    simp only [visitItems, e]
    have h' : (c.visitFootnote f).Inv crc := ⟨h.reg, h.ids, h.keys, h.byMedia, h.targets⟩
    obtain ⟨s2, f2, pv2, fn2⟩ := visitItems_collector crc l (c.visitFootnote f) h'
    refine ⟨⟨s2.inv, s2.rels, s2.media⟩, List.Forall₂.cons rfl f2, ?_, ?_⟩
    · intro m hm
      rw [filterMap_pic_fn]
      exact pv2 m hm
    · rw [fn2, filterMap_fn_fn]
      simp [Collector.visitFootnote]

theorem partPictures_eq (l : Walk) : partPictures l = (visited l).filterMap Visited.pic? := by
  unfold partPictures visited
  rw [List.filterMap_filterMap]
  congr 1
  funext i
  cases i <;> rfl

theorem partFootnotes_eq (l : Walk) : partFootnotes l = (visited l).filterMap Visited.fn? := by
  unfold partFootnotes visited
  rw [List.filterMap_filterMap]
  congr 1
  funext i
  cases i <;> rfl

theorem matches_footnotes {rels : List (Str × Str)} {media : List (Str × Bytes)} :
    ∀ {a b : List Visited}, List.Forall₂ (Matches rels media) a b →
      a.filterMap Visited.fn? = b.filterMap Visited.fn? := by
  intro a b h
  induction h with
  | nil => rfl
  | @cons x y a b h _ ih =>
    cases x <;> cases y <;> simp only [Matches] at h
    · simpa [List.filterMap_cons, Visited.fn?] using ih
    · subst h; simpa [List.filterMap_cons, Visited.fn?] using ih

theorem matches_pictures {rels : List (Str × Str)} {media : List (Str × Bytes)} :
    ∀ {a b : List Visited}, List.Forall₂ (Matches rels media) a b →
    List.Forall₂ (fun p q => SamePicture p q ∧ LeadsTo rels media q.id p.image)
      (a.filterMap Visited.pic?) (b.filterMap Visited.pic?) := by
  intro a b h
  induction h with
  | nil => exact .nil
  | @cons x y _ _ h _ ih =>
    cases x <;> cases y <;> simp only [Matches] at h
    · rw [filterMap_pic_pic, filterMap_pic_pic]
      exact .cons h ih
    · rw [filterMap_pic_fn, filterMap_pic_fn]
      exact ih

theorem filter_eq_singleton {α : Type} {β : Type} [DecidableEq β] (f : α → β) :
    ∀ {l : List α}, (l.map f).Nodup → ∀ {x : α}, x ∈ l → l.filter (fun y => decide (f y = f x)) = [x]
  | [], _, x, hx => by simp at hx
  | y :: l, hn, x, hx => by
    simp only [List.map_cons, List.nodup_cons] at hn
    rcases List.mem_cons.mp hx with rfl | hx
    · rw [List.filter_cons_of_pos (by simp)]
      congr 1
      rw [List.filter_eq_nil_iff]
      intro z hz
      simp only [decide_eq_true_eq]
      intro e
      exact hn.1 (e ▸ List.mem_map_of_mem hz)
    · have hne : f y ≠ f x := fun e => hn.1 (e ▸ List.mem_map_of_mem hx)
      rw [List.filter_cons_of_neg (by simpa using hne)]
      exact filter_eq_singleton f hn.2 hx

theorem LeadsTo.resolves {rels : List (Str × Str)} {media : List (Str × Bytes)} {id : Str} {b : Bytes}
    (hr : (rels.map Prod.fst).Nodup) (hm : (media.map Prod.fst).Nodup) (h : LeadsTo rels media id b) :
    Resolves rels media id b := by
  obtain ⟨n, h1, h2⟩ := h
  exact ⟨n, filter_eq_singleton Prod.fst hr h1, filter_eq_singleton Prod.fst hm h2⟩

end Docx
