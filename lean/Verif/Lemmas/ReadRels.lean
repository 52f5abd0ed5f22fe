import Verif.Spec.Targets
import Verif.Lemmas.DocRels
import Verif.Lemmas.ReadNumberings

/-!
# Relationships that are written and read
-/

namespace Docx

set_option linter.unusedSimpArgs false

open Docx.Xml Docx.Spec

variable {x : ReadEnv}

/-- A relationship whose values the parser accepts. -/
def Spec.Relation.Decodes (r : Relation) : Prop :=
  (decodeAttr r.id).isSome ∧ (decodeAttr r.type).isSome ∧ (decodeAttr r.target).isSome ∧ ∀ m, r.mode = some m → (decodeAttr m).isSome

/-- A relationship as it is read. -/
def Spec.Relation.seen (r : Relation) : Relation := ⟨Docx.seen r.id, Docx.seen r.type, Docx.seen r.target, r.mode.map Docx.seen⟩

/-- The place a relationship of a part in the folder leads to. -/
def Spec.Relation.toTarget (dir : Str) (r : Relation) : Target where
  rid := r.id
  path := if c!"hyperlink".isSuffixOf r.type then r.target else pathJoin dir r.target
  mode := r.mode

/-- One more relationship. -/
def addRelation (dir : Str) (m : ReadRels) (r : Relation) : ReadRels := insertRel r.type (r.toTarget dir) m

theorem decodeRelation_seen {r : Relation} (h : r.Decodes) : decodeRelation r = some r.seen := by
  obtain ⟨i, t, g, m⟩ := r
  obtain ⟨h1, h2, h3, h4⟩ := h
  simp only at h1 h2 h3 h4
  obtain ⟨i', e1⟩ := Option.isSome_iff_exists.1 h1
  obtain ⟨t', e2⟩ := Option.isSome_iff_exists.1 h2
  obtain ⟨g', e3⟩ := Option.isSome_iff_exists.1 h3
  unfold decodeRelation Relation.seen seen
  simp only [e1, e2, e3, Option.getD_some]
  cases m with
  | none => rfl
  | some m =>
    obtain ⟨m', e4⟩ := Option.isSome_iff_exists.1 (h4 m rfl)
    simp [e4]

theorem relation_attrs {r : Relation} (h : r.Decodes) :
    (expectAttrs ([(c!"Id", r.id), (c!"Type", r.type), (c!"Target", r.target)] ++ optAttr c!"TargetMode" r.mode)).foldl RelAttrs.add {} =
      { type := r.seen.type, rid := r.seen.id, mode := r.seen.mode, target := r.seen.target } := by
  obtain ⟨i, t, g, m⟩ := r
  obtain ⟨h1, h2, h3, h4⟩ := h
  simp only at h1 h2 h3 h4
  cases m with
  | none =>
    simp only [optAttr, List.append_nil]
    rw [expectAttrs_cons h1, expectAttrs_cons h2, expectAttrs_cons h3, expectAttrs_nil]
    rfl
  | some m =>
    simp only [optAttr, List.cons_append, List.nil_append]
    rw [expectAttrs_cons h1, expectAttrs_cons h2, expectAttrs_cons h3, expectAttrs_cons (h4 m rfl), expectAttrs_nil]
    rfl

theorem takes_relations (dir : Str) : ∀ (l : List Relation) (m : ReadRels), (∀ r ∈ l, r.Decodes) →
    TakesF x (fun _ => relsLoop dir) m (l.flatMap relationN) ((l.map Relation.seen).foldl (addRelation dir) m)
  | [], m, _ => .nil m
  | r :: l, m, h => by
    rw [List.flatMap_cons, List.map_cons, List.foldl_cons]
    refine TakesF.append ?_ (takes_relations dir l _ fun r hr => h r (.tail _ hr))
    unfold relationN leafN
    refine TakesF.leaf' (fun d es _ => ?_) (fun d => ?_)
    · simp only [relsLoop, relation_attrs (h r (.head _))]
      have : elementOf (splitQName c!"Relationship").loc = .relationship := by decide +kernel
      rw [if_pos this]
      rfl
    · have : elementOf (splitQName c!"Relationship").loc ≠ .relationships := by decide +kernel
      simp only [relsLoop, closesAt, if_neg this]

/-- What is read from relationships that were written. -/
theorem reads_relations (sa : Option Bool) (dir : Str) (l : List Relation) (hok : OkF (relationshipsN (l.flatMap relationN)))
    (h : ∀ r ∈ l, r.Decodes) :
    ∃ k, ∀ n, k ≤ n → readRelsXml n dir (constText sa (relationshipsN (l.flatMap relationN))) =
      .ok ((l.map Relation.seen).foldl (addRelation dir) []) [.endDocument] := by
  have x : ReadEnv := ⟨fun _ => none, fun _ => none, fun _ => none, []⟩
  obtain ⟨k, hk⟩ := runs_root (x := x) (L := fun _ => relsLoop dir) (s := []) (n := c!"Relationships")
    (as := [(c!"xmlns", c!"http://schemas.openxmlformats.org/package/2006/relationships")])
    (fun d es => by
      have : elementOf (splitQName c!"Relationships").loc ≠ .relationship := by decide +kernel
      simp only [relsLoop, if_neg this])
    (takes_relations dir l [] h)
    (fun d => by
      have : elementOf (splitQName c!"Relationships").loc = .relationships := by decide +kernel
      simp only [relsLoop, closesAt, if_pos this])
  refine ⟨k, fun n hn => ?_⟩
  rw [readRelsXml, constText_reads sa hok]
  exact hk k (Nat.le_refl _) n hn

/-! ## The sets of targets -/

theorem compareStr_self (s : Str) : compareStr s s = .eq := by
  induction s with
  | nil => rfl
  | cons c s ih => simp [compareStr, ih]

theorem compareStr_eq {s t : Str} (h : compareStr s t = .eq) : s = t := by
  induction s generalizing t with
  | nil => cases t with
    | nil => rfl
    | cons => cases h
  | cons a s ih => cases t with
    | nil => cases h
    | cons b t =>
      unfold compareStr at h
      split at h
      · cases h
      · split at h
        · cases h
        · rename_i h1 h2
          have : a = b := Char.ext (UInt32.ext (by
            have e : a.toNat = b.toNat := by omega
            exact e))
          rw [this, ih h]

theorem compareTarget_rid {a b : Target} (h : compareTarget a b = .eq) : a.rid = b.rid := by
  refine compareStr_eq ?_
  unfold compareTarget at h
  revert h
  cases compareStr a.rid b.rid <;> simp [Ordering.then]

theorem mem_insertTarget {t u : Target} {l : List Target} (h : ∀ v ∈ l, v.rid = t.rid → v = t) :
    u ∈ insertTarget t l ↔ u = t ∨ u ∈ l := by
  induction l with
  | nil => simp [insertTarget]
  | cons v l ih =>
    unfold insertTarget
    split
    · simp
    · rename_i e
      have := h v (.head _) (compareTarget_rid e).symm
      subst this
      simp
    · rw [List.mem_cons, ih fun w hw => h w (.tail _ hw), List.mem_cons]
      grind

theorem targets_insertRel (ty ty' : Str) (t : Target) (m : ReadRels) :
    (insertRel ty t m).targets ty' =
      if ty' = ty then some (insertTarget t ((m.targets ty).getD [])) else m.targets ty' := by
  induction m with
  | nil =>
    unfold insertRel ReadRels.targets
    by_cases e : ty' = ty
    · subst e; simp [insertTarget]
    · have : ty ≠ ty' := fun h => e h.symm
      simp [e, this]
  | cons a m ih =>
    obtain ⟨k, ts⟩ := a
    unfold insertRel
    by_cases hk : k = ty
    · subst hk
      rw [if_pos rfl]
      by_cases e : ty' = k
      · subst e; simp [ReadRels.targets]
      · have : k ≠ ty' := fun h => e h.symm
        simp [ReadRels.targets, e, this]
    · rw [if_neg hk]
      unfold ReadRels.targets at ih ⊢
      by_cases hk' : k = ty'
      · subst hk'
        have : k ≠ ty := hk
        simp [this]
      · simp only [List.find?_cons, hk', decide_false, hk] at ih ⊢
        exact ih

theorem compareStr_swap (s t : Str) : compareStr t s = (compareStr s t).swap := by
  induction s generalizing t with
  | nil => cases t <;> rfl
  | cons a s ih => cases t with
    | nil => rfl
    | cons b t =>
      unfold compareStr
      by_cases h1 : a.toNat < b.toNat
      · have : ¬ b.toNat < a.toNat := by omega
        simp [h1, this]
      · by_cases h2 : b.toNat < a.toNat
        · simp [h1, h2]
        · simp [h1, h2, ih]

theorem compareStr_trans {s t u : Str} (h1 : compareStr s t = .lt) (h2 : compareStr t u = .lt) : compareStr s u = .lt := by
  induction s generalizing t u with
  | nil => cases t with
    | nil => cases h1
    | cons b t => cases u with
      | nil => cases h2
      | cons => rfl
  | cons a s ih => cases t with
    | nil => cases h1
    | cons b t => cases u with
      | nil => cases h2
      | cons c u =>
        unfold compareStr at h1 h2 ⊢
        by_cases x1 : a.toNat < b.toNat
        · by_cases x2 : b.toNat < c.toNat
          · rw [if_pos (by omega)]
          · rw [if_neg x2] at h2
            by_cases x3 : c.toNat < b.toNat
            · rw [if_pos x3] at h2; cases h2
            · rw [if_pos (by omega)]
        · rw [if_neg x1] at h1
          by_cases x2 : b.toNat < a.toNat
          · rw [if_pos x2] at h1; cases h1
          · rw [if_neg x2] at h1
            by_cases x3 : b.toNat < c.toNat
            · rw [if_pos (by omega)]
            · rw [if_neg x3] at h2
              by_cases x4 : c.toNat < b.toNat
              · rw [if_pos x4] at h2; cases h2
              · rw [if_neg x4] at h2
                rw [if_neg (by omega), if_neg (by omega)]
                exact ih h1 h2

theorem compareTarget_of_rid {a b : Target} (h : a.rid ≠ b.rid) : compareTarget a b = compareStr a.rid b.rid := by
  unfold compareTarget
  cases e : compareStr a.rid b.rid with
  | eq => exact absurd (compareStr_eq e) h
  | lt => rfl
  | gt => rfl

/-- In the order of the ids. -/
def ByRid (l : List Target) : Prop := l.Pairwise fun a b => compareStr a.rid b.rid = .lt

theorem insertTarget_sorted {t : Target} {l : List Target} (hs : ByRid l) (h : ∀ v ∈ l, v.rid = t.rid → v = t) :
    ByRid (insertTarget t l) := by
  induction l with
  | nil => exact List.pairwise_singleton _ _
  | cons v l ih =>
    obtain ⟨s1, s2⟩ := List.pairwise_cons.1 hs
    by_cases e : v.rid = t.rid
    · have := h v (.head _) e
      subst this
      have : compareTarget v v = .eq := by
        unfold compareTarget
        have hp : ∀ l : List PathPart, compareParts l l = .eq := by
          intro l
          induction l with
          | nil => rfl
          | cons a l ih =>
            have : comparePart a a = .eq := by
              cases a <;> first | rfl | exact compareStr_self _
            simp [compareParts, this, ih]
        have hm : compareMode v.mode v.mode = .eq := by
          cases v.mode with
          | none => rfl
          | some m => exact compareStr_self m
        simp [compareStr_self, comparePath, hp, hm]
      unfold insertTarget
      rw [this]
      exact hs
    · have e' : t.rid ≠ v.rid := fun h => e h.symm
      unfold insertTarget
      rw [compareTarget_of_rid e']
      cases c : compareStr t.rid v.rid with
      | eq => exact absurd (compareStr_eq c) e'
      | lt =>
        exact List.pairwise_cons.2 ⟨fun u hu => by
          rcases List.mem_cons.1 hu with rfl | hu
          · exact c
          · exact compareStr_trans c (s1 u hu), hs⟩
      | gt =>
        refine List.pairwise_cons.2 ⟨fun u hu => ?_, ih s2 fun w hw => h w (.tail _ hw)⟩
        rw [mem_insertTarget fun w hw => h w (.tail _ hw)] at hu
        rcases hu with rfl | hu
        · rw [compareStr_swap, c]; rfl
        · exact s1 u hu

/-- Relationships of one type with one id are the same. -/
def Apart (rs : List Relation) : Prop := ∀ r ∈ rs, ∀ r' ∈ rs, r.type = r'.type → r.id = r'.id → r = r'

/-- A relationship whose place is the one the rules give. -/
def Ordinary (r : Relation) : Prop :=
  r.type = c!"http://schemas.openxmlformats.org/officeDocument/2006/relationships/hyperlink" ∨
  ¬ c!"hyperlink" <:+ r.type ∧ r.target.head? ≠ some '/'

theorem ordinary_place {folder : Str} {r : Relation} (hf : folder ≠ [] ∧ folder.getLast? ≠ some '/') (h : Ordinary r) :
    r.toTarget folder = ⟨r.id, placeOf folder r, r.mode⟩ := by
  unfold Spec.Relation.toTarget placeOf
  rcases h with h | ⟨h1, h2⟩
  · have : c!"hyperlink".isSuffixOf r.type = true := by rw [h]; decide
    rw [if_pos this, if_pos h]
  · have e1 : ¬ c!"hyperlink".isSuffixOf r.type = true := fun e => h1 (List.isSuffixOf_iff_suffix.1 e)
    have e2 : r.type ≠ c!"http://schemas.openxmlformats.org/officeDocument/2006/relationships/hyperlink" := by
      intro e
      apply h1
      rw [e]
      exact List.isSuffixOf_iff_suffix.1 (by decide)
    rw [if_neg e1, if_neg e2, pathJoin, if_neg h2, if_neg (by rintro (h | h); exact hf.1 h; exact hf.2 h), List.append_assoc]
    rfl

theorem fold_finds {folder : Str} (hf : folder ≠ [] ∧ folder.getLast? ≠ some '/') (rs : List Relation) (ho : ∀ r ∈ rs, Ordinary r)
    (ha : Apart rs) : Finds (rs.foldl (addRelation folder) []) folder rs := by
  suffices H : ∀ (done : List Relation) (m : ReadRels), (∀ r ∈ done, r ∈ rs) → Finds m folder done → ∀ todo, (∀ r ∈ todo, r ∈ rs) →
      Finds (todo.foldl (addRelation folder) m) folder (done ++ todo) by
    have := H [] [] (by simp) ⟨fun ty t => by simp [ReadRels.targets], fun ty ts e => by simp [ReadRels.targets] at e⟩ rs (fun _ h => h)
    simpa using this
  intro done m hd hm todo
  induction todo generalizing done m with
  | nil => intro _; simpa using hm
  | cons r todo ih =>
    intro ht
    rw [List.foldl_cons, show done ++ r :: todo = (done ++ [r]) ++ todo by simp]
    have hr := ht r (.head _)
    refine ih (done ++ [r]) _ (fun q hq => ?_) ?_ fun q hq => ht q (.tail _ hq)
    · rcases List.mem_append.1 hq with hq | hq
      · exact hd q hq
      · rw [List.mem_singleton.1 hq]; exact hr
    have hv : ∀ v ∈ (m.targets r.type).getD [], v.rid = (r.toTarget folder).rid → v = r.toTarget folder := by
      intro v hv e
      cases hm' : m.targets r.type with
      | none => rw [hm'] at hv; cases hv
      | some ts =>
        rw [hm', Option.getD_some] at hv
        obtain ⟨q, hq, e1, e2⟩ := (hm.mem r.type v).1 ⟨ts, hm', hv⟩
        subst e2
        have : q = r := ha q (hd q hq) r hr e1 e
        subst this
        rw [ordinary_place hf (ho q hr)]
    constructor
    · intro ty t
      unfold addRelation
      rw [targets_insertRel]
      by_cases e : ty = r.type
      · subst e
        rw [if_pos rfl]
        constructor
        · rintro ⟨ts, e1, e2⟩
          obtain rfl := Option.some.inj e1
          rw [mem_insertTarget hv] at e2
          rcases e2 with rfl | e2
          · exact ⟨r, by simp, rfl, ordinary_place hf (ho r hr)⟩
          · cases hm' : m.targets r.type with
            | none => rw [hm'] at e2; cases e2
            | some ts =>
              rw [hm', Option.getD_some] at e2
              obtain ⟨q, hq, h1, h2⟩ := (hm.mem r.type t).1 ⟨ts, hm', e2⟩
              exact ⟨q, by simp [hq], h1, h2⟩
        · rintro ⟨q, hq, h1, h2⟩
          refine ⟨_, rfl, ?_⟩
          rw [mem_insertTarget hv]
          rcases List.mem_append.1 hq with hq | hq
          · obtain ⟨ts, h3, h4⟩ := (hm.mem r.type t).2 ⟨q, hq, h1, h2⟩
            rw [h3]
            exact .inr h4
          · rw [List.mem_singleton.1 hq] at h2
            rw [ordinary_place hf (ho r hr)]
            exact .inl h2
      · rw [if_neg e, hm.mem]
        constructor
        · rintro ⟨q, hq, h⟩
          exact ⟨q, by simp [hq], h⟩
        · rintro ⟨q, hq, h1, h2⟩
          rcases List.mem_append.1 hq with hq | hq
          · exact ⟨q, hq, h1, h2⟩
          · rw [List.mem_singleton.1 hq] at h1
            exact absurd h1.symm e
    · intro ty ts
      unfold addRelation
      rw [targets_insertRel]
      split
      · intro e
        obtain rfl := Option.some.inj e
        refine insertTarget_sorted ?_ hv
        cases hm' : m.targets r.type with
        | none => exact List.Pairwise.nil
        | some ts => exact hm.order _ _ hm'
      · exact hm.order ty ts

/-- Written relationships are read as they stand. -/
theorem relations_readFrom (sa : Option Bool) {folder : Str} (hf : folder ≠ [] ∧ folder.getLast? ≠ some '/') (l : List Relation)
    (hok : OkF (relationshipsN (l.flatMap relationN))) (h : ∀ r ∈ l, r.Decodes) (ho : ∀ r ∈ l, Ordinary r.seen)
    (ha : Apart (l.map Relation.seen)) :
    ∃ m k, (∀ n, k ≤ n → readRelsXml n folder (constText sa (relationshipsN (l.flatMap relationN))) = .ok m [.endDocument]) ∧
      Finds m folder (l.map Relation.seen) := by
  obtain ⟨k, hk⟩ := reads_relations sa folder l hok h
  refine ⟨_, k, hk, fold_finds hf _ (fun r hr => ?_) ha⟩
  obtain ⟨q, hq, rfl⟩ := List.mem_map.1 hr
  exact ho q hq

theorem decode_seen {l : List Relation} (h : ∀ r ∈ l, r.Decodes) : l.filterMap decodeRelation = l.map Relation.seen := by
  induction l with
  | nil => rfl
  | cons r l ih =>
    rw [List.filterMap_cons, decodeRelation_seen (h r (.head _)), List.map_cons]
    exact congrArg _ (ih fun r hr => h r (.tail _ hr))

theorem PlainRelation.decodes {r : Relation} (h : PlainRelation r) : r.Decodes :=
  ⟨by rw [h.id.decode]; rfl, by rw [h.type.decode]; rfl, by rw [h.target.decode]; rfl, fun m e => by rw [(h.mode m e).decode]; rfl⟩

theorem PlainRelation.same {r : Relation} (h : PlainRelation r) : r.seen = r := by
  have h1 := decodeRelation_seen h.decodes
  rw [h.decode] at h1
  exact (Option.some.inj h1).symm

/-! ## Paths -/

/-- A name without slashes and dots. -/
def SimpleName (s : Str) : Prop := s ≠ [] ∧ ∀ c ∈ s, c ≠ '/' ∧ c ≠ '.'

theorem trimSlashes_of_last {s : Str} (h : s.getLast? ≠ some '/') : trimSlashes s = s := by
  unfold trimSlashes
  have : s.reverse.dropWhile (· = '/') = s.reverse := by
    cases e : s.reverse with
    | nil => rfl
    | cons c l =>
      rw [List.dropWhile_cons_of_neg]
      intro hc
      apply h
      rw [List.getLast?_eq_head?_reverse, e]
      simpa using hc
  rw [this, List.reverse_reverse]

theorem splitLast_eq {d b : Str} (hb : ∀ c ∈ b, c ≠ '/') : splitLast (d ++ '/' :: b) = (d ++ c!"/", b) := by
  have e : (d ++ '/' :: b).reverse = b.reverse ++ '/' :: d.reverse := by simp
  unfold splitLast
  have hr : ∀ c ∈ b.reverse, (decide (c ≠ '/')) = true := fun c hc => by simpa using hb c (List.mem_reverse.1 hc)
  rw [e, List.dropWhile_append_of_pos hr, List.takeWhile_append_of_pos hr, List.dropWhile_cons_of_neg (by simp),
    List.takeWhile_cons_of_neg (by simp)]
  simp

theorem stemOf_dot {a b : Str} (ha : a ≠ []) (hb : ∀ c ∈ b, c ≠ '.') : stemOf (a ++ '.' :: b) = a := by
  have e : (a ++ '.' :: b).reverse = b.reverse ++ '.' :: a.reverse := by simp
  unfold stemOf
  have hr : ∀ c ∈ b.reverse, (decide (c ≠ '.')) = true := fun c hc => by simpa using hb c (List.mem_reverse.1 hc)
  rw [e, List.dropWhile_append_of_pos hr, List.dropWhile_cons_of_neg (by simp)]
  simp [ha]

theorem stemOf_simple {a : Str} (ha : ∀ c ∈ a, c ≠ '.') : stemOf a = a := by
  unfold stemOf
  have : a.reverse.dropWhile (fun c => decide (c ≠ '.')) = [] := by
    rw [← List.append_nil a.reverse, List.dropWhile_append_of_pos (fun c hc => by simpa using ha c (List.mem_reverse.1 hc))]
    rfl
  simp only [this]
  rfl

theorem getLast_append {a b : Str} (hb : b ≠ []) : (a ++ b).getLast? = b.getLast? := by
  rw [List.getLast?_append]
  cases e : b.getLast? with
  | none => exact absurd (List.getLast?_eq_none_iff.1 e) hb
  | some c => rfl

theorem fileName_eq {d b : Str} (hb : ∀ c ∈ b, c ≠ '/') (h0 : b ≠ []) (h1 : b ≠ c!"..") : fileName (d ++ '/' :: b) = some b := by
  have : trimSlashes (d ++ '/' :: b) = d ++ '/' :: b := by
    refine trimSlashes_of_last ?_
    rw [show d ++ '/' :: b = (d ++ c!"/") ++ b by simp, getLast_append h0]
    intro e
    exact hb _ (List.mem_of_getLast? e) rfl
  unfold fileName
  simp only [this, splitLast_eq hb]
  rw [if_neg (by simp [h0]; simpa using h1)]

theorem pathParent_eq {d b : Str} (hd : d ≠ [] ∧ d.getLast? ≠ some '/') (hb : ∀ c ∈ b, c ≠ '/') (h0 : b ≠ []) :
    pathParent (d ++ '/' :: b) = some d := by
  have : trimSlashes (d ++ '/' :: b) = d ++ '/' :: b := by
    refine trimSlashes_of_last ?_
    rw [show d ++ '/' :: b = (d ++ c!"/") ++ b by simp, getLast_append h0]
    intro e
    exact hb _ (List.mem_of_getLast? e) rfl
  have h2 : trimSlashes (d ++ c!"/") = d := by
    have e : (d ++ c!"/").reverse = '/' :: d.reverse := by simp
    unfold trimSlashes
    rw [e, List.dropWhile_cons_of_pos (by simp)]
    exact trimSlashes_of_last hd.2
  unfold pathParent
  simp only [this, splitLast_eq hb, h2]
  rw [if_neg (by simp), if_neg hd.1]

theorem pathJoin_eq {d b : Str} (hd : d ≠ [] ∧ d.getLast? ≠ some '/') (hb : b.head? ≠ some '/') : pathJoin d b = d ++ '/' :: b := by
  unfold pathJoin
  rw [if_neg hb, if_neg (by rintro (h | h); exact hd.1 h; exact hd.2 h)]

/-- The name of the relationship file of a part with a simple name. -/
theorem relsFileName_eq {d b : Str} (hd : d ≠ [] ∧ d.getLast? ≠ some '/') (hb : SimpleName b) :
    relsFileName (d ++ c!"/" ++ b ++ c!".xml") = some (d ++ c!"/_rels/" ++ b ++ c!".xml.rels") ∧
    pathParent (d ++ c!"/" ++ b ++ c!".xml") = some d := by
  have e1 : d ++ c!"/" ++ b ++ c!".xml" = d ++ '/' :: (b ++ c!".xml") := by simp
  have hx : ∀ c ∈ b ++ c!".xml", c ≠ '/' := by
    intro c hc
    rcases List.mem_append.1 hc with hc | hc
    · exact (hb.2 c hc).1
    · have : ∀ c ∈ c!".xml", c ≠ '/' := by decide
      exact this c hc
  have hne : b ++ c!".xml" ≠ [] := by simp
  have hne2 : b ++ c!".xml" ≠ c!".." := by
    intro e
    have := congrArg List.getLast? e
    rw [getLast_append (by decide)] at this
    revert this; decide
  have hp := pathParent_eq hd hx hne
  rw [e1]
  refine ⟨?_, hp⟩
  unfold relsFileName fileStem
  rw [hp, fileName_eq hx hne hne2]
  have hs : stemOf (b ++ c!".xml") = b := stemOf_dot hb.1 (by decide)
  simp only [Option.map_some, hs, Option.bind_eq_bind, Option.bind_some]
  have h1 : pathJoin d c!"_rels" = d ++ c!"/_rels" := pathJoin_eq hd (by decide)
  have hd2 : (d ++ c!"/_rels") ≠ [] ∧ (d ++ c!"/_rels").getLast? ≠ some '/' :=
    ⟨by simp, by rw [getLast_append (by decide)]; decide⟩
  have hbh : b.head? ≠ some '/' := fun e => (hb.2 _ (List.mem_of_head? e)).1 rfl
  rw [h1, pathJoin_eq hd2 hbh]
  have hn2 : b ≠ c!".." := by rintro rfl; exact absurd rfl (hb.2 '.' (by decide)).2
  unfold withExtension
  rw [fileName_eq (fun c hc => (hb.2 c hc).1) hb.1 hn2]
  simp only [splitLast_eq (fun c hc => (hb.2 c hc).1), stemOf_simple (fun c hc => (hb.2 c hc).2)]
  simp

/-! ## Looking up entries -/

theorem filter_name {es : List Entry} (h : (es.map Entry.name).Nodup) {e : Entry} (he : e ∈ es) :
    es.filter (fun x => decide (x.name = e.name)) = [e] := by
  induction es with
  | nil => cases he
  | cons a es ih =>
    rw [List.map_cons, List.nodup_cons] at h
    rcases List.mem_cons.1 he with rfl | he
    · rw [List.filter_cons_of_pos (by simp), List.filter_eq_nil_iff.2]
      intro x hx
      simp only [decide_eq_true_eq]
      intro e'
      exact h.1 (e' ▸ List.mem_map_of_mem hx)
    · rw [List.filter_cons_of_neg, ih h.2 he]
      simp only [decide_eq_true_eq]
      intro e'
      exact h.1 (e' ▸ List.mem_map_of_mem he)

/-- A name that is looked for as it is. -/
def LookedUp (s : Str) : Prop := s.head? ≠ some '/' ∧ '\\' ∉ s

theorem entryName_of {s : Str} (h : LookedUp s) : entryName s = s := by
  have e : (s.map fun c => if c = '\\' then '/' else c) = s := by
    have : ∀ l : Str, '\\' ∉ l → (l.map fun c => if c = '\\' then '/' else c) = l := by
      intro l hl
      induction l with
      | nil => rfl
      | cons c l ih =>
        rw [List.map_cons, ih fun hm => hl (.tail _ hm), if_neg (fun e : c = '\\' => hl (e ▸ .head _))]
    exact this s h.2
  unfold entryName
  rw [e]
  cases s with
  | nil => rfl
  | cons c l =>
    rw [List.dropWhile_cons_of_neg]
    have := h.1
    simpa using this

theorem readZip_of {es : List Entry} (h : (es.map Entry.name).Nodup) {name : Str} {c : Content} (he : ⟨name, c⟩ ∈ es)
    (hn : LookedUp name) : readZip es name = some c.withoutBom := by
  unfold readZip
  rw [entryName_of hn, filter_name h he]
  rfl

theorem readText_const {es : List Entry} (h : (es.map Entry.name).Nodup) {name : Str} {sa : Option Bool} {f : List Node}
    (he : ⟨name, .text (constText sa f)⟩ ∈ es) (hn : LookedUp name) : readText es name = some (constText sa f) := by
  unfold readText
  rw [readZip_of h he hn]
  rfl

/-! ## Until the end -/

theorem runs_document {σ : Type} {L : Readers → Loop σ} {s s' : σ} {f : List Node} (h : TakesF x L s f s')
    (ha : ∀ d, (L (readers x d)).atEnd = true) : ∃ es, Runs x L s (expect [] none (tagsForest f)) (.ok s' es) := by
  refine ⟨[], ?_⟩
  have := h [] [] (.ok s' []) ⟨1, fun d _ n hn => ?_⟩
  · rwa [List.append_nil] at this
  · obtain ⟨m, rfl⟩ : ∃ m, n = m + 1 := ⟨n - 1, by omega⟩
    simp [expect, expectText, Loop.run, nextEvent, ha]

end Docx
