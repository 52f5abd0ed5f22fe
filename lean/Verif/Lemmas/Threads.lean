import Verif.Lemmas.ReadComments
import Verif.Lemmas.HeldParts

/-!
# The threads of comments that are written and read
-/

namespace Docx

open Docx.Spec Docx.Xml

/-- The table of pairs that agree says what the pairs say. -/
theorem lookup_all {α β : Type} [DecidableEq α] : ∀ (l m : List (α × β)),
    (∀ p ∈ l, ∀ q ∈ l, p.1 = q.1 → p.2 = q.2) → ∀ k,
    (l.foldl (fun m p => hashInsert p.1 p.2 m) m).lookup k = ((l.find? fun p => decide (p.1 = k)).map Prod.snd).or (m.lookup k)
  | [], m, _, k => by simp
  | p :: l, m, h, k => by
    rw [List.foldl_cons, lookup_all l _ (fun a ha b hb => h a (.tail _ ha) b (.tail _ hb)) k, lookup_hashInsert, List.find?_cons]
    by_cases e : p.1 = k
    · simp only [e, decide_true, if_pos, Option.map_some, Option.some_or]
      cases hf : l.find? fun p => decide (p.1 = k) with
      | none => simp
      | some q =>
        have hq := List.mem_of_find?_eq_some hf
        have hk : q.1 = k := by simpa using List.find?_some hf
        simp only [Option.map_some, Option.some_or, Option.some.injEq]
        exact h q (.tail _ hq) p (.head _) (hk.trans e.symm)
    · have e' : ¬ k = p.1 := fun h => e h.symm
      simp only [e, decide_false, e', if_false]

/-- Looking up does not depend on how keys are compared. -/
theorem lookup_beq {α β : Type} [B : BEq α] [LawfulBEq α] [DecidableEq α] (k : α) : ∀ l : List (α × β),
    @List.lookup _ _ B k l = @List.lookup _ _ instBEqOfDecidableEq k l
  | [] => rfl
  | p :: l => by
    simp only [List.lookup]
    rw [lookup_beq k l]
    have : (@BEq.beq _ B k p.1) = (@BEq.beq _ instBEqOfDecidableEq k p.1) := by
      rw [Bool.eq_iff_iff, @beq_iff_eq _ B, @beq_iff_eq _ instBEqOfDecidableEq]
    rw [this]

/-- What a table of pairs that agree has for a key. -/
theorem lookup_pairs {α β : Type} [BEq α] [LawfulBEq α] [DecidableEq α] {l : List (α × β)} (h : ∀ p ∈ l, ∀ q ∈ l, p.1 = q.1 → p.2 = q.2) (k : α) (v : β) :
    (l.foldl (fun m p => hashInsert p.1 p.2 m) []).lookup k = some v ↔ (k, v) ∈ l := by
  rw [lookup_beq, lookup_all l [] h k]
  simp only [List.lookup_nil, Option.or_none, Option.map_eq_some_iff]
  constructor
  · rintro ⟨q, hq, rfl⟩
    have hk : q.1 = k := by simpa using List.find?_some hq
    subst hk
    exact List.mem_of_find?_eq_some hq
  · intro hm
    cases hf : l.find? fun p => decide (p.1 = k) with
    | none => exact absurd (List.find?_eq_none.1 hf _ hm) (by simp)
    | some q =>
      have hk : q.1 = k := by simpa using List.find?_some hf
      exact ⟨q, rfl, h q (List.mem_of_find?_eq_some hf) _ hm hk⟩

theorem commentByParagraph_eq (cs : List Comment) :
    commentByParagraph cs = (cs.flatMap fun c => c.paragraphIds.map fun i => (i, c.id)).foldl (fun m p => hashInsert p.1 p.2 m) [] := by
  unfold commentByParagraph
  rw [List.foldl_flatMap]
  congr 1
  funext m c
  rw [List.foldl_map]

theorem parentByParagraph_eq (rs : List CommentExtended) : parentByParagraph rs =
    (rs.filterMap fun r => r.parentParagraphId.map fun p => (r.paragraphId, p)).foldl (fun m p => hashInsert p.1 p.2 m) [] := by
  unfold parentByParagraph
  generalize ([] : List (Str × Str)) = m
  induction rs generalizing m with
  | nil => rfl
  | cons r rs ih =>
    rw [List.foldl_cons, ih, List.filterMap_cons]
    cases r.parentParagraphId <;> rfl

/-- Comments with distinct paragraphs: a paragraph is in one comment only. -/
theorem owner_unique : ∀ {l : List Comment}, (l.flatMap Comment.paragraphIds).Nodup → ∀ {c c' : Comment}, c ∈ l → c' ∈ l →
    ∀ {i}, i ∈ c.paragraphIds → i ∈ c'.paragraphIds → c = c'
  | [], _, _, _, h, _, _, _, _ => by cases h
  | a :: l, hn, c, c', hc, hc', i, hi, hi' => by
    rw [List.flatMap_cons, List.nodup_append] at hn
    obtain ⟨_, h2, h3⟩ := hn
    rcases List.mem_cons.1 hc with rfl | hc
    · rcases List.mem_cons.1 hc' with rfl | hc'
      · rfl
      · exact absurd rfl (h3 i hi i (List.mem_flatMap.2 ⟨_, hc', hi'⟩))
    · rcases List.mem_cons.1 hc' with rfl | hc'
      · exact absurd rfl (h3 i hi' i (List.mem_flatMap.2 ⟨_, ‹c ∈ l›, hi⟩))
      · exact owner_unique h2 hc hc' hi hi'

/-- The parent that is found: the id, if some comment has this id and a paragraph. -/
def foundParent (l : List Comment) (c : Comment) : Option Nat :=
  c.parent.bind fun n => if ∃ p ∈ l, p.id = n ∧ p.paragraphIds ≠ [] then some n else none

theorem lastParagraph_some {l : List Comment} {n : Nat} {j : Str} (h : lastParagraph l n = some j) :
    ∃ p ∈ l, p.id = n ∧ j ∈ p.paragraphIds := by
  have := List.mem_of_getLast? h
  obtain ⟨p, hp, hj⟩ := List.mem_flatMap.1 this
  obtain ⟨h1, h2⟩ := List.mem_filter.1 hp
  exact ⟨p, h1, by simpa using h2, hj⟩

theorem lastParagraph_none {l : List Comment} {n : Nat} (h : lastParagraph l n = none) :
    ¬ ∃ p ∈ l, p.id = n ∧ p.paragraphIds ≠ [] := by
  rintro ⟨p, hp, hn, hne⟩
  have := List.getLast?_eq_none_iff.1 h
  rw [List.flatMap_eq_nil_iff] at this
  exact hne (this p (List.mem_filter.2 ⟨hp, by simpa using hn⟩))

theorem parentOf_none {ids : List (Str × Nat)} {parents : List (Str × Str)} : ∀ {l : List Str}, (∀ i ∈ l, parents.lookup i = none) →
    parentOf ids parents l = none
  | [], _ => rfl
  | i :: l, h => by
    rw [parentOf, h i (.head _)]
    exact parentOf_none fun i hi => h i (.tail _ hi)

/-- Threads: `cs` are the comments as read, each of them coming from one of `l`, with its id and paragraphs, and all of them with a
paragraph being there; `rs` are the records of `l`. -/
theorem threads_found {l cs : List Comment} {g : Comment → Comment} (hn : (l.flatMap Comment.paragraphIds).Nodup)
    (hc : ∀ c, c ∈ cs ↔ ∃ c' ∈ l, c'.paragraphIds ≠ [] ∧ c = g c')
    (hg : ∀ c ∈ l, (g c).id = c.id ∧ (g c).paragraphIds = c.paragraphIds) (c : Comment) (hm : c ∈ l) (hp : c.paragraphIds ≠ []) :
    parentOf (commentByParagraph cs) (parentByParagraph (recordsOf l)) (g c).paragraphIds = foundParent l c := by
  rw [(hg c hm).2]
  have h1 : ∀ i n, (commentByParagraph cs).lookup i = some n ↔ ∃ c' ∈ l, i ∈ c'.paragraphIds ∧ c'.id = n := by
    intro i n
    rw [commentByParagraph_eq, lookup_pairs]
    · simp only [List.mem_flatMap, List.mem_map, Prod.mk.injEq]
      constructor
      · rintro ⟨c, h, j, hj, rfl, rfl⟩
        obtain ⟨c', h', _, rfl⟩ := (hc c).1 h
        rw [(hg c' h').2] at hj
        exact ⟨c', h', hj, (hg c' h').1.symm⟩
      · rintro ⟨c', h', hi, rfl⟩
        refine ⟨g c', (hc _).2 ⟨c', h', ?_, rfl⟩, i, by rw [(hg c' h').2]; exact hi, rfl, (hg c' h').1⟩
        rintro e; rw [e] at hi; cases hi
    · intro p hp q hq e
      obtain ⟨a, ha, hpa⟩ := List.mem_flatMap.1 hp
      obtain ⟨b, hb, hqb⟩ := List.mem_flatMap.1 hq
      obtain ⟨i, hi, rfl⟩ := List.mem_map.1 hpa
      obtain ⟨j, hj, rfl⟩ := List.mem_map.1 hqb
      obtain ⟨a', ha', _, rfl⟩ := (hc a).1 ha
      obtain ⟨b', hb', _, rfl⟩ := (hc b).1 hb
      simp only [] at e
      subst e
      rw [(hg a' ha').2] at hi
      rw [(hg b' hb').2] at hj
      rw [owner_unique hn ha' hb' hi hj]
  have hmem : ∀ i j, (i, j) ∈ (recordsOf l).filterMap (fun r => r.parentParagraphId.map fun p => (r.paragraphId, p)) ↔
      ∃ c ∈ l, i ∈ c.paragraphIds ∧ ∃ n, c.parent = some n ∧ lastParagraph l n = some j := by
    intro i j
    rw [List.mem_filterMap]
    simp only [recordsOf, List.mem_flatMap]
    constructor
    · rintro ⟨r, ⟨c, hc, k, hk, hr⟩, e⟩
      cases hpar : c.parent with
      | none =>
        rw [hpar] at hr
        simp only [List.mem_singleton] at hr
        subst hr
        simp at e
      | some n =>
        rw [hpar] at hr
        simp only [List.mem_map, Option.mem_toList] at hr
        obtain ⟨j', hj', rfl⟩ := hr
        simp only [Option.map_some, Option.some.injEq, Prod.mk.injEq] at e
        obtain ⟨rfl, rfl⟩ := e
        exact ⟨c, hc, hk, n, hpar, hj'⟩
    · rintro ⟨c, hc, hi, n, hpar, hj⟩
      refine ⟨⟨i, false, some j⟩, ⟨c, hc, i, hi, ?_⟩, rfl⟩
      rw [hpar]
      simp only [List.mem_map, Option.mem_toList]
      exact ⟨j, hj, rfl⟩
  have h2 : ∀ i j, (parentByParagraph (recordsOf l)).lookup i = some j ↔
      ∃ c ∈ l, i ∈ c.paragraphIds ∧ ∃ n, c.parent = some n ∧ lastParagraph l n = some j := by
    intro i j
    rw [parentByParagraph_eq, lookup_pairs, hmem]
    rintro ⟨a, b⟩ hp ⟨a', b'⟩ hq e
    obtain ⟨c, hc, hi, n, e1, e2⟩ := (hmem _ _).1 hp
    obtain ⟨c', hc', hi', n', e1', e2'⟩ := (hmem _ _).1 hq
    simp only [] at e ⊢
    subst e
    obtain rfl := owner_unique hn hc hc' hi hi'
    rw [e1] at e1'
    obtain rfl := Option.some.inj e1'
    rw [e2] at e2'
    exact Option.some.inj e2'
  unfold foundParent
  cases hpar : c.parent with
  | none =>
    refine parentOf_none fun i hi => ?_
    cases e : (parentByParagraph (recordsOf l)).lookup i with
    | none => rfl
    | some j =>
      obtain ⟨c', hc', hi', n, e1, _⟩ := (h2 i j).1 e
      obtain rfl := owner_unique hn hm hc' hi hi'
      rw [hpar] at e1; cases e1
  | some n =>
    simp only [Option.bind_some]
    cases hl : lastParagraph l n with
    | none =>
      rw [if_neg (lastParagraph_none hl)]
      refine parentOf_none fun i hi => ?_
      cases e : (parentByParagraph (recordsOf l)).lookup i with
      | none => rfl
      | some j =>
        obtain ⟨c', hc', hi', n', e1, e2⟩ := (h2 i j).1 e
        obtain rfl := owner_unique hn hm hc' hi hi'
        rw [hpar] at e1
        obtain rfl := Option.some.inj e1
        rw [hl] at e2; cases e2
    | some j =>
      obtain ⟨p, hpl, hpn, hj⟩ := lastParagraph_some hl
      rw [if_pos ⟨p, hpl, hpn, fun e => by rw [e] at hj; cases hj⟩]
      cases hids : c.paragraphIds with
      | nil => exact absurd hids hp
      | cons i is =>
        rw [parentOf, (h2 i j).2 ⟨c, hm, by rw [hids]; exact .head _, n, hpar, hl⟩]
        simp only
        rw [(h1 j n).2 ⟨p, hpl, hj, hpn⟩]

end Docx
