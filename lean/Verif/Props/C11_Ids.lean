import Verif.Model.Ids
import Verif.Lemmas.Digits
import Verif.Lemmas.ParaIdsStory

/-!
# C11: generated ids are distinct on one thread, and need not be with several
-/

namespace Docx.Props
open Docx

theorem generateIds_eq : ∀ (n c : Nat), c < usizeCount →
    (generateIds n c).1 = (List.range n).map (fun k => (c + k) % usizeCount)
  | 0, _, _ => rfl
  | n + 1, c, h => by
    have hpos : 0 < usizeCount := by decide
    have ih := generateIds_eq n ((c + 1) % usizeCount) (Nat.mod_lt _ hpos)
    simp only [generateIds, generateId, ih, List.range_succ_eq_map, List.map_cons, List.map_map]
    congr 1
    · simp [Nat.mod_eq_of_lt h]
    · apply List.map_congr_left
      intro k _
      simp only [Function.comp]
      rw [Nat.mod_add_mod]
      congr 1
      omega

/-- C11. On one thread, up to 2^64 successive calls return pairwise distinct ids, from any counter
value. -/
theorem C11_distinct_one_thread (n c : Nat) (hc : c < usizeCount) (hn : n ≤ usizeCount) :
    (generateIds n c).1.length = n ∧ (generateIds n c).1.Nodup := by
  rw [generateIds_eq n c hc]
  refine ⟨by simp, ?_⟩
  rw [List.nodup_iff_pairwise_ne, List.pairwise_map]
  refine List.Pairwise.imp_of_mem ?_ (List.nodup_range (n := n))
  intro a b ha hb hab e
  have ha := List.mem_range.1 ha
  have hb := List.mem_range.1 hb
  apply hab
  have h1 := Nat.div_add_mod (c + a) usizeCount
  have h2 := Nat.div_add_mod (c + b) usizeCount
  rw [e] at h1
  have hd : (c + a) / usizeCount = (c + b) / usizeCount ∨
      (c + a) / usizeCount + 1 ≤ (c + b) / usizeCount ∨
      (c + b) / usizeCount + 1 ≤ (c + a) / usizeCount := by omega
  rcases hd with hd | hd | hd
  · rw [hd] at h1; omega
  · have := Nat.mul_le_mul_left usizeCount hd
    rw [Nat.mul_add] at this; omega
  · have := Nat.mul_le_mul_left usizeCount hd
    rw [Nat.mul_add] at this; omega

/-- C11. The textual ids made from distinct numbers are distinct: hyperlink, picture, header and footer
relationship ids, table-of-contents keys, revision ids and paragraph ids. -/
theorem C11_texts_distinct {m n : Nat} (h : m ≠ n) :
    createHyperlinkRid m ≠ createHyperlinkRid n ∧ createPicRid m ≠ createPicRid n ∧
    createHeaderRid m ≠ createHeaderRid n ∧ createFooterRid m ≠ createFooterRid n ∧
    tocKeyText m ≠ tocKeyText n ∧ historyIdText m ≠ historyIdText n ∧ paraIdText m ≠ paraIdText n :=
  ⟨fun e => h (dec_inj (List.append_cancel_left e)), fun e => h (dec_inj (List.append_cancel_left e)),
   fun e => h (dec_inj (List.append_cancel_left e)), fun e => h (dec_inj (List.append_cancel_left e)),
   fun e => h (pad0_dec_inj 8 (List.append_cancel_left e)), fun e => h (dec_inj e),
   fun e => h (paraIdText_inj e)⟩

/-- Calls that do not overlap: every load is followed at once by the same thread's store. -/
theorem run_atomic : ∀ (calls : List Nat) (s : Shared), (∀ t, s.loaded t = none) →
    let r := s.run (calls.flatMap fun t => [t, t])
    (∀ t, r.loaded t = none) ∧ r.counter = (generateIds calls.length s.counter).2 ∧
    r.out.map Prod.snd = s.out.map Prod.snd ++ (generateIds calls.length s.counter).1
  | [], s, h => by simp [Shared.run, generateIds, h]
  | t :: calls, s, h => by
    have e : s.run ((t :: calls).flatMap fun t => [t, t]) =
        ((s.step t).step t).run (calls.flatMap fun t => [t, t]) := by
      simp [Shared.run]
    have e2 : (s.step t).step t =
        { counter := (s.counter + 1) % usizeCount, loaded := s.loaded,
          out := s.out ++ [(t, s.counter)] } := by
      simp only [Shared.step, h t, if_true]
      congr 1
      funext u
      by_cases hu : u = t
      · simp [hu, h t]
      · simp [hu]
    simp only [e, e2]
    have ih := run_atomic calls ⟨(s.counter + 1) % usizeCount, s.loaded, s.out ++ [(t, s.counter)]⟩ h
    simp only at ih
    refine ⟨ih.1, ?_, ?_⟩
    · rw [ih.2.1]; simp [generateIds, generateId]
    · rw [ih.2.2]; simp [generateIds, generateId]

/-- C11, several threads: if the calls of all threads happen one after the other (in any order
and by any threads), the ids are pairwise distinct. For overlapping calls the claim is
false, see the next theorems. -/
theorem C11_distinct_without_overlap (calls : List Nat) (c : Nat) (hc : c < usizeCount)
    (hn : calls.length ≤ usizeCount) :
    (((Shared.start c).run (calls.flatMap fun t => [t, t])).out.map Prod.snd).Nodup := by
  have h := run_atomic calls (Shared.start c) (fun _ => rfl)
  simp only at h
  rw [h.2.2]
  simpa [Shared.start] using (C11_distinct_one_thread calls.length c hc hn).2

/-- The claim fails with two threads: both load before either stores. -/
theorem C11_two_threads_collide :
    ∃ schedule : List Nat, ∃ id : Nat,
      ((Shared.start 1).run schedule).out = [(0, id), (1, id)] := ⟨[0, 1, 0, 1], 1, by decide⟩

/-- A late store of one thread makes *another single thread* receive the same id twice. -/
theorem C11_one_thread_sees_repeat :
    ∃ schedule : List Nat, ∃ id : Nat,
      ¬ ((((Shared.start 1).run schedule).out.filter (fun o => o.1 == 0)).map Prod.snd).Nodup ∧
      (0, id) ∈ ((Shared.start 1).run schedule).out :=
  ⟨[1, 0, 0, 0, 0, 1, 0, 0], 2, by decide⟩

/-- Collisions are possible for every pair of threads and every number of calls made before. -/
theorem C11_collision_from_every_state (s : Shared) (t u : Nat) (htu : t ≠ u)
    (ht : s.loaded t = none) (hu : s.loaded u = none) :
    (s.run [t, u, t, u]).out = s.out ++ [(t, s.counter), (u, s.counter)] := by
  have hut : u ≠ t := fun e => htu e.symm
  simp [Shared.run, Shared.step, ht, hu, hut, htu]

/-- Paragraph ids come from a counter per thread: the ids of one thread are distinct under every
schedule. -/
theorem C11_paragraph_ids_per_thread (schedule : List Nat) (t : Nat) :
    (((schedule.foldl ParaCounters.generate ParaCounters.start).out.filter
      (fun o => o.1 == t)).map Prod.snd).Nodup := by
  suffices h : ∀ (schedule : List Nat) (s : ParaCounters),
      (∀ i, (t, i) ∈ s.out → ∃ k, k < s.next t ∧ i = paraIdText k) →
      ((s.out.filter (fun o => o.1 == t)).map Prod.snd).Nodup →
      (((schedule.foldl ParaCounters.generate s).out.filter (fun o => o.1 == t)).map Prod.snd).Nodup from
    h schedule _ (by simp [ParaCounters.start]) (by simp [ParaCounters.start])
  intro schedule
  induction schedule with
  | nil => intro s _ h; exact h
  | cons u schedule ih =>
    intro s hs hn
    rw [List.foldl_cons]
    apply ih
    · intro i hi
      simp only [ParaCounters.generate, generateParaId, List.mem_append, List.mem_singleton,
        Prod.mk.injEq] at hi ⊢
      rcases hi with hi | ⟨rfl, rfl⟩
      · obtain ⟨k, hk, e⟩ := hs i hi
        refine ⟨k, ?_, e⟩
        split
        · rename_i h; subst h; omega
        · exact hk
      · exact ⟨s.next t, by simp, rfl⟩
    · simp only [ParaCounters.generate, generateParaId, List.filter_append, List.map_append]
      by_cases hu : u = t
      · subst hu
        simp only [List.filter_cons, beq_self_eq_true, if_true, List.filter_nil, List.map_cons,
          List.map_nil]
        rw [List.nodup_append]
        refine ⟨hn, by simp, ?_⟩
        intro a ha b hb e
        simp at hb
        subst hb
        subst e
        obtain ⟨o, ho, e⟩ := List.mem_map.1 ha
        obtain ⟨ho, ho'⟩ := List.mem_filter.1 ho
        obtain ⟨k, hk, e'⟩ := hs (paraIdText (s.next u)) (by
          have : o.1 = u := by simpa using ho'
          rw [← e]; exact this ▸ ho)
        have := paraIdText_inj e'
        omega
      · simpa [hu] using hn

/-- Paragraphs made on two threads collide; the preparation step (C09) repairs this. -/
theorem C11_paragraph_ids_across_threads :
    ([0, 1].foldl ParaCounters.generate ParaCounters.start).out =
      [(0, c!"00000001"), (1, c!"00000001")] := by decide

/-- Tracked insertions/deletions and tracked paragraph property changes use separate counters, so the
first of each kind get the same revision id. -/
theorem C11_revision_counters_overlap :
    historyIdText (generateId 0).1 = c!"0" ∧
    (generateIds 3 0).1.map historyIdText = [c!"0", c!"1", c!"2"] := by decide

example : (generateIds 3 (usizeCount - 1)).1 = [usizeCount - 1, 0, 1] := by decide
example : tocKeyText 42 = c!"_Toc00000042" := by decide
example : ((Shared.start 1).run [0, 0, 1, 1]).out = [(0, 1), (1, 2)] := by decide

end Docx.Props
