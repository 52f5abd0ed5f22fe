import Verif.Lemmas.ParaIdsStory

/-!
# C09, C10: paragraph ids after the preparation step

`refreshDuplicateParaIds x next` is the preparation step on the document `x` when the thread-local
counter stands at `next`. The specification (`Spec/Walk.lean`, `Spec/ParaIds.lean`,
`Spec/BlankIds.lean`) lists the paragraphs of a document without the code's traversals.
-/

namespace Docx.Props
open Docx Docx.Spec

theorem dup_facts (l : List Str) (i : Str) :
    i ∉ (keysOf l).filter (fun i => decide (l.count i > 1)) → l.count i ≤ 1 := by
  intro hi
  refine Classical.byContradiction fun h => hi ?_
  have hp : l.count i > 1 := by omega
  exact List.mem_filter.2 ⟨(mem_keysOf l i).2 (List.count_pos_iff.1 (by omega)), by simpa using hp⟩

/-- C09. After the preparation step the ids of all paragraphs in the body, headers, footers, comments
and footnotes parts are pairwise distinct and not empty, whatever the ids were before. -/
theorem C09_ids_unique_nonempty (x : Story) (next : Nat) :
    (bodyIds (walkStory (refreshDuplicateParaIds x next).1)).Nodup ∧
    [] ∉ bodyIds (walkStory (refreshDuplicateParaIds x next).1) := by
  rw [walkStory_ids]
  unfold refreshDuplicateParaIds
  simp only
  split
  · rename_i h
    refine ⟨List.nodup_iff_count.2 fun i => ?_, fun h' => h.2 ((mem_keysOf _ _).2 h')⟩
    have := dup_facts (storyIds x) i
    rw [show (keysOf (storyIds x)).filter (fun i => decide ((storyIds x).count i > 1)) = [] from h.1] at this
    exact this (by simp)
  · have e := refreshStory_ids ((keysOf (storyIds x)).filter (fun i => decide ((storyIds x).count i > 1))) x
      { used := keysOf (storyIds x), seen := [], next := next }
    have r := refreshIds_unique
      ((keysOf (storyIds x)).filter (fun i => decide ((storyIds x).count i > 1))) (storyIds x)
      { used := keysOf (storyIds x), seen := [], next := next }
      (fun i hi => (mem_keysOf _ _).2 hi) (fun i _ hd => dup_facts _ i hd)
    rw [e] at r
    exact ⟨r.1, r.2.1⟩

/-- C10, which ids are kept. `l` and `l'` are the ids before and after, in document order. There are
as many after as before; a non-empty id at its first occurrence is kept; every other id becomes one
that did not occur before. -/
theorem C10_first_occurrences_kept (x : Story) (next : Nat) :
    let l := bodyIds (walkStory x)
    let l' := bodyIds (walkStory (refreshDuplicateParaIds x next).1)
    l'.length = l.length ∧
    ∀ (k : Nat) (i : Str), l[k]? = some i → ∃ j, l'[k]? = some j ∧
      (i ≠ [] ∧ i ∉ l.take k → j = i) ∧ (¬ (i ≠ [] ∧ i ∉ l.take k) → j ∉ l) := by
  intro l l'
  have hl : l = storyIds x := walkStory_ids x
  have hl' : l' = storyIds (refreshDuplicateParaIds x next).1 := walkStory_ids _
  rw [hl, hl']
  unfold refreshDuplicateParaIds
  simp only
  split
  · rename_i h
    refine ⟨rfl, fun k i hk => ⟨i, hk, fun _ => rfl, fun hh => absurd ?_ hh⟩⟩
    refine ⟨fun e => h.2 ((mem_keysOf _ _).2 (e ▸ List.mem_of_getElem? hk)), fun hm => ?_⟩
    have hc := dup_facts (storyIds x) i
    rw [show (keysOf (storyIds x)).filter (fun i => decide ((storyIds x).count i > 1)) = [] from h.1] at hc
    have hc := hc (by simp)
    have e := List.take_append_drop k (storyIds x)
    have hd : i ∈ (storyIds x).drop k := by
      apply List.mem_of_getElem? (i := 0)
      rw [List.getElem?_drop]; simpa using hk
    rw [← e, List.count_append] at hc
    have a := List.count_pos_iff.2 hm
    have b := List.count_pos_iff.2 hd
    omega
  · have e := refreshStory_ids ((keysOf (storyIds x)).filter (fun i => decide ((storyIds x).count i > 1))) x
      { used := keysOf (storyIds x), seen := [], next := next }
    have n := refreshIds_length
      ((keysOf (storyIds x)).filter (fun i => decide ((storyIds x).count i > 1))) (storyIds x)
      { used := keysOf (storyIds x), seen := [], next := next }
    have r := refreshIds_kept
      ((keysOf (storyIds x)).filter (fun i => decide ((storyIds x).count i > 1))) (storyIds x) []
      { used := keysOf (storyIds x), seen := [], next := next }
      (by simp) (fun i _ hd => ⟨by simp, dup_facts _ i hd⟩)
    rw [e] at r n
    refine ⟨n, fun k i hk => ?_⟩
    obtain ⟨j, h1, h2, h3⟩ := r k i hk
    exact ⟨j, h1, by simpa using h2, fun hh hm => h3 (by simpa using hh) ((mem_keysOf _ _).2 hm)⟩

/-- C10, frame. The step changes nothing but paragraph ids. -/
theorem C10_only_ids_change (x : Story) (next : Nat) :
    blankStory (refreshDuplicateParaIds x next).1 = blankStory x := by
  unfold refreshDuplicateParaIds
  simp only
  split
  · rfl
  · exact blankStory_refresh _ _ _

/-- C10, idempotence. A second preparation changes nothing, whatever the counter. -/
theorem C10_idempotent (x : Story) (n m : Nat) :
    refreshDuplicateParaIds (refreshDuplicateParaIds x n).1 m = ((refreshDuplicateParaIds x n).1, m) := by
  obtain ⟨h1, h2⟩ := C09_ids_unique_nonempty x n
  rw [walkStory_ids] at h1 h2
  generalize (refreshDuplicateParaIds x n).1 = y at h1 h2 ⊢
  unfold refreshDuplicateParaIds
  simp only
  rw [if_pos]
  refine ⟨?_, fun h => h2 ((mem_keysOf _ _).1 h)⟩
  rw [List.filter_eq_nil_iff]
  intro i _
  have := List.nodup_iff_count.1 h1 i
  simp only [gt_iff_lt, decide_eq_true_eq]
  have : (storyIds y).count i ≤ 1 := this
  show ¬ 1 < (storyIds y).count i
  omega

/-- C10, consequence: a document whose ids are already distinct and non-empty is left as it is. -/
theorem C10_unchanged_when_unique (x : Story) (next : Nat)
    (h1 : (bodyIds (walkStory x)).Nodup) (h2 : [] ∉ bodyIds (walkStory x)) :
    refreshDuplicateParaIds x next = (x, next) := by
  rw [walkStory_ids] at h1 h2
  unfold refreshDuplicateParaIds
  simp only
  rw [if_pos]
  refine ⟨?_, fun h => h2 ((mem_keysOf _ _).1 h)⟩
  rw [List.filter_eq_nil_iff]
  intro i _
  have := List.nodup_iff_count.1 h1 i
  simp only [gt_iff_lt, decide_eq_true_eq]
  have : (storyIds x).count i ≤ 1 := this
  show ¬ 1 < (storyIds x).count i
  omega

/-- The footnotes that are still attached to their references are not visited: there two paragraphs
keep the same id. -/
theorem C09_footnote_text_not_visited :
    ∃ (x : Story) (next : Nat), ¬ (allIds (walkStory (refreshDuplicateParaIds x next).1)).Nodup := by
  refine ⟨{ document := { children := [.paragraph { id := c!"00000001", children :=
    [.run { children := [.footnoteReference 1 [] [{ id := c!"00000001" }]] }] }] } }, 1, ?_⟩
  decide

/-! ### Examples -/

/-- A body paragraph, a table cell and a comment that share an id, and an empty id in a header. -/
def sampleStory : Story :=
  { document :=
      { children :=
          [.paragraph { id := c!"00000001", children :=
              [.commentStart 1 { id := 1, children := [.paragraph { id := c!"00000001" }] }] },
           .table { rows := [{ cells := [{ children := [.paragraph { id := c!"00000001" }] }] }] },
           .paragraph { id := c!"abc" }]
        sectionProperty := { header := some (c!"rIdHeader1", { children := [.paragraph { id := [] }] }) } } }

example : bodyIds (walkStory sampleStory) =
    [c!"00000001", c!"00000001", c!"00000001", c!"abc", []] := by decide

/-- The generator's first value collides with an id in use, so the scan starts past the set size. -/
example : bodyIds (walkStory (refreshDuplicateParaIds sampleStory 1).1) =
    [c!"00000001", c!"00000004", c!"00000002", c!"abc", c!"00000003"] := by decide

end Docx.Props
