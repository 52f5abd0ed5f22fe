import Verif.Lemmas.KeptBody

/-!
# When nothing changes
-/

namespace Docx

open Docx.Spec Docx.Props

theorem afterText_same {t : Str} : afterText t = [t] ↔ BodyText t := by
  unfold afterText
  dsimp only
  constructor
  · intro h
    split at h
    · cases h
    · rename_i h0
      have e : replaceEscaped (t.filter fun c => c ≠ '\n' ∧ c ≠ '\r') = t := by simpa using h
      have l1 := C04_replace_length (t.filter fun c => c ≠ '\n' ∧ c ≠ '\r')
      rw [e] at l1
      have hf : (t.filter fun c => c ≠ '\n' ∧ c ≠ '\r') = t :=
        (List.filter_sublist (p := fun c => decide (c ≠ '\n' ∧ c ≠ '\r'))).eq_of_length_le l1
      rw [hf] at e h0
      rw [List.filter_eq_self] at hf
      refine ⟨h0, fun hc => ?_, fun hc => ?_, fun n hn hi => ?_⟩
      · simpa using hf _ hc
      · simpa using hf _ hc
      · have := replaceEscaped_shorter t ⟨n, hn, hi⟩
        rw [e] at this
        omega
  · rintro ⟨h0, h1, h2, h3⟩
    have hf : (t.filter fun c => c ≠ '\n' ∧ c ≠ '\r') = t := by
      rw [List.filter_eq_self]
      intro a ha
      simp only [decide_eq_true_eq]
      exact ⟨by rintro rfl; exact h1 ha, by rintro rfl; exact h2 ha⟩
    rw [hf, if_neg h0, replaceEscaped_noEntity t h3]

theorem afterText_short (t : Str) : (afterText t).length ≤ 1 := by
  unfold afterText
  dsimp only
  split <;> simp

theorem piece_same (a : RunPiece) : a.after = [a] ↔ ∀ t ∈ a.texts, BodyText t := by
  cases a with
  | text t =>
    simp only [RunPiece.after, RunPiece.texts, List.mem_singleton, forall_eq, ← afterText_same]
    constructor
    · intro h
      exact List.map_injective_iff.2 (fun a b h => by simpa using h) (by simpa using h)
    · intro h; rw [h]; rfl
  | deletedText t =>
    simp only [RunPiece.after, RunPiece.texts, List.mem_singleton, forall_eq, ← afterText_same]
    constructor
    · intro h
      exact List.map_injective_iff.2 (fun a b h => by simpa using h) (by simpa using h)
    · intro h; rw [h]; rfl
  | _ => simp [RunPiece.after, RunPiece.texts]

theorem piece_short (a : RunPiece) : a.after.length ≤ 1 := by
  cases a with
  | text t => simpa [RunPiece.after] using afterText_short t
  | deletedText t => simpa [RunPiece.after] using afterText_short t
  | _ => simp [RunPiece.after]

theorem flatMap_short {α : Type} (f : α → List α) (hf : ∀ a, (f a).length ≤ 1) : ∀ l : List α, (l.flatMap f).length ≤ l.length
  | [] => by simp
  | a :: l => by
    have := flatMap_short f hf l
    have := hf a
    simp only [List.flatMap_cons, List.length_append, List.length_cons]
    omega

theorem flatMap_same {α : Type} (f : α → List α) (hf : ∀ a, (f a).length ≤ 1) :
    ∀ l : List α, l.flatMap f = l ↔ ∀ a ∈ l, f a = [a]
  | [] => by simp
  | a :: l => by
    rw [List.flatMap_cons, List.forall_mem_cons, ← flatMap_same f hf l]
    constructor
    · intro h
      have h1 := congrArg List.length h
      have h2 := flatMap_short f hf l
      have h3 := hf a
      simp only [List.length_append, List.length_cons] at h1
      match e : f a with
      | [] => rw [e] at h1; simp only [List.length_nil] at h1; omega
      | [b] =>
        rw [e] at h
        simp only [List.singleton_append, List.cons.injEq] at h
        exact ⟨by rw [h.1], h.2⟩
      | b :: c :: r => rw [e] at h3; simp only [List.length_cons] at h3; omega
    · rintro ⟨h1, h2⟩
      rw [h1, h2]
      rfl

theorem run_same (r : RunItem) : afterRun r = r ↔ ∀ t ∈ r.2.flatMap RunPiece.texts, BodyText t := by
  obtain ⟨p, ps⟩ := r
  simp only [afterRun, Prod.mk.injEq, true_and, flatMap_same _ piece_short, piece_same, List.mem_flatMap]
  exact ⟨fun h t ⟨a, ha, ht⟩ => h a ha t ht, fun h a ha t ht => h t ⟨a, ha, ht⟩⟩

theorem map_same {α : Type} (f : α → α) : ∀ l : List α, l.map f = l ↔ ∀ a ∈ l, f a = a
  | [] => by simp
  | a :: l => by rw [List.map_cons, List.cons.injEq, map_same f l, List.forall_mem_cons]

theorem runs_same (rs : List RunItem) : rs.map afterRun = rs ↔ ∀ t ∈ rs.flatMap fun r => r.2.flatMap RunPiece.texts, BodyText t := by
  rw [map_same]
  simp only [run_same]
  constructor
  · intro h t ht
    obtain ⟨r, hr, ht⟩ := List.mem_flatMap.1 ht
    exact h r hr t ht
  · intro h r hr t ht
    exact h t (List.mem_flatMap.2 ⟨r, hr, ht⟩)

theorem part_same (a : ParagraphPart) : a.after = a ↔ ∀ t ∈ a.texts, BodyText t := by
  cases a with
  | run r => simpa only [ParagraphPart.after, ParagraphPart.run.injEq, ParagraphPart.texts] using run_same r
  | inserted author date runs =>
    simpa only [ParagraphPart.after, ParagraphPart.inserted.injEq, ParagraphPart.texts, true_and] using runs_same runs
  | deleted author date runs =>
    simpa only [ParagraphPart.after, ParagraphPart.deleted.injEq, ParagraphPart.texts, true_and] using runs_same runs
  | link anchor runs =>
    simpa only [ParagraphPart.after, ParagraphPart.link.injEq, ParagraphPart.texts, true_and] using runs_same runs
  | _ => simp [ParagraphPart.after, ParagraphPart.texts]

theorem parts_same (ps : List ParagraphPart) : ps.map ParagraphPart.after = ps ↔ ∀ t ∈ ps.flatMap ParagraphPart.texts, BodyText t := by
  rw [map_same]
  simp only [part_same]
  constructor
  · intro h t ht
    obtain ⟨r, hr, ht⟩ := List.mem_flatMap.1 ht
    exact h r hr t ht
  · intro h r hr t ht
    exact h t (List.mem_flatMap.2 ⟨r, hr, ht⟩)

theorem each_append {α : Type} {P : α → Prop} {l m : List α} : (∀ t ∈ l ++ m, P t) ↔ (∀ t ∈ l, P t) ∧ ∀ t ∈ m, P t := by
  simp only [List.mem_append, or_imp, forall_and]

mutual
theorem items_same : (is : List BodyItem) → (afterItems is = is ↔ ∀ t ∈ textsOf is, BodyText t)
  | [] => by simp [afterItems, textsOf]
  | .paragraph id property parts :: is => by
    rw [afterItems, textsOf, each_append, ← items_same is, ← parts_same parts]
    simp only [List.cons.injEq, BodyItem.paragraph.injEq, true_and]
  | .table rows :: is => by
    rw [afterItems, textsOf, each_append, ← items_same is, ← rows_same rows]
    simp only [List.cons.injEq, BodyItem.table.injEq]
theorem rows_same : (rs : List (List (List BodyItem))) → (afterRows rs = rs ↔ ∀ t ∈ textsOfRows rs, BodyText t)
  | [] => by simp [afterRows, textsOfRows]
  | r :: rs => by rw [afterRows, textsOfRows, each_append, ← rows_same rs, ← cells_same r, List.cons.injEq]
theorem cells_same : (cs : List (List BodyItem)) → (afterCells cs = cs ↔ ∀ t ∈ textsOfCells cs, BodyText t)
  | [] => by simp [afterCells, textsOfCells]
  | c :: cs => by rw [afterCells, textsOfCells, each_append, ← cells_same cs, ← items_same c, List.cons.injEq]
end

end Docx
