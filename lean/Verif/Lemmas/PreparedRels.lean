import Verif.Lemmas.Found
import Verif.Lemmas.Calls

/-!
# The relationships of the prepared document
-/

namespace Docx

open Docx.Spec

/-! ## The map of links -/

theorem hashInsert_mem {α β : Type} [DecidableEq α] (k : α) (v : β) (m : List (α × β)) (x : α × β) :
    x ∈ hashInsert k v m ↔ x = (k, v) ∨ (x ∈ m ∧ x.1 ≠ k) := by
  unfold hashInsert
  simp only [List.mem_append, List.mem_filter, List.mem_singleton, decide_eq_true_eq]
  constructor
  · rintro (h | h)
    · exact .inr h
    · exact .inl h
  · rintro (h | h)
    · exact .inr h
    · exact .inl h

theorem hashInsert_nodup {α β : Type} [DecidableEq α] (k : α) (v : β) (m : List (α × β)) (h : (m.map Prod.fst).Nodup) :
    ((hashInsert k v m).map Prod.fst).Nodup := by
  unfold hashInsert
  rw [List.map_append, List.nodup_append]
  refine ⟨h.sublist (List.filter_sublist.map _), by simp, ?_⟩
  intro a ha b hb
  simp only [List.map_cons, List.map_nil, List.mem_singleton] at hb
  subst hb
  obtain ⟨x, hx, rfl⟩ := List.mem_map.1 ha
  have := (List.mem_filter.1 hx).2
  simpa using this

/-- Insert entries one after the other. -/
def hashAll {α β : Type} [DecidableEq α] (l : List (α × β)) (m : List (α × β)) : List (α × β) :=
  l.foldl (fun m x => hashInsert x.1 x.2 m) m

theorem hashAll_nodup {α β : Type} [DecidableEq α] (l : List (α × β)) : ∀ (m : List (α × β)), (m.map Prod.fst).Nodup →
    ((hashAll l m).map Prod.fst).Nodup := by
  induction l with
  | nil => intro m h; exact h
  | cons x l ih => intro m h; exact ih _ (hashInsert_nodup _ _ _ h)

theorem hashAll_mem {α β : Type} [DecidableEq α] (l : List (α × β)) : ∀ (m : List (α × β)) (x : α × β), x ∈ hashAll l m →
    x ∈ l ∨ x ∈ m := by
  induction l with
  | nil => intro m x h; exact .inr h
  | cons a l ih =>
    intro m x h
    rcases ih _ x h with h | h
    · exact .inl (.tail _ h)
    · rcases (hashInsert_mem _ _ _ _).1 h with h | h
      · exact .inl (h ▸ .head _)
      · exact .inr h.1

theorem hashAll_keys {α β : Type} [DecidableEq α] (l : List (α × β)) : ∀ (m : List (α × β)) (k : α),
    (k ∈ l.map Prod.fst ∨ k ∈ m.map Prod.fst) → k ∈ (hashAll l m).map Prod.fst := by
  induction l with
  | nil =>
    intro m k h
    rcases h with h | h
    · cases h
    · exact h
  | cons a l ih =>
    intro m k h
    refine ih _ k ?_
    by_cases hk : k = a.1
    · right
      rw [List.mem_map]
      exact ⟨(a.1, a.2), (hashInsert_mem _ _ _ _).2 (.inl rfl), hk.symm⟩
    · rcases h with h | h
      · rw [List.map_cons, List.mem_cons] at h
        rcases h with h | h
        · exact absurd h hk
        · exact .inl h
      · right
        obtain ⟨x, hx, rfl⟩ := List.mem_map.1 h
        exact List.mem_map_of_mem ((hashInsert_mem _ _ _ _).2 (.inr ⟨hx, hk⟩))

theorem linkMap_eq (l : List Found) : linkMap l = hashAll (l.filterMap Found.link?) [] := by
  unfold linkMap hashAll
  generalize ([] : List (Str × Str)) = m
  induction l generalizing m with
  | nil => rfl
  | cons x l ih =>
    cases x with
    | comment c => exact ih _
    | link r p => exact ih _

/-- What the list of links of a package is. -/
structure LinksOf (l : List (Str × Str)) (found : List (Str × Str)) : Prop where
  nodup : (l.map Prod.fst).Nodup
  mem : ∀ x ∈ l, x ∈ found
  keys : ∀ x ∈ found, x.1 ∈ l.map Prod.fst

theorem linksOf_map {f : List (Str × Str) → List (Str × Str)} (hf : ∀ l, (f l).Perm l) (l l' : List Found)
    (h : ∀ x, x ∈ l'.filterMap Found.link? ↔ x ∈ l.filterMap Found.link?) :
    LinksOf (f (linkMap l')) (l.filterMap Found.link?) := by
  have hp := hf (linkMap l')
  rw [linkMap_eq] at hp ⊢
  refine ⟨?_, ?_, ?_⟩
  · exact (hp.map _).nodup_iff.2 (hashAll_nodup _ _ (by simp))
  · intro x hx
    rcases hashAll_mem _ _ _ (hp.mem_iff.1 hx) with hx | hx
    · exact (h x).1 hx
    · cases hx
  · intro x hx
    refine (hp.map Prod.fst).mem_iff.2 (hashAll_keys _ _ _ (.inl (List.mem_map_of_mem ((h x).2 hx))))

/-! ## The prepared document -/

/-- Preparation keeps the footnotes of the body. -/
theorem prepareForBuild_footnotes (env : Env) (d : DocxFile) (w : World) :
    partFootnotes (walkDocument (d.prepareForBuild env w).1.document) = partFootnotes (walkDocument d.document) := by
  unfold partFootnotes
  rw [within_pick, within_pick]
  refine prepareForBuild_pick ⟨fun w p => ?_, fun w p => ?_⟩ (fun w i => ?_) env d w
  · simp [Item.footnote?]
  · simp [Item.footnote?]
  · cases i <;> simp [blankItem, Item.footnote?]

/-- What updating the dependencies does to the relationships. -/
theorem updateDependencies_rels (env : Env) (hp : ∀ l, (env.links l).Perm l) (d : DocxFile) :
    ∃ ls c, (d.updateDependencies env).documentRels =
        { d.documentRels with hyperlinks := d.documentRels.hyperlinks ++ ls.map (fun x => (x.1, x.2, c!"External")), hasComments := c } ∧
      LinksOf ls (bodyLinks d.document) := by
  unfold DocxFile.updateDependencies
  dsimp only
  rw [← found_links]
  split
  · exact ⟨_, _, rfl, linksOf_map hp _ _ fun x => Iff.rfl⟩
  · refine ⟨_, _, rfl, linksOf_map hp _ _ fun x => ?_⟩
    rw [List.filterMap_append, List.mem_append, or_self]

/-- The relationships of the document that is written. -/
theorem preparePackage_documentRels (env : Env) (hp : ∀ l, (env.links l).Perm l) (d : DocxFile) (w : World) :
    ∃ ls c, (d.preparePackage env w).1.documentRels =
        { d.documentRels with
          images := (collectImages env.crc (d.prepareForBuild env w).1.document).documentRels
          hyperlinks := d.documentRels.hyperlinks ++ ls.map (fun x => (x.1, x.2, c!"External"))
          hasComments := c
          hasFootnotes := d.documentRels.hasFootnotes || !(partFootnotes (walkDocument d.document)).isEmpty } ∧
      LinksOf ls (bodyLinks d.document) := by
  have hf := prepareForBuild_footnotes env d w
  have hl := prepareForBuild_links env d w
  have hi := (collectImages_spec env.crc (d.prepareForBuild env w).1.document).2.2.2.2.2.2
  rw [hf] at hi
  obtain ⟨ls, c, h1, h2⟩ : ∃ ls c, (d.prepareForBuild env w).1.documentRels =
      { d.documentRels with hyperlinks := d.documentRels.hyperlinks ++ ls.map (fun x => (x.1, x.2, c!"External")), hasComments := c } ∧
      LinksOf ls (bodyLinks d.document) := by
    rw [← hl]
    have hdoc : bodyLinks (d.prepareForBuild env w).1.document = bodyLinks (
        (refreshDuplicateParaIds
          { document := { d.document with children := (expandAutoTocs d.styles.styles d.document.children w.toc).1 },
            comments := d.comments, footnotes := d.footnotes } 1).1.document) := by
      unfold DocxFile.prepareForBuild
      rw [updateDependencies_document]
    rw [hdoc]
    unfold DocxFile.prepareForBuild
    dsimp only
    generalize refreshDuplicateParaIds _ 1 = r
    obtain ⟨ls, c, h1, h2⟩ := updateDependencies_rels env hp { d with document := r.1.document, comments := r.1.comments, footnotes := r.1.footnotes }
    exact ⟨ls, c, h1, h2⟩
  refine ⟨ls, c, ?_, h2⟩
  unfold DocxFile.preparePackage
  generalize d.prepareForBuild env w = p at hi h1 ⊢
  generalize e0 : collectImages env.crc p.1.document = i at hi ⊢
  simp only [e0]
  by_cases he : i.footnotes = []
  · rw [if_pos he]
    rw [he] at hi
    rw [← hi]
    split <;> simp [h1]
  · rw [if_neg he]
    have : (partFootnotes (walkDocument d.document)).isEmpty = false := by
      rw [← hi]
      simpa using he
    rw [this]
    split <;> simp [h1]

/-- What preparation does to the rest of the bookkeeping. -/
theorem preparePackage_books (env : Env) (d : DocxFile) (w : World) :
    (d.preparePackage env w).1.contentType =
        (if partFootnotes (walkDocument d.document) = [] then d.contentType else d.contentType.addFootnotes) ∧
      (d.preparePackage env w).1.taskpanes = d.taskpanes ∧
      (d.preparePackage env w).1.webExtensions = d.webExtensions ∧
      (d.preparePackage env w).1.customItems = d.customItems ∧
      (d.preparePackage env w).1.customItemProps = d.customItemProps ∧
      (d.preparePackage env w).1.customItemRels = d.customItemRels := by
  have hf := prepareForBuild_footnotes env d w
  have hi := (collectImages_spec env.crc (d.prepareForBuild env w).1.document).2.2.2.2.2.2
  rw [hf] at hi
  have hu : ∀ x : DocxFile, (x.updateDependencies env).contentType = x.contentType ∧
      (x.updateDependencies env).taskpanes = x.taskpanes ∧ (x.updateDependencies env).webExtensions = x.webExtensions ∧
      (x.updateDependencies env).customItems = x.customItems ∧ (x.updateDependencies env).customItemProps = x.customItemProps ∧
      (x.updateDependencies env).customItemRels = x.customItemRels := by
    intro x
    unfold DocxFile.updateDependencies
    dsimp only
    split <;> exact ⟨rfl, rfl, rfl, rfl, rfl, rfl⟩
  have h1 : (d.prepareForBuild env w).1.contentType = d.contentType ∧
      (d.prepareForBuild env w).1.taskpanes = d.taskpanes ∧ (d.prepareForBuild env w).1.webExtensions = d.webExtensions ∧
      (d.prepareForBuild env w).1.customItems = d.customItems ∧ (d.prepareForBuild env w).1.customItemProps = d.customItemProps ∧
      (d.prepareForBuild env w).1.customItemRels = d.customItemRels := by
    unfold DocxFile.prepareForBuild
    dsimp only
    generalize refreshDuplicateParaIds _ 1 = r
    exact hu { d with document := r.1.document, comments := r.1.comments, footnotes := r.1.footnotes }
  unfold DocxFile.preparePackage
  generalize d.prepareForBuild env w = p at hi h1 ⊢
  generalize e0 : collectImages env.crc p.1.document = i at hi ⊢
  simp only [e0]
  obtain ⟨a1, a2, a3, a4, a5, a6⟩ := h1
  rw [← hi]
  by_cases he : i.footnotes = []
  · rw [if_pos he, if_pos he]
    split <;> exact ⟨a1, a2, a3, a4, a5, a6⟩
  · rw [if_neg he, if_neg he]
    split <;> exact ⟨congrArg ContentTypes.addFootnotes a1, a2, a3, a4, a5, a6⟩

end Docx
