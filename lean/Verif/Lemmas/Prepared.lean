import Verif.Lemmas.BlankWalk
import Verif.Lemmas.Bare
import Verif.Lemmas.AutoToc
import Verif.Lemmas.PackageBuild

/-!
# What preparation keeps
-/

namespace Docx

open Docx.Spec

theorem flatMap_mapIdx {α β : Type} (p : α → List β) : ∀ (l : List α) (f : Nat → α → α), (∀ i x, p (f i x) = p x) →
    (l.mapIdx f).flatMap p = l.flatMap p
  | [], _, _ => rfl
  | x :: l, f, h => by
    rw [List.mapIdx_cons, List.flatMap_cons, List.flatMap_cons, h, flatMap_mapIdx p l _ fun i x => h (i + 1) x]

theorem filterMap_mapIdx {α β : Type} (p : α → Option β) : ∀ (l : List α) (f : Nat → α → α), (∀ i x, p (f i x) = p x) →
    (l.mapIdx f).filterMap p = l.filterMap p
  | [], _, _ => rfl
  | x :: l, f, h => by
    rw [List.mapIdx_cons, List.filterMap_cons, List.filterMap_cons, h, filterMap_mapIdx p l _ fun i x => h (i + 1) x]

/-! Automatic tables of contents. -/

theorem overlay_section (done : List Nat) (marks : Marks) (items : Nat → List TocItem) (i : Nat) (c : DocumentChild) :
    sectionProp? (overlay done marks items i c) = sectionProp? c := by
  cases c with
  | toc t => simp only [overlay]; split <;> rfl
  | _ => rfl

theorem expandAutoTocs_sections (styles : List Style) (cs : List DocumentChild) (g : TocGen) :
    (expandAutoTocs styles cs g).1.filterMap sectionProp? = cs.filterMap sectionProp? := by
  obtain ⟨ms, k, e, _⟩ := expandAutoTocs_eq styles cs g
  rw [e]
  exact filterMap_mapIdx _ _ _ fun i x => overlay_section _ _ _ _ _

/-- `k` says nothing about paragraphs and tables of contents as such. -/
structure Skips {α : Type} (k : List Place → Item → List α) : Prop where
  paragraph : ∀ w p, k w (.paragraph p) = []
  toc : ∀ w t, k w (.toc t) = []

theorem wrapAll_pick {α : Type} {k : List Place → Item → List α} (hk : Skips k) (w : List Place) (p : Paragraph)
    (m : List (Nat × Str)) : pick k (walkParagraph w (wrapAll p m)) = pick k (walkParagraph w p) := by
  obtain ⟨i, cs, pr, n⟩ := p
  simp only [wrapAll, walkParagraph, pick_cons, hk.paragraph, List.nil_append]
  induction m generalizing cs with
  | nil => rfl
  | cons a m ih =>
    rw [List.foldl_cons, ih]
    have hl : ∀ (l : List ParagraphChild) w', walkParagraphChildren w' (l ++ [.bookmarkEnd a.1]) = walkParagraphChildren w' l := by
      intro l w'
      induction l with
      | nil => simp [walkParagraphChildren, walkParagraphChild]
      | cons b l ih => simp [walkParagraphChildren, ih]
    simp [walkParagraphChildren, walkParagraphChild, hl]

theorem overlay_pick {α : Type} {k : List Place → Item → List α} (hk : Skips k) (done : List Nat) (marks : Marks)
    (items : Nat → List TocItem) (i : Nat) (c : DocumentChild) (w : List Place) :
    pick k (walkDocumentChild w (overlay done marks items i c)) = pick k (walkDocumentChild w c) := by
  cases c with
  | paragraph p => exact wrapAll_pick hk w p _
  | toc t =>
    simp only [overlay]
    split
    · obtain ⟨a, b, c, d, e, f, g, bs, as, j, l⟩ := t
      simp only [walkDocumentChild, walkToc, pick_cons, hk.toc]
    · rfl
  | _ => rfl

theorem expandAutoTocs_pick {α : Type} {k : List Place → Item → List α} (hk : Skips k) (styles : List Style) (d : Document)
    (g : TocGen) : pick k (walkDocument { d with children := (expandAutoTocs styles d.children g).1 }) = pick k (walkDocument d) := by
  obtain ⟨ms, n, e, _⟩ := expandAutoTocs_eq styles d.children g
  simp only [walkDocument, pick_append, pick_flatMap]
  rw [e, flatMap_mapIdx _ _ _ fun i x => overlay_pick hk _ _ _ _ _ _]

/-! Paragraph ids. -/

theorem refreshDuplicateParaIds_blank (x : Story) (n : Nat) : blankStory (refreshDuplicateParaIds x n).1 = blankStory x := by
  unfold refreshDuplicateParaIds
  dsimp only
  split
  · rfl
  · exact blankStory_refresh _ _ _

theorem refreshDuplicateParaIds_document (x : Story) (n : Nat) :
    blankDocument (refreshDuplicateParaIds x n).1.document = blankDocument x.document :=
  congrArg Story.document (refreshDuplicateParaIds_blank x n)

theorem refreshDuplicateParaIds_bare (x : Story) (n : Nat) :
    bareDocument (refreshDuplicateParaIds x n).1.document = bareDocument x.document := by
  rw [← bareDocument_blank, refreshDuplicateParaIds_document, bareDocument_blank]

/-! The whole preparation. -/

theorem updateDependencies_document (env : Env) (d : DocxFile) : (d.updateDependencies env).document = d.document := by
  unfold DocxFile.updateDependencies
  dsimp only
  split <;> rfl

theorem prepareForBuild_document (env : Env) (d : DocxFile) (w : World) :
    ∃ x : Story, x.document = { d.document with children := (expandAutoTocs d.styles.styles d.document.children w.toc).1 } ∧
      (d.prepareForBuild env w).1.document = (refreshDuplicateParaIds x 1).1.document := by
  refine ⟨⟨_, d.comments, d.footnotes⟩, rfl, ?_⟩
  unfold DocxFile.prepareForBuild
  rw [updateDependencies_document]

theorem prepareForBuild_pick {α : Type} {k : List Place → Item → List α} (hs : Skips k)
    (hk : ∀ w i, k w (blankItem i) = k w i) (env : Env) (d : DocxFile) (w : World) :
    pick k (walkDocument (d.prepareForBuild env w).1.document) = pick k (walkDocument d.document) := by
  obtain ⟨x, e1, e2⟩ := prepareForBuild_document env d w
  rw [e2, ← walkDocument_blank hk, refreshDuplicateParaIds_document, walkDocument_blank hk, e1, expandAutoTocs_pick hs]

theorem filterMap_map_option {α β γ : Type} (f : α → Option β) (g : β → γ) (l : List α) :
    (l.filterMap f).map g = l.filterMap fun x => (f x).map g := by
  rw [List.map_filterMap]

theorem sectionProperties_bare (d : Document) :
    sectionProperties (bareDocument d) = (sectionProperties d).map bareSectionProperty := by
  rw [sectionProperties_eq, sectionProperties_eq, List.map_cons]
  congr 1
  simp only [bareDocument, List.filterMap_map, List.map_filterMap]
  congr 1
  funext c
  cases c <;> rfl

/-- Preparation keeps the section properties up to paragraph ids, picture ids and picture bytes. -/
theorem preparePackage_sections (env : Env) (d : DocxFile) (w : World) :
    (sectionProperties (d.preparePackage env w).1.document).map bareSectionProperty =
      (sectionProperties d.document).map bareSectionProperty := by
  have h := preparePackage_document env d w
  have hb := collectImages_bare env.crc (d.prepareForBuild env w).1.document
  generalize (collectImages env.crc (d.prepareForBuild env w).1.document).document = y at h hb
  rw [h, ← sectionProperties_bare, hb]
  obtain ⟨x, e1, e2⟩ := prepareForBuild_document env d w
  rw [e2, refreshDuplicateParaIds_bare, e1, sectionProperties_bare, sectionProperties_eq, sectionProperties_eq,
    expandAutoTocs_sections]

/-- Without automatic tables of contents, preparation keeps the document up to paragraph ids, picture ids and picture
bytes. -/
theorem preparePackage_bare (env : Env) (d : DocxFile) (w : World) (ht : autoTocIndexes 0 d.document.children = []) :
    bareDocument (d.preparePackage env w).1.document = bareDocument d.document := by
  have h := preparePackage_document env d w
  have hb := collectImages_bare env.crc (d.prepareForBuild env w).1.document
  generalize (collectImages env.crc (d.prepareForBuild env w).1.document).document = y at h hb
  rw [h, hb]
  obtain ⟨x, e1, e2⟩ := prepareForBuild_document env d w
  rw [e2, refreshDuplicateParaIds_bare, e1]
  unfold expandAutoTocs
  rw [ht]
  rfl

theorem partPictures_pick (l : Walk) :
    partPictures l = pick (fun w i => if inPart w then (Item.picture? i).toList else []) l := by
  unfold partPictures Walk.within pick
  induction l with
  | nil => rfl
  | cons x l ih =>
    rw [List.flatMap_cons, ← ih]
    rw [List.filter_cons]
    dsimp only
    by_cases h : inPart x.1 = true
    · rw [if_pos h, if_pos h, List.map_cons, List.filterMap_cons]
      cases Item.picture? x.2 <;> simp
    · rw [if_neg h, if_neg h, List.nil_append]

/-- Preparation keeps the pictures of the body. -/
theorem prepareForBuild_pictures (env : Env) (d : DocxFile) (w : World) :
    partPictures (walkDocument (d.prepareForBuild env w).1.document) = partPictures (walkDocument d.document) := by
  rw [partPictures_pick, partPictures_pick]
  refine prepareForBuild_pick ⟨fun w p => ?_, fun w p => ?_⟩ (fun w i => ?_) env d w
  · simp [Item.picture?]
  · simp [Item.picture?]
  · cases i <;> simp [Item.picture?, blankItem]

end Docx
