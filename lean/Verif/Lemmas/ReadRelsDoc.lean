import Verif.Lemmas.ReadRels
import Verif.Props.C18_C22_Relations
import Verif.Props.C42_PartRels

/-!
# Reading the relationships of a written package
-/

namespace Docx

set_option linter.unusedSimpArgs false

open Docx.Xml Docx.Spec

/-! ## The parts preparation leaves alone -/

theorem preparePackage_same (env : Env) (d : DocxFile) (w : World) :
    (d.preparePackage env w).1.rels = d.rels ∧ (d.preparePackage env w).1.settings = d.settings ∧
    (d.preparePackage env w).1.custom = d.custom ∧ (d.preparePackage env w).1.core = d.core := by
  have hu : ∀ x : DocxFile, (x.updateDependencies env).rels = x.rels ∧ (x.updateDependencies env).settings = x.settings ∧
      (x.updateDependencies env).custom = x.custom ∧ (x.updateDependencies env).core = x.core := by
    intro x
    unfold DocxFile.updateDependencies
    dsimp only
    split <;> exact ⟨rfl, rfl, rfl, rfl⟩
  have h1 : (d.prepareForBuild env w).1.rels = d.rels ∧ (d.prepareForBuild env w).1.settings = d.settings ∧
      (d.prepareForBuild env w).1.custom = d.custom ∧ (d.prepareForBuild env w).1.core = d.core := by
    unfold DocxFile.prepareForBuild
    dsimp only
    generalize refreshDuplicateParaIds _ 1 = r
    exact hu { d with document := r.1.document, comments := r.1.comments, footnotes := r.1.footnotes }
  unfold DocxFile.preparePackage
  generalize d.prepareForBuild env w = p at h1 ⊢
  generalize collectImages env.crc p.1.document = i
  dsimp only
  split <;> split <;> exact h1

/-! ## The relationships of the package -/

/-- The relationships every package has. -/
def packageRelations : List (Str × Str × Str) := (({} : Rels).setDefault).rels

/-- Further relationships are those of task panes. -/
def PackageRels (l : List (Str × Str × Str)) : Prop :=
  ∃ more, l = packageRelations ++ more ∧ ∀ x ∈ more,
    x.1 = c!"http://schemas.microsoft.com/office/2011/relationships/webextensiontaskpanes" ∧ (∃ n, x.2.1 = c!"rId" ++ dec n) ∧
    x.2.2 = c!"word/webextensions/taskpanes.xml"

theorem calls_package_rels {cs : List Call} {d : DocxFile} (h : DocxFile.new.calls cs = some d) : PackageRels d.rels.rels := by
  refine calls_inv (P := fun d => PackageRels d.rels.rels) ?_ cs _ _ ⟨[], rfl, nofun⟩ h
  intro d c d' hd e
  have same : d'.rels = d.rels → PackageRels d'.rels.rels := fun h => h ▸ hd
  cases c with
  | taskpanes =>
    simp only [DocxFile.call, Option.some.injEq] at e
    subst e
    obtain ⟨more, h1, h2⟩ := hd
    refine ⟨more ++ [(c!"http://schemas.microsoft.com/office/2011/relationships/webextensiontaskpanes",
      c!"rId" ++ dec (d.rels.rels.length + 1), c!"word/webextensions/taskpanes.xml")], ?_, fun x hx => ?_⟩
    · rw [← List.append_assoc, ← h1]
      rfl
    · rcases List.mem_append.1 hx with hx | hx
      · exact h2 x hx
      · rw [List.mem_singleton.1 hx]
        exact ⟨rfl, ⟨_, rfl⟩, rfl⟩
  | addCustomItem id xml =>
    simp only [DocxFile.call] at e
    split at e
    · simp only [Option.some.injEq] at e
      subst e
      exact same rfl
    · cases e
  | addSection s =>
    simp only [DocxFile.call, Option.some.injEq] at e
    subst e
    refine same ?_
    have hh : ∀ o f (s : DocxFile × SectionProperty), (attachHeader o f s).1.rels = s.1.rels := by
      intro o f s
      cases o <;> rfl
    have hf : ∀ o f (s : DocxFile × SectionProperty), (attachFooter o f s).1.rels = s.1.rels := by
      intro o f s
      cases o <;> rfl
    unfold DocxFile.addSection DocxFile.attachParts
    dsimp only
    rw [hf, hf, hf, hh, hh, hh]
    rfl
  | _ =>
    simp only [DocxFile.call, Option.some.injEq] at e
    subst e
    exact same rfl


theorem package_plain {l : List (Str × Str × Str)} (h : PackageRels l) : ∀ x ∈ l, Plain x.1 ∧ Plain x.2.1 ∧ Plain x.2.2 := by
  obtain ⟨more, rfl, h2⟩ := h
  intro x hx
  rcases List.mem_append.1 hx with hx | hx
  · have : ∀ x ∈ packageRelations, plainB x.1 = true ∧ plainB x.2.1 = true ∧ plainB x.2.2 = true := by decide
    obtain ⟨h1, h2, h3⟩ := this x hx
    exact ⟨plain_lit h1, plain_lit h2, plain_lit h3⟩
  · obtain ⟨e1, ⟨n, e2⟩, e3⟩ := h2 x hx
    rw [e1, e2, e3]
    exact ⟨plain_lit (by decide), (plain_lit (by decide)).append (plain_dec n), plain_lit (by decide)⟩

theorem takes_package {x : ReadEnv} : ∀ (l acc : List (Str × Str × Str)), (∀ r ∈ l, Plain r.1 ∧ Plain r.2.1 ∧ Plain r.2.2) →
    TakesF x (fun _ => packageRelsLoop) (1, acc) (l.flatMap fun x => relationshipN x.2.1 x.1 x.2.2) (1, acc ++ l)
  | [], acc, _ => by rw [List.append_nil]; exact .nil _
  | r :: l, acc, h => by
    rw [List.flatMap_cons, show acc ++ r :: l = (acc ++ [r]) ++ l by simp]
    refine TakesF.append ?_ (takes_package l _ fun r hr => h r (.tail _ hr))
    obtain ⟨h1, h2, h3⟩ := h r (.head _)
    refine TakesF.wrap (s₁ := (2, acc ++ [r])) (s₂ := (2, acc ++ [r])) (fun d es _ => ?_) (.nil _) (fun d => rfl)
    simp only [packageRelsLoop]
    rw [expectAttrs_cons (by rw [h2.decode]; rfl), expectAttrs_cons (by rw [h1.decode]; rfl), expectAttrs_cons (by rw [h3.decode]; rfl),
      expectAttrs_nil]
    have e : ∀ s : Str, Plain s → seen s = s := fun s hs => by unfold seen; rw [hs.decode]; rfl
    rw [e _ h1, e _ h2, e _ h3]
    rfl

/-- The relationships of the package are read in the order in which they are written. -/
theorem reads_package (sa : Option Bool) (l : List (Str × Str × Str)) (h : ∀ r ∈ l, Plain r.1 ∧ Plain r.2.1 ∧ Plain r.2.2) :
    ∃ k, ∀ n, k ≤ n → (readPackageRels n (constText sa (Rels.nodes ⟨l⟩))).got = .ok ⟨l⟩ := by
  have hok : OkF (Rels.nodes ⟨l⟩) := by
    refine Rels.ok _ fun s hs => ?_
    obtain ⟨x, hx, hs⟩ := List.mem_flatMap.1 hs
    obtain ⟨h1, h2, h3⟩ := h x hx
    simp only [List.mem_cons, List.not_mem_nil, or_false] at hs
    rcases hs with rfl | rfl | rfl
    · exact h1.stored
    · exact h2.stored
    · exact h3.stored
  have x : ReadEnv := ⟨fun _ => none, fun _ => none, fun _ => none, []⟩
  obtain ⟨es, k, hk⟩ := runs_document (x := x) (L := fun _ => packageRelsLoop) (s := ((0 : Int), [])) (s' := (0, l))
    (f := Rels.nodes ⟨l⟩)
    (TakesF.wrap (s₁ := (1, [])) (s₂ := (1, l)) (fun d es _ => rfl) (by have := takes_package (x := x) l [] h; simpa using this) (fun d => rfl))
    (fun d => rfl)
  refine ⟨k, fun n hn => ?_⟩
  rw [readPackageRels, constText_reads sa hok, hk k (Nat.le_refl _) n hn]
  rfl

/-! ## The relationships of the main document -/

theorem apart_append {a b : List Relation} (ha : Apart a) (hb : Apart b) (h : ∀ r ∈ a, ∀ r' ∈ b, r.type ≠ r'.type) : Apart (a ++ b) := by
  intro r hr r' hr' e1 e2
  rcases List.mem_append.1 hr with hr | hr <;> rcases List.mem_append.1 hr' with hr' | hr'
  · exact ha r hr r' hr' e1 e2
  · exact absurd e1 (h r hr r' hr')
  · exact absurd e1.symm (h r' hr' r hr)
  · exact hb r hr r' hr' e1 e2

theorem apart_of_nodup {l : List Relation} (h : (l.map Relation.id).Nodup) : Apart l :=
  fun _ hr _ hr' _ e => List.inj_on_of_nodup_map h hr hr' e

theorem apart_map {α : Type} {l : List α} {f : α → Relation} (h : ∀ a ∈ l, ∀ b ∈ l, (f a).id = (f b).id → f a = f b) :
    Apart (l.map f) := by
  intro r hr r' hr' _ e
  obtain ⟨a, ha, rfl⟩ := List.mem_map.1 hr
  obtain ⟨b, hb, rfl⟩ := List.mem_map.1 hr'
  exact h a ha b hb e

/-- The types of the relationships every document may have. -/
def fixedTypes : List Str :=
  [officeRel c!"styles", officeRel c!"fontTable", officeRel c!"settings",
    c!"http://schemas.microsoft.com/office/2011/relationships/commentsExtended", officeRel c!"comments", officeRel c!"numbering",
    officeRel c!"footnotes"]

theorem fixed_relations (r : DocumentRels) : Apart r.fixedRelations ∧
    ∀ q ∈ r.fixedRelations, q.type ∈ fixedTypes ∧ q.target.head? ≠ some '/' ∧ Plain q.target := by
  refine ⟨apart_of_nodup ?_, fun q hq => ?_⟩
  · unfold DocumentRels.fixedRelations
    cases r.hasComments <;> cases r.hasNumberings <;> cases r.hasFootnotes <;> decide
  · have hp := (fixed_plain r q hq).target
    unfold DocumentRels.fixedRelations at hq
    revert hq
    revert q
    cases r.hasComments <;> cases r.hasNumberings <;> cases r.hasFootnotes <;>
      (intro q hp hq; refine (fun h => ⟨h.1, h.2, hp⟩ : q.type ∈ fixedTypes ∧ q.target.head? ≠ some '/' → _) ?_; clear hp; revert q; decide)

theorem rid_number_inj {p : Str} {a b : Nat} (h : p ++ dec a = p ++ dec b) : a = b := dec_inj (List.append_cancel_left h)

theorem part_relations_apart (r : DocumentRels) : Apart r.partRelations ∧
    ∀ q ∈ r.partRelations, q.type ∈ [officeRel c!"header", officeRel c!"footer", officeRel c!"customXml"] ∧ q.target.head? ≠ some '/' := by
  have ht : ∀ {rid : Nat → Str} {kind pre : Str} {l : List Nat}, ∀ q ∈ l.map (numberedRelation rid kind pre), q.type = officeRel kind := by
    intro rid kind pre l q hq
    obtain ⟨i, _, rfl⟩ := List.mem_map.1 hq
    rfl
  constructor
  · unfold DocumentRels.partRelations
    refine apart_append (apart_append ?_ ?_ ?_) ?_ ?_
    · refine apart_map fun a _ b _ e => ?_
      have : a + 1 = b + 1 := rid_number_inj e
      rw [show a = b by omega]
    · refine apart_map fun a _ b _ e => ?_
      have : a + 1 = b + 1 := rid_number_inj e
      rw [show a = b by omega]
    · intro q hq q' hq'
      rw [ht q hq, ht q' hq']
      decide
    · refine apart_map fun a _ b _ e => ?_
      have : a + 1 + 7 = b + 1 + 7 := rid_number_inj e
      rw [show a = b by omega]
    · intro q hq q' hq'
      rw [ht q' hq']
      rcases List.mem_append.1 hq with hq | hq
      · rw [ht q hq]; decide
      · rw [ht q hq]; decide
  · intro q hq
    unfold DocumentRels.partRelations at hq
    simp only [List.mem_append, List.mem_map] at hq
    rcases hq with (⟨i, _, rfl⟩ | ⟨i, _, rfl⟩) | ⟨i, _, rfl⟩
    · exact ⟨.head _, by simp [numberedRelation]⟩
    · exact ⟨.tail _ (.head _), by simp [numberedRelation]⟩
    · exact ⟨.tail _ (.tail _ (.head _)), by simp [numberedRelation]⟩

theorem no_hyperlink {t : Str} (h : t ∈ fixedTypes ++ [officeRel c!"header", officeRel c!"footer", officeRel c!"customXml", officeRel c!"image"]) :
    ¬ c!"hyperlink" <:+ t := by
  have : ∀ t ∈ fixedTypes ++ [officeRel c!"header", officeRel c!"footer", officeRel c!"customXml", officeRel c!"image"],
      c!"hyperlink".isSuffixOf t = false := by decide
  intro hs
  have h1 := this t h
  rw [List.isSuffixOf_iff_suffix.2 hs] at h1
  cases h1

theorem mediaTarget_head (name : Str) : (mediaTarget name).head? ≠ some '/' := by simp [mediaTarget]

end Docx
