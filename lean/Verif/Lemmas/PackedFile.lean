import Verif.Lemmas.ReadFile
import Verif.Lemmas.ReadMore
import Verif.Props.C24_C25_Comments
import Verif.Props.C34_Types
import Verif.Props.C56_Lookup
import Verif.Props.C55_Styles
import Verif.Props.C59_Parts
import Verif.Props.C60_CustomProperties

/-! # The parts of a packed file, as the reader of files finds them -/

namespace Docx

open Docx.Xml Docx.Spec Docx.Props

/-! ## Comments and their flag -/

theorem calls_commentsExtended (cs : List Call) : ∀ (d d' : DocxFile), (∀ l, .commentsExtended l ∉ cs) → d.calls cs = some d' →
    d'.commentsExtended = d.commentsExtended := by
  have ah : ∀ (h : Option Header) (f) (x : DocxFile × SectionProperty), (attachHeader h f x).1.commentsExtended = x.1.commentsExtended := by
    intro h f x; cases h <;> rfl
  have af : ∀ (h : Option Header) (f) (x : DocxFile × SectionProperty), (attachFooter h f x).1.commentsExtended = x.1.commentsExtended := by
    intro h f x; cases h <;> rfl
  induction cs with
  | nil => intro d d' _ h; cases h; rfl
  | cons c cs ih =>
    intro d d' hn h
    rw [DocxFile.calls] at h
    cases e : d.call c with
    | none => rw [e] at h; cases h
    | some d1 =>
      rw [e] at h
      rw [ih d1 d' (fun l hl => hn l (.tail _ hl)) h]
      clear ih h
      cases c
      case commentsExtended l => exact absurd (.head _) (hn l)
      case addCustomItem id xml =>
        simp only [DocxFile.call] at e
        split at e <;> cases e
        rfl
      all_goals
        simp only [DocxFile.call, Option.some.injEq] at e
        subst e
        first
        | rfl
        | (simp only [DocxFile.addSection, DocxFile.attachParts, af, ah]; rfl)

theorem updateDependencies_flag (env : Env) (d : DocxFile) :
    (d.updateDependencies env).documentRels.hasComments =
      (d.documentRels.hasComments || decide (∃ c ∈ bodyComments d.document, directParagraphs c ≠ [])) := by
  have key : commentMap d.document.found = [] ↔ ¬ ∃ c ∈ bodyComments d.document, directParagraphs c ≠ [] := by
    rw [commentMap_nil, found_comments]
    simp only [not_exists, not_and, ne_eq, Decidable.not_not]
    refine forall₂_congr fun c _ => ?_
    rw [directParagraphs_ids]
    simp
  unfold DocxFile.updateDependencies
  by_cases h : commentMap d.document.found = []
  · simp only [h, if_true]
    rw [key] at h
    rw [decide_eq_false h, Bool.or_false]
    rfl
  · simp only [h, if_false]
    rw [key, Decidable.not_not] at h
    rw [decide_eq_true h, Bool.or_true]
    show (d.documentRels.hasComments || _) = true
    have : (d.document.found.foldl (pushComment (commentMap d.document.found)) ([], [])).1 ≠ [] := by
      rw [pushed_all, found_comments]
      obtain ⟨c, hc, hne⟩ := h
      intro he
      simp only [List.nil_append, List.flatMap_eq_nil_iff] at he
      have := he c hc
      rw [List.replicate_eq_nil_iff, directParagraphs_count] at this
      exact hne (List.length_eq_zero_iff.1 this)
    rw [List.isEmpty_eq_false_iff.2 this]
    simp

/-- Whether a comment of the body has a paragraph of its own, before and after preparation. -/
theorem prepared_commented (env : Env) (d : DocxFile) (w : World) :
    (∃ c ∈ bodyComments (d.prepareForBuild env w).1.document, directParagraphs c ≠ []) ↔ ∃ c ∈ bodyComments d.document, directParagraphs c ≠ [] := by
  have hbl := prepared_bodyComments env d w
  have key : ∀ a b : List Comment, a.map blankComment = b.map blankComment → (∃ c ∈ a, directParagraphs c ≠ []) → ∃ c ∈ b, directParagraphs c ≠ [] := by
    intro a b e ⟨c, hc, hne⟩
    have : blankComment c ∈ b.map blankComment := by rw [← e]; exact List.mem_map_of_mem hc
    obtain ⟨c', hc', e'⟩ := List.mem_map.1 this
    refine ⟨c', hc', fun h0 => hne ?_⟩
    have hh := congrArg Comment.paragraphCount e'
    rw [paragraphCount_blank, paragraphCount_blank, directParagraphs_count, directParagraphs_count, h0] at hh
    exact List.length_eq_zero_iff.1 hh.symm
  exact ⟨key _ _ hbl, key _ _ hbl.symm⟩

theorem preparePackage_flag {env : Env} {d : DocxFile} {w : World} (hc : d.documentRels.hasComments = false) :
    (d.preparePackage env w).1.documentRels.hasComments = decide (∃ c ∈ bodyComments d.document, directParagraphs c ≠ []) := by
  have h1 : (d.prepareForBuild env w).1.documentRels.hasComments = decide (∃ c ∈ bodyComments d.document, directParagraphs c ≠ []) := by
    have hb := prepared_commented env d w
    revert hb
    unfold DocxFile.prepareForBuild
    dsimp only
    rw [updateDependencies_document]
    generalize refreshDuplicateParaIds _ 1 = r
    intro hb
    rw [updateDependencies_flag]
    dsimp only
    rw [hc, Bool.false_or, decide_eq_decide]
    exact hb
  unfold DocxFile.preparePackage
  generalize d.prepareForBuild env w = p at h1 ⊢
  generalize e0 : collectImages env.crc p.1.document = i
  simp only [e0]
  split <;> split <;> exact h1

theorem preparePackage_noRecords {env : Env} {d : DocxFile} {w : World} (hn : ¬ ∃ c ∈ bodyComments d.document, directParagraphs c ≠ []) :
    (d.preparePackage env w).1.commentsExtended = d.commentsExtended := by
  have hb := prepared_commented env d w
  have h1 : (d.prepareForBuild env w).1.commentsExtended = d.commentsExtended := by
    revert hb
    unfold DocxFile.prepareForBuild
    dsimp only
    rw [updateDependencies_document]
    generalize refreshDuplicateParaIds _ 1 = r
    intro hb
    refine ((updateDependencies_comments env { d with document := r.1.document, comments := r.1.comments, footnotes := r.1.footnotes }).1 ?_).2
    intro c hc
    rw [directParagraphs_count, List.length_eq_zero_iff]
    by_contra hne
    exact hn (hb.1 ⟨c, hc, hne⟩)
  unfold DocxFile.preparePackage
  generalize d.prepareForBuild env w = p at h1 ⊢
  generalize e0 : collectImages env.crc p.1.document = i
  simp only [e0]
  split <;> split <;> exact h1

/-! ## The relationships -/

theorem hasRelations_unique {env : Env} {d : DocxFile} {w : World} {es : List Entry} (h : Packed env d w es) {name : Str} {a b : List Relation}
    (ha : HasRelations es name a) (hb : HasRelations es name b) : a = b := by
  obtain ⟨s, h1, e1⟩ := ha
  obtain ⟨t, h2, e2⟩ := hb
  have := Docx.entry_unique (Docx.packed_nodup h) h1 h2
  cases this
  rw [← e1, e2]

theorem packed_readText {env : Env} {d : DocxFile} {w : World} {es : List Entry} (h : Packed env d w es) {name : Str} {p : Part} {s : Str}
    (hs : .write name p ∈ zipDocxSteps env (d.preparePackage env w).1 (d.preparePackage env w).2.1) (ho : p.Opens) (hl : LookedUp name)
    (hm : ⟨name, .text s⟩ ∈ es) : readText es name = some s := by
  obtain ⟨t, g, g', h1, h2⟩ := fits_write (packed_fits h) hs
  have := Docx.entry_unique (Docx.packed_nodup h) hm h2
  cases this
  exact readText_opens (Docx.packed_nodup h) hm hl (ho _ _ _ h1)

/-- The relationships of the package. -/
theorem package_rels_found {cs : List Call} {d : DocxFile} {env : Env} {w : World} {es : List Entry} (hc : DocxFile.new.calls cs = some d)
    (h : Packed env d w es) :
    ∃ s rels k, readText es c!"_rels/.rels" = some s ∧ (∀ n, k ≤ n → (readPackageRels n s).got = .ok rels) ∧
      documentPath rels = c!"word/document.xml" ∧
      (rels.findTarget (officeType c!"custom-properties")).map (·.2.2) = some c!"docProps/custom.xml" := by
  have hr := calls_package_rels hc
  have hp := package_plain hr
  have he := fits_const (packed_fits h) (step_rels _ _ _) (rels_const _)
  rw [(preparePackage_same env d w).1] at he
  obtain ⟨k, hk⟩ := reads_package none _ hp
  refine ⟨_, _, k, readText_const (Docx.packed_nodup h) he (by constructor <;> decide), hk, ?_, ?_⟩
  · obtain ⟨more, e, _⟩ := hr
    rw [documentPath, Rels.findTarget]
    rw [e, List.find?_append]
    have : (packageRelations.find? fun x => decide (x.1 = officeType c!"officeDocument")) =
      some (officeRel c!"officeDocument", c!"rId3", c!"word/document.xml") := by decide +kernel
    rw [this]
    rfl
  · obtain ⟨more, e, _⟩ := hr
    rw [Rels.findTarget]
    rw [e, List.find?_append]
    have : (packageRelations.find? fun x => decide (x.1 = officeType c!"custom-properties")).map (·.2.2) =
      some c!"docProps/custom.xml" := by decide +kernel
    cases e2 : packageRelations.find? fun x => decide (x.1 = officeType c!"custom-properties") with
    | none => rw [e2] at this; cases this
    | some y => rw [e2] at this; exact this

/-- The relationships of the main document, with what they are. -/
theorem document_rels_found {cs : List Call} {d : DocxFile} {env : Env} {w : World} {es : List Entry} (hc : DocxFile.new.calls cs = some d)
    (hp : ∀ l, (env.links l).Perm l) (hm : Made d.document) (h : Packed env d w es) :
    ∃ m k, (∀ n, k ≤ n → readPartRels n es c!"word/document.xml" = .ok m) ∧ ∃ (r : DocumentRels) (imgs ls : List (Str × Str)),
      Finds m c!"word" (r.fixedRelations ++ r.partRelations ++ imgs.map imageRelation ++ ls.map linkRelation) ∧
      r.hasNumberings = d.documentRels.hasNumberings ∧ r.headerCount = d.documentRels.headerCount ∧
      r.footerCount = d.documentRels.footerCount ∧
      r.hasComments = decide (∃ c ∈ bodyComments d.document, directParagraphs c ≠ []) ∧
      HasRelations es c!"word/_rels/document.xml.rels" (r.fixedRelations ++ r.partRelations ++ imgs.map imageRelation ++ ls.map linkRelation) ∧
      (∀ q ∈ r.fixedRelations ++ r.partRelations ++ imgs.map imageRelation ++ ls.map linkRelation, q.mode = none → ¬ c!"../" <+: q.target →
        placeOf c!"word" q = c!"word/" ++ q.target ∧ LookedUp (c!"word/" ++ q.target)) ∧
      ∀ q ∈ r.fixedRelations ++ r.partRelations, ¬ c!"../" <+: q.target → placeOf c!"word" q = c!"word/" ++ q.target ∧ LookedUp (c!"word/" ++ q.target) := by
  obtain ⟨rs, h1, ⟨m, k, hk, hf⟩, h3⟩ := document_relations_read cs d env w es hc hp hm h
  obtain ⟨r, ls, h11, h2, hi, hl, _, h6, h7, h8, _, _, _, _, hr⟩ := packed_rels_written (calls_sound hc) hp hm.nameable h
  have hrs := hasRelations_unique h h1 ⟨_, h11, by rw [documentRels_read _ h2, hi, hl]⟩
  subst hrs
  refine ⟨m, k, hk, r, _, ls, hf, h6, h7, h8, ?_, h1, fun q hq hmode hd => ?_, ?_⟩
  · rw [hr, preparePackage_flag (calls_unflagged hc)]
  · have := (h3 q hq hmode).2 hd
    rwa [targetEntry, if_neg hd] at this
  · intro q hq hd
    have hmode : q.mode = none := by
      rcases List.mem_append.1 hq with hq | hq
      · have : ∀ x ∈ ({ hasComments := true, hasNumberings := true, hasFootnotes := true } : DocumentRels).fixedRelations,
          x.mode = none := by decide
        refine this q ?_
        unfold DocumentRels.fixedRelations at hq ⊢
        simp only [if_true]
        simp only [List.mem_append] at hq ⊢
        rcases hq with ((hx | hx) | hx) | hx
        · exact .inl (.inl (.inl hx))
        · refine .inl (.inl (.inr ?_)); split at hx; exacts [hx, absurd hx (by simp)]
        · refine .inl (.inr ?_); split at hx; exacts [hx, absurd hx (by simp)]
        · refine .inr ?_; split at hx; exacts [hx, absurd hx (by simp)]
      · unfold DocumentRels.partRelations at hq
        simp only [List.mem_append, List.mem_map] at hq
        rcases hq with (⟨_, _, rfl⟩ | ⟨_, _, rfl⟩) | ⟨_, _, rfl⟩ <;> rfl
    have := (h3 q (List.mem_append_left _ (List.mem_append_left _ hq)) hmode).2 hd
    rwa [targetEntry, if_neg hd] at this

/-- Where each fixed part is found. -/
theorem fixed_found {m : ReadRels} {r : DocumentRels} {imgs ls : List (Str × Str)}
    (hf : Finds m c!"word" (r.fixedRelations ++ r.partRelations ++ imgs.map imageRelation ++ ls.map linkRelation)) (ty : Str)
    (h1 : ty ≠ officeRel c!"header" ∧ ty ≠ officeRel c!"footer" ∧ ty ≠ officeRel c!"customXml" ∧ ty ≠ officeRel c!"image" ∧
      ty ≠ officeRel c!"hyperlink") :
    (∀ q ∈ r.fixedRelations, q.type = ty → (∀ q' ∈ r.fixedRelations, q'.type = ty → q' = q) →
      firstTarget m ty = some ⟨q.id, placeOf c!"word" q, q.mode⟩) ∧
    ((∀ q ∈ r.fixedRelations, q.type ≠ ty) → firstTarget m ty = none ∧ (m.targets ty).getD [] = []) := by
  have hrest : ∀ q ∈ r.fixedRelations ++ r.partRelations ++ imgs.map imageRelation ++ ls.map linkRelation, q.type = ty → q ∈ r.fixedRelations := by
    intro q hq ht
    simp only [List.mem_append] at hq
    rcases hq with ((hq | hq) | hq) | hq
    · exact hq
    · exfalso
      unfold DocumentRels.partRelations at hq
      simp only [List.mem_append, List.mem_map] at hq
      rcases hq with (⟨_, _, rfl⟩ | ⟨_, _, rfl⟩) | ⟨_, _, rfl⟩
      · exact h1.1 ht.symm
      · exact h1.2.1 ht.symm
      · exact h1.2.2.1 ht.symm
    · obtain ⟨y, _, rfl⟩ := List.mem_map.1 hq
      exact absurd ht.symm h1.2.2.2.1
    · obtain ⟨y, _, rfl⟩ := List.mem_map.1 hq
      exact absurd ht.symm h1.2.2.2.2
  refine ⟨fun q hq ht hu => ?_, fun hn => ?_⟩
  · exact hf.first (by simp only [List.mem_append]; exact .inl (.inl (.inl hq))) ht fun q' hq' ht' => hu q' (hrest q' hq' ht') ht'
  · have : ∀ q ∈ r.fixedRelations ++ r.partRelations ++ imgs.map imageRelation ++ ls.map linkRelation, q.type ≠ ty :=
      fun q hq ht => hn q (hrest q hq ht) ht
    exact ⟨hf.firstNone this, hf.none this⟩

end Docx
