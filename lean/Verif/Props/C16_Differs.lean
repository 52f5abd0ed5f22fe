import Verif.Props.C16_C17_Package
import Verif.Lemmas.Witness

/-!
# C16: where the two ways of writing differ

`Docx::pack` writes the body before the headers, `Docx::build` after them, and both draw revision ids from the same
counter. The documents here are not written out in full: that they are written follows from what is in them.
-/

namespace Docx.Props

open Docx.Spec

private theorem runSteps_skip {n : Str} {ss : List ZipStep} {g g' : Gen} {es : List Entry}
    (h : runSteps (.directory n :: ss) g = some (.ok es, g')) :
    ∃ es', es = ⟨n, .directory⟩ :: es' ∧ runSteps ss g = some (.ok es', g') := by
  simp only [runSteps] at h
  split at h
  · rename_i es' g1 e
    simp only [Option.some.injEq, Prod.mk.injEq, Except.ok.injEq] at h
    exact ⟨es', h.1.symm, by rw [e, h.2]⟩
  · rename_i hn
    exact absurd h (hn es g')

private theorem runSteps_part {n : Str} {p : Part} {ss : List ZipStep} {g g' : Gen} {es : List Entry}
    (h : runSteps (.write n p :: ss) g = some (.ok es, g')) :
    ∃ s k es', p g = some (.ok s, k) ∧ es = ⟨n, .text s⟩ :: es' ∧ runSteps ss k = some (.ok es', g') := by
  simp only [runSteps] at h
  split at h
  · exact absurd h (by simp)
  · exact absurd h (by simp)
  · rename_i s k e
    split at h
    · rename_i es' g1 e1
      simp only [Option.some.injEq, Prod.mk.injEq, Except.ok.injEq] at h
      exact ⟨s, k, es', e, h.1.symm, by rw [e1, h.2]⟩
    · rename_i hn
      exact absurd h (hn es g')

private theorem runSteps_fixed {n : Str} {p : Part} {t : Str} {ss : List ZipStep} {g g' : Gen} {es : List Entry} (hp : p.Const t)
    (h : runSteps (.write n p :: ss) g = some (.ok es, g')) :
    ∃ es', es = ⟨n, .text t⟩ :: es' ∧ runSteps ss g = some (.ok es', g') := by
  obtain ⟨s, k, es', e, rfl, h⟩ := runSteps_part h
  rw [hp g] at e
  simp only [Option.some.injEq, Prod.mk.injEq, Except.ok.injEq] at e
  obtain ⟨rfl, rfl⟩ := e
  exact ⟨es', rfl, h⟩

/-- The body `pack` writes is written with the generator it starts with. -/
theorem runSteps_document {env : Env} {d : DocxFile} {p : PackageMetadata} {g g' : Gen} {es : List Entry}
    (h : runSteps (zipDocxSteps env d p) g = some (.ok es, g')) :
    ∃ s k, d.document.write g = some (.ok s, k) ∧ es[10]? = some ⟨c!"word/document.xml", .text s⟩ := by
  rw [zipDocxSteps_split] at h
  obtain ⟨_, q1, h⟩ := runSteps_skip h
  obtain ⟨_, q2, h⟩ := runSteps_skip h
  obtain ⟨_, q3, h⟩ := runSteps_skip h
  obtain ⟨_, q4, h⟩ := runSteps_skip h
  obtain ⟨_, q5, h⟩ := runSteps_fixed (contentTypes_const d) h
  obtain ⟨_, q6, h⟩ := runSteps_fixed (rels_const d) h
  obtain ⟨_, q7, h⟩ := runSteps_fixed app_const h
  obtain ⟨_, q8, h⟩ := runSteps_fixed (core_const d) h
  obtain ⟨_, q9, h⟩ := runSteps_fixed (custom_const env d) h
  obtain ⟨_, q10, h⟩ := runSteps_fixed (documentRels_const d) h
  obtain ⟨s, k, _, e, q11, h⟩ := runSteps_part h
  refine ⟨s, k, e, ?_⟩
  rw [q1, q2, q3, q4, q5, q6, q7, q8, q9, q10, q11]
  rfl

/-- The body `build` writes is written with the generator the headers leave. -/
theorem build_document {env : Env} {d : DocxFile} {p : PackageMetadata} {l : BuiltLists} {x : XmlDocx} {g g1 g2 : Gen}
    (hf : ∀ h ∈ d.document.footers, Part.WritesNoIds h.writeFooter) (hs : d.stylesPart.WritesNoIds)
    (h1 : d.buildLists p g = some (l, g1)) (h2 : d.buildRest env p l g1 = some (x, g2)) :
    ∃ lh gh k, buildParts (d.document.headers.map Header.writeHeader) g = some (lh, gh) ∧
      d.document.write gh = some (.ok x.document, k) := by
  simp only [DocxFile.buildLists, Option.bind_eq_bind, Option.bind_eq_some_iff, Option.pure_def, Option.some.injEq,
    Prod.mk.injEq, Prod.exists] at h1
  obtain ⟨a1, b1, e1, a2, b2, e2, a3, b3, e3, a4, b4, e4, a5, b5, e5, a6, b6, e6, a7, b7, e7, a8, b8, e8, rfl, rfl⟩ := h1
  have i1 := buildParts_noIds _ (by
    intro q hq; obtain ⟨e, _, rfl⟩ := List.mem_map.1 hq; exact (webExtension_const e).noIds) _ _ _ e1
  have i2 := buildParts_noIds _ (by
    intro q hq; obtain ⟨e, _, rfl⟩ := List.mem_map.1 hq; exact (customItem_const e).noIds) _ _ _ e2
  have i3 := buildParts_noIds _ (by
    intro q hq; obtain ⟨e, _, rfl⟩ := List.mem_map.1 hq; exact (customItemProps_const e).noIds) _ _ _ e3
  have i4 := buildParts_noIds _ (by
    intro q hq; obtain ⟨e, _, rfl⟩ := List.mem_map.1 hq; exact (customItemRels_const e).noIds) _ _ _ e4
  have i6 := buildParts_noIds _ (by
    intro q hq; obtain ⟨e, he, rfl⟩ := List.mem_map.1 hq; exact hf e he) _ _ _ e6
  have i7 := buildSparse_gen _ _ _ _ _ e7
  have i8 := buildSparse_gen _ _ _ _ _ e8
  clear e1 e2 e3 e4 e6 e7 e8
  subst i8 i7 i6 i4 i3 i2 i1
  refine ⟨a5, b8, ?_⟩
  simp only [DocxFile.buildRest, Option.bind_eq_bind, Option.bind_eq_some_iff, Option.pure_def, Option.some.injEq,
    Prod.mk.injEq, Prod.exists] at h2
  obtain ⟨c1, d1, f1, c2, d2, f2, c3, d3, f3, c4, d4, f4, c5, d5, f5, c6, d6, f6, c7, d7, f7, c8, d8, f8, c9, d9, f9,
    c10, d10, f10, c11, d11, f11, c12, d12, f12, c13, d13, f13, c14, d14, f14, c15, d15, f15, c16, d16, f16, rfl, rfl⟩ := h2
  have j1 := buildPart_noIds (contentTypes_const d).noIds f1
  have j2 := buildPart_noIds (rels_const d).noIds f2
  have j3 := buildPart_noIds app_const.noIds f3
  have j4 := buildPart_noIds (core_const d).noIds f4
  have j5 := buildPart_noIds (custom_const env d).noIds f5
  have j6 := buildPart_noIds hs f6
  have f7 := buildPart_eq f7
  exact ⟨d7, e5, by rw [← f7, j6, j5, j4, j3, j2, j1]⟩

theorem packed_both {env : Env} {d : DocxFile} {w : World} {es : List Entry} (h : Packed env d w es) :
    ∃ es1 w1 es2 w2, d.pack env w = some (.ok es1, w1) ∧ buildThenPack env d w = some (es2, w2) := by
  rcases h with ⟨w', h⟩ | ⟨w', h⟩
  · obtain ⟨es2, w2, h2⟩ := (C16_same_outcome env d w).1 ⟨_, _, h⟩
    exact ⟨_, _, _, _, h, h2⟩
  · obtain ⟨es2, w2, h2⟩ := (C16_same_outcome env d w).2 ⟨_, _, h⟩
    exact ⟨_, _, _, _, h2, h⟩

/-- A paragraph that is a tracked insertion. -/
private def inserted (s : Str) : Paragraph :=
  { id := c!"a", children := [.insert { author := c!"x", date := c!"y", children := [.run { children := [.text (textOf s)] }] }] }

/-- A document with a tracked insertion in its body and another in its header. -/
private def trackedCalls : List Call := [.header { children := [.paragraph (inserted c!"h")] }, .addParagraph (inserted c!"b")]

/-- The body is written differently before and after the headers. -/
private def bodyDiffers (d : DocxFile) (g : Gen) : Bool :=
  match buildParts (d.document.headers.map Header.writeHeader) g with
  | none => false
  | some (_, g') =>
    match d.document.write g, d.document.write g' with
    | some (.ok s, _), some (.ok t, _) => decide (s ≠ t)
    | _, _ => false

private theorem tracked_pack : packs (fun d _ => bodyDiffers (d.preparePackage anEnv {}).1 (d.preparePackage anEnv {}).2.2.gen)
    trackedCalls = true := by
  decide +kernel

private theorem tracked_rest : (DocxFile.new.calls trackedCalls).map (fun d => ((d.preparePackage anEnv {}).1.document.footers,
    (d.preparePackage anEnv {}).1.styles)) = some ([], DocxFile.new.styles) := rfl

/-- **C16 fails** for the contents as such: with a tracked change in the body and another in a header, `pack` gives
the first revision id to the body and `build` gives it to the header. -/
theorem C16_fails : ∃ env cs d w es w1 es' w2, DocxFile.new.calls cs = some d ∧ d.pack env w = some (.ok es, w1) ∧
    buildThenPack env d w = some (es', w2) ∧ es ≠ es' := by
  obtain ⟨d, _, hc, hp, hd⟩ := packs_spec tracked_pack
  obtain ⟨es, w1, es', w2, h1, h2⟩ := packed_both hp
  have hr := tracked_rest
  rw [hc] at hr
  simp only [Option.map_some, Option.some.injEq, Prod.mk.injEq] at hr
  obtain ⟨hf, hst⟩ := hr
  refine ⟨anEnv, trackedCalls, d, {}, es, w1, es', w2, hc, h1, h2, ?_⟩
  obtain ⟨g, h1, _⟩ := pack_runs h1
  obtain ⟨s, k, e1, e2⟩ := runSteps_document h1
  obtain ⟨l, g1, x, g2, b1, b2, b3, _⟩ := buildThenPack_runs h2
  have hs : Part.WritesNoIds (d.preparePackage anEnv {}).1.stylesPart := by
    have : (d.preparePackage anEnv {}).1.stylesPart = buildElement (flat DocxFile.new.styles.nodes) := by
      unfold DocxFile.stylesPart
      rw [hst, Styles_build_flat]
    rw [this]
    exact buildElement_noIds fun g => rfl
  obtain ⟨lh, gh, k', c1, c2⟩ := build_document (by rw [hf]; intro _ hm; cases hm) hs b1 b2
  obtain ⟨t, rfl⟩ := pack_head b3
  rintro rfl
  rw [show (fixedEntries x ++ t)[10]? = some ⟨c!"word/document.xml", .text x.document⟩ from rfl] at e2
  simp only [Option.some.injEq, Entry.mk.injEq, true_and, Content.text.injEq] at e2
  subst e2
  unfold bodyDiffers at hd
  rw [c1] at hd
  dsimp only at hd
  rw [e1, c2] at hd
  simp at hd

/-- A document with a picture in a header, a footer without one, a tracked insertion, a custom item, a web extension and
a comment. -/
private def richCalls : List Call :=
  [ .header { children := [.paragraph { id := c!"a", children := [.run { children := [.picture
      { id := c!"p", image := [1, 2, 3], size := (1, 1) }] }] }] },
    .footer { children := [.paragraph { id := c!"b", children := [.run { children := [.text (textOf c!"f")] }] }] },
    .addParagraph (inserted c!"b"),
    .taskpanes, .webExtension { id := c!"i", version := c!"1", store := c!"s", storeType := c!"t", referenceId := c!"r", properties := [] },
    .addCustomItem c!"id" c!"<a></a>" ]

/-- The names of the entries both write. -/
private def richNames : List Str := fixedNames ++
  [ c!"word/header1.xml", c!"word/_rels/header1.xml.rels", c!"word/footer1.xml", c!"word/media/", c!"word/media/headerp.png",
    c!"word/webextensions/", c!"word/webextensions/taskpanes.xml", c!"word/webextensions/_rels/",
    c!"word/webextensions/_rels/taskpanes.xml.rels", c!"word/webextensions/webextension1.xml",
    c!"customXml/_rels/", c!"customXml/_rels/item1.xml.rels", c!"customXml/item1.xml", c!"customXml/itemProps1.xml" ]

private theorem rich_names : packs (fun _ names => decide (names = richNames)) richCalls = true := by decide +kernel

/-- The hypotheses of `C16_entries_partial`, `C17_pack` and `C17_build_pack` are met by a document with all kinds of parts. -/
example : ∃ d es w1 es' w2, DocxFile.new.calls richCalls = some d ∧ d.pack anEnv {} = some (.ok es, w1) ∧
    buildThenPack anEnv d {} = some (es', w2) ∧ es.map Entry.name = richNames := by
  obtain ⟨d, es, hc, hp, h⟩ := packs_spec rich_names
  obtain ⟨es1, w1, es', w2, h1, h2⟩ := packed_both hp
  refine ⟨d, es1, w1, es', w2, hc, h1, h2, ?_⟩
  rw [fits_names (packed_fits (.inl ⟨w1, h1⟩)), ← fits_names (packed_fits hp)]
  exact of_decide_eq_true h

end Docx.Props
