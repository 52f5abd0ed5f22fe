import Verif.Lemmas.PackageSame

/-!
# When headers, footers and styles draw no ids, both ways of writing give the same archive
-/

namespace Docx

open Docx.Spec Docx.Xml Docx.Props

theorem Part.Const.noIds {p : Part} {s : Str} (h : p.Const s) : p.WritesNoIds := by
  intro g t g' e k
  rw [h g] at e
  simp only [Option.some.injEq, Prod.mk.injEq, Except.ok.injEq] at e
  rw [h k, e.1]

theorem indexed_noIds {α : Type} (l : List α) (i : Nat) (f : α → Part) (hf : ∀ a, (f a).WritesNoIds) :
    (indexed l i f).WritesNoIds := by
  unfold indexed
  split
  · exact hf _
  · intro g s g' e; exact absurd e (by simp)

/-- No step draws an id. -/
def AllNoIds (ss : List ZipStep) : Prop := ∀ n p, ZipStep.write n p ∈ ss → p.WritesNoIds

theorem AllNoIds.nil : AllNoIds [] := by intro n p h; simp at h
theorem AllNoIds.append {a b : List ZipStep} (h1 : AllNoIds a) (h2 : AllNoIds b) : AllNoIds (a ++ b) := by
  intro n p h
  rcases List.mem_append.1 h with h | h
  · exact h1 n p h
  · exact h2 n p h
theorem AllNoIds.write {n : Str} {p : Part} {a : List ZipStep} (h1 : p.WritesNoIds) (h2 : AllNoIds a) :
    AllNoIds (.write n p :: a) := by
  intro m q h
  rcases List.mem_cons.1 h with h | h
  · cases h; exact h1
  · exact h2 m q h
theorem AllNoIds.directory {n : Str} {a : List ZipStep} (h2 : AllNoIds a) : AllNoIds (.directory n :: a) := by
  intro m q h
  rcases List.mem_cons.1 h with h | h
  · cases h
  · exact h2 m q h
theorem AllNoIds.ite {c : Prop} [Decidable c] {a b : List ZipStep} (h1 : AllNoIds a) (h2 : AllNoIds b) :
    AllNoIds (if c then a else b) := by
  split <;> assumption

theorem runSteps_noIds {ss : List ZipStep} {es : List Entry} (h : AllNoIds ss) (hf : List.Forall₂ ZipStep.Fits ss es) (g : Gen) :
    runSteps ss g = some (.ok es, g) := by
  induction hf with
  | nil => rfl
  | @cons s e ss es hs _ ih =>
    have ih := ih fun n p hp => h n p (by simp [hp])
    cases s with
    | directory n => simp only [runSteps, ih, show e = _ from hs]
    | store n b => simp only [runSteps, ih, show e = _ from hs]
    | write n p =>
      obtain ⟨s, g1, g2, rfl, e1⟩ := hs
      simp only [runSteps, h n p (by simp) _ _ _ e1 g, ih]

theorem partSteps_noIds (kind : Str) (write : Header → Part) :
    ∀ (hs : List Header) (i : Nat) (rs : List (Nat × List (Str × Str))), (∀ h ∈ hs, (write h).WritesNoIds) →
      AllNoIds (partSteps kind write i hs rs)
  | [], i, rs, _ => by simp only [partSteps]; exact .nil
  | h :: hs, i, [], hw => by
    simp only [partSteps]
    exact .write (hw h (by simp)) (partSteps_noIds kind write hs _ _ fun x hx => hw x (by simp [hx]))
  | h :: hs, i, (j, r) :: rs, hw => by
    simp only [partSteps]
    refine .write (hw h (by simp)) ?_
    split
    · exact .write (imageRels_const r).noIds (partSteps_noIds kind write hs _ _ fun x hx => hw x (by simp [hx]))
    · exact partSteps_noIds kind write hs _ _ fun x hx => hw x (by simp [hx])

theorem customItemSteps_noIds (d : DocxFile) : ∀ (xs : List (List XmlData)) (i : Nat), AllNoIds (customItemSteps d i xs)
  | [], i => .nil
  | x :: xs, i => by
    simp only [customItemSteps, List.cons_append, List.nil_append]
    exact .write (indexed_noIds _ _ _ fun n => (customItemRels_const n).noIds) (.write (customItem_const x).noIds
      (.write (indexed_noIds _ _ _ fun n => (customItemProps_const n).noIds) (customItemSteps_noIds d xs (i + 1))))

theorem webExtensionSteps_noIds : ∀ (es : List WebExtension) (i : Nat), AllNoIds (webExtensionSteps i es)
  | [], i => .nil
  | e :: es, i => .write (webExtension_const e).noIds (webExtensionSteps_noIds es (i + 1))

/-- The entries every package begins with. -/
def fixedSteps (env : Env) (d : DocxFile) : List ZipStep :=
  [ .directory c!"word/", .directory c!"word/_rels/", .directory c!"_rels/", .directory c!"docProps/",
    .write c!"[Content_Types].xml" d.contentTypesPart,
    .write c!"_rels/.rels" d.relsPart,
    .write c!"docProps/app.xml" appPart,
    .write c!"docProps/core.xml" d.corePart,
    .write c!"docProps/custom.xml" (d.customPart env),
    .write c!"word/_rels/document.xml.rels" d.documentRelsPart,
    .write c!"word/document.xml" d.document.write,
    .write c!"word/styles.xml" d.stylesPart,
    .write c!"word/settings.xml" d.settingsPart,
    .write c!"word/fontTable.xml" fontTablePart,
    .write c!"word/comments.xml" (writeComments d.comments),
    .write c!"word/numbering.xml" d.numberingPart,
    .write c!"word/commentsExtended.xml" d.commentsExtendedPart,
    .write c!"word/footnotes.xml" (writeFootnotes d.footnotes) ]

/-- The entries that depend on what the document uses. -/
def otherSteps (d : DocxFile) (p : PackageMetadata) : List ZipStep :=
  partSteps c!"header" Header.writeHeader 0 d.document.headers p.headerRels
  ++ partSteps c!"footer" Header.writeFooter 0 d.document.footers p.footerRels
  ++ (if p.media = [] then [] else .directory c!"word/media/" :: p.media.map fun m => .store (mediaName m.1) m.2)
  ++ (if d.taskpanes then
        [ .directory c!"word/webextensions/",
          .write c!"word/webextensions/taskpanes.xml" taskpanesPart,
          .directory c!"word/webextensions/_rels/",
          .write c!"word/webextensions/_rels/taskpanes.xml.rels" d.taskpanesRelsPart ]
        ++ webExtensionSteps 0 d.webExtensions
      else [])
  ++ (if d.customItems = [] then [] else [.directory c!"customXml/_rels/"])
  ++ customItemSteps d 0 d.customItems

theorem zipDocxSteps_split (env : Env) (d : DocxFile) (p : PackageMetadata) :
    zipDocxSteps env d p = fixedSteps env d ++ otherSteps d p := by
  unfold zipDocxSteps otherSteps
  rw [← fixedSteps]
  simp only [List.append_assoc]

/-- The entries every package begins with. -/
def fixedEntries (x : XmlDocx) : List Entry :=
  [ ⟨c!"word/", .directory⟩, ⟨c!"word/_rels/", .directory⟩, ⟨c!"_rels/", .directory⟩, ⟨c!"docProps/", .directory⟩,
    ⟨c!"[Content_Types].xml", .text x.contentType⟩,
    ⟨c!"_rels/.rels", .text x.rels⟩,
    ⟨c!"docProps/app.xml", .text x.app⟩,
    ⟨c!"docProps/core.xml", .text x.core⟩,
    ⟨c!"docProps/custom.xml", .text x.custom⟩,
    ⟨c!"word/_rels/document.xml.rels", .text x.documentRels⟩,
    ⟨c!"word/document.xml", .text x.document⟩,
    ⟨c!"word/styles.xml", .text x.styles⟩,
    ⟨c!"word/settings.xml", .text x.settings⟩,
    ⟨c!"word/fontTable.xml", .text x.fontTable⟩,
    ⟨c!"word/comments.xml", .text x.comments⟩,
    ⟨c!"word/numbering.xml", .text x.numberings⟩,
    ⟨c!"word/commentsExtended.xml", .text x.commentsExtended⟩,
    ⟨c!"word/footnotes.xml", .text x.footnotes⟩ ]

theorem pack_head {x : XmlDocx} {es : List Entry} (h : x.pack = some es) : ∃ t, es = fixedEntries x ++ t := by
  simp only [XmlDocx.pack, Option.bind_eq_bind, Option.bind_eq_some_iff, Option.pure_def, Option.some.injEq] at h
  obtain ⟨items, _, rfl⟩ := h
  rw [← fixedEntries]
  simp only [List.append_assoc]
  exact ⟨_, rfl⟩

theorem otherSteps_noIds (d : DocxFile) (p : PackageMetadata) (hh : ∀ h ∈ d.document.headers, Part.WritesNoIds h.writeHeader)
    (hf : ∀ h ∈ d.document.footers, Part.WritesNoIds h.writeFooter) : AllNoIds (otherSteps d p) := by
  unfold otherSteps
  refine .append (.append (.append (.append (.append ?_ ?_) ?_) ?_) ?_) (customItemSteps_noIds d _ _)
  · exact partSteps_noIds _ _ _ _ _ hh
  · exact partSteps_noIds _ _ _ _ _ hf
  · refine .ite .nil (.directory ?_)
    intro n q h
    simp at h
  · refine .ite (.append ?_ (webExtensionSteps_noIds _ _)) .nil
    exact .directory (.write taskpanes_const.noIds (.directory (.write (taskpanesRels_const d).noIds .nil)))
  · exact .ite .nil (.directory .nil)

theorem buildPart_eq {p : Part} {g g' : Gen} {s : Str} (h : buildPart p g = some (s, g')) : p g = some (.ok s, g') := by
  unfold buildPart at h
  split at h
  · rename_i s' g1 e
    simp only [Option.some.injEq, Prod.mk.injEq] at h
    rw [e, h.1, h.2]
  · exact absurd h (by simp)

theorem buildPart_noIds {p : Part} (hp : p.WritesNoIds) {g g' : Gen} {s : Str} (h : buildPart p g = some (s, g')) : g' = g := by
  have h1 := buildPart_eq h
  have h2 := hp _ _ _ h1 g
  rw [h1] at h2
  simp only [Option.some.injEq, Prod.mk.injEq, true_and] at h2
  exact h2

theorem buildParts_noIds : ∀ (ps : List Part), (∀ p ∈ ps, p.WritesNoIds) → ∀ (g g' : Gen) (l : List Str),
    buildParts ps g = some (l, g') → g' = g
  | [], _, g, g', l, h => by
    simp only [buildParts, Option.some.injEq, Prod.mk.injEq] at h
    exact h.2.symm
  | p :: ps, hp, g, g', l, h => by
    simp only [buildParts] at h
    split at h
    · exact absurd h (by simp)
    · rename_i s g1 e
      split at h
      · exact absurd h (by simp)
      · rename_i l' g2 e'
        simp only [Option.some.injEq, Prod.mk.injEq] at h
        rw [← h.2, buildParts_noIds ps (fun q hq => hp q (by simp [hq])) _ _ _ e', buildPart_noIds (hp p (by simp)) e]

theorem buildTaskpanes_noIds {b : Bool} {g g' : Gen} {o : Option Str} (h : buildTaskpanes b g = some (o, g')) : g' = g := by
  cases b with
  | false =>
    simp only [buildTaskpanes, Option.some.injEq, Prod.mk.injEq] at h
    exact h.2.symm
  | true =>
    simp only [buildTaskpanes, Option.map_eq_some_iff, Prod.mk.injEq] at h
    obtain ⟨⟨s, g1⟩, e, _, h2⟩ := h
    rw [← h2]
    exact buildPart_noIds taskpanes_const.noIds e

/-- The generators as the build threads them, when headers, footers and styles draw no ids. -/
theorem build_threads {env : Env} {d : DocxFile} {p : PackageMetadata} {l : BuiltLists} {x : XmlDocx} {g g1 g2 : Gen}
    (hh : ∀ h ∈ d.document.headers, Part.WritesNoIds h.writeHeader)
    (hf : ∀ h ∈ d.document.footers, Part.WritesNoIds h.writeFooter) (hs : d.stylesPart.WritesNoIds)
    (h1 : d.buildLists p g = some (l, g1)) (h2 : d.buildRest env p l g1 = some (x, g2)) :
    ∃ k1 k2 k3, d.document.write g = some (.ok x.document, k1) ∧ writeComments d.comments k1 = some (.ok x.comments, k2) ∧
      d.numberingPart k2 = some (.ok x.numberings, k3) ∧ writeFootnotes d.footnotes k3 = some (.ok x.footnotes, g2) := by
  simp only [DocxFile.buildLists, Option.bind_eq_bind, Option.bind_eq_some_iff, Option.pure_def, Option.some.injEq,
    Prod.mk.injEq, Prod.exists] at h1
  obtain ⟨a1, b1, e1, a2, b2, e2, a3, b3, e3, a4, b4, e4, a5, b5, e5, a6, b6, e6, a7, b7, e7, a8, b8, e8, rfl, rfl⟩ := h1
  have i1 := buildParts_noIds _ (by
    intro q hq; obtain ⟨e, _, rfl⟩ := List.mem_map.1 hq; exact (webExtension_const e).noIds) _ _ _ e1
  have i2 := buildParts_noIds _ (by
    intro q hq; obtain ⟨e, _, rfl⟩ := List.mem_map.1 hq; exact (customItem_const e).noIds) _ _ _ e2
  have i3 := buildParts_noIds _ (by
    intro q hq; obtain ⟨e, _, rfl⟩ := List.mem_map.1 hq; exact (customItemProps_const e).noIds) _ _ _ e3
  have i4 := buildParts_noIds _ (by
    intro q hq; obtain ⟨e, _, rfl⟩ := List.mem_map.1 hq; exact (customItemRels_const e).noIds) _ _ _ e4
  have i5 := buildParts_noIds _ (by
    intro q hq; obtain ⟨e, he, rfl⟩ := List.mem_map.1 hq; exact hh e he) _ _ _ e5
  have i6 := buildParts_noIds _ (by
    intro q hq; obtain ⟨e, he, rfl⟩ := List.mem_map.1 hq; exact hf e he) _ _ _ e6
  have i7 := buildSparse_gen _ _ _ _ _ e7
  have i8 := buildSparse_gen _ _ _ _ _ e8
  clear e1 e2 e3 e4 e5 e6 e7 e8
  subst i8 i7 i6 i5 i4 i3 i2 i1
  simp only [DocxFile.buildRest, Option.bind_eq_bind, Option.bind_eq_some_iff, Option.pure_def, Option.some.injEq,
    Prod.mk.injEq, Prod.exists] at h2
  obtain ⟨c1, d1, f1, c2, d2, f2, c3, d3, f3, c4, d4, f4, c5, d5, f5, c6, d6, f6, c7, d7, f7, c8, d8, f8, c9, d9, f9,
    c10, d10, f10, c11, d11, f11, c12, d12, f12, c13, d13, f13, c14, d14, f14, c15, d15, f15, c16, d16, f16, rfl, rfl⟩ := h2
  have j1 := buildPart_noIds (contentTypes_const d).noIds f1
  have j2 := buildPart_noIds (rels_const d).noIds f2
  have j3 := buildPart_noIds app_const.noIds f3
  have j4 := buildPart_noIds (core_const d).noIds f4
  have j5 := buildPart_noIds (custom_const env d).noIds f5
  have j6 := buildPart_noIds hs f6
  have j9 := buildPart_noIds (documentRels_const d).noIds f9
  have j10 := buildPart_noIds (settings_const d).noIds f10
  have j11 := buildPart_noIds fontTable_const.noIds f11
  have j13 := buildPart_noIds (commentsExtended_const d).noIds f13
  have j14 := buildTaskpanes_noIds f14
  have j15 := buildPart_noIds (taskpanesRels_const d).noIds f15
  clear f1 f2 f3 f4 f5 f6 f9 f10 f11 f13 f14 f15
  have f7 := buildPart_eq f7
  have f8 := buildPart_eq f8
  have f12 := buildPart_eq f12
  have f16 := buildPart_eq f16
  refine ⟨d7, d8, d12, ?_, f8, ?_, ?_⟩
  · rw [← f7, j6, j5, j4, j3, j2, j1]
  · rw [← f12, j11, j10, j9]
  · rw [← f16, j15, j14, j13]

theorem PartText.at {p : Part} {s : Str} (h : PartText p s) (hp : p.WritesNoIds) (g : Gen) : p g = some (.ok s, g) := by
  obtain ⟨h1, h2, e⟩ := h
  exact hp _ _ _ e g

theorem runStep_write {n : Str} {p : Part} {ss : List ZipStep} {g g1 g2 : Gen} {s : Str} {es : List Entry}
    (h : p g = some (.ok s, g1)) (h' : runSteps ss g1 = some (.ok es, g2)) :
    runSteps (.write n p :: ss) g = some (.ok (⟨n, .text s⟩ :: es), g2) := by
  simp only [runSteps, h, h']

theorem runStep_directory {n : Str} {ss : List ZipStep} {g g2 : Gen} {es : List Entry}
    (h' : runSteps ss g = some (.ok es, g2)) :
    runSteps (.directory n :: ss) g = some (.ok (⟨n, .directory⟩ :: es), g2) := by
  simp only [runSteps, h']

/-- The streaming writer makes the same entries. -/
theorem build_runs {env : Env} {d : DocxFile} {p : PackageMetadata} {l : BuiltLists} {x : XmlDocx} {g g1 g2 : Gen} {es : List Entry}
    (hr : RelsFit d p) (hh : ∀ h ∈ d.document.headers, Part.WritesNoIds h.writeHeader)
    (hf : ∀ h ∈ d.document.footers, Part.WritesNoIds h.writeFooter) (hs : d.stylesPart.WritesNoIds)
    (h1 : d.buildLists p g = some (l, g1)) (h2 : d.buildRest env p l g1 = some (x, g2)) (h3 : x.pack = some es) :
    runSteps (zipDocxSteps env d p) g = some (.ok es, g2) := by
  have hb := build_built h1 h2
  have hfit := pack_fits hb hr h3
  obtain ⟨k1, k2, k3, t1, t2, t3, t4⟩ := build_threads hh hf hs h1 h2
  obtain ⟨t, rfl⟩ := pack_head h3
  rw [zipDocxSteps_split] at hfit ⊢
  have hrest : List.Forall₂ ZipStep.Fits (otherSteps d p) t := by
    have := List.forall₂_drop (fixedSteps env d).length hfit
    rw [List.drop_left, show (fixedSteps env d).length = (fixedEntries x).length from rfl, List.drop_left] at this
    exact this
  have hrun := runSteps_noIds (otherSteps_noIds d p hh hf) hrest g2
  exact runStep_directory (runStep_directory (runStep_directory (runStep_directory
    (runStep_write (hb.contentType.at (contentTypes_const d).noIds _) (runStep_write (hb.rels.at (rels_const d).noIds _)
    (runStep_write (hb.app.at app_const.noIds _) (runStep_write (hb.core.at (core_const d).noIds _)
    (runStep_write (hb.custom.at (custom_const env d).noIds _) (runStep_write (hb.documentRels.at (documentRels_const d).noIds _)
    (runStep_write t1 (runStep_write (hb.styles.at hs _) (runStep_write (hb.settings.at (settings_const d).noIds _)
    (runStep_write (hb.fontTable.at fontTable_const.noIds _) (runStep_write t2 (runStep_write t3
    (runStep_write (hb.commentsExtended.at (commentsExtended_const d).noIds _) (runStep_write t4 hrun)))))))))))))))))

end Docx
