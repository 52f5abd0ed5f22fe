import Verif.Lemmas.PackageNames
import Verif.Props.C13_C15_Media

/-!
# C16, C17: the entries of the archive

`DocxFile.pack` is `Docx::pack`; `DocxFile.build` followed by `XmlDocx.pack` is `Docx::build().pack()`.
-/

namespace Docx.Props

open Docx Docx.Spec Docx.Xml

/-- What `build` and then `pack` write; `none` is a panic. -/
def buildThenPack (env : Env) (d : DocxFile) (w : World) : Option (List Entry × World) :=
  match d.build env w with
  | none => none
  | some (x, w') => x.pack.map fun es => (es, w')

theorem pack_runs {env : Env} {d : DocxFile} {w w' : World} {r : Except Error (List Entry)}
    (h : d.pack env w = some (r, w')) :
    ∃ g, runSteps (zipDocxSteps env (d.preparePackage env w).1 (d.preparePackage env w).2.1) (d.preparePackage env w).2.2.gen =
      some (r, g) ∧ w' = { (d.preparePackage env w).2.2 with gen := g } := by
  unfold DocxFile.pack at h
  dsimp only at h
  split at h
  · exact absurd h (by simp)
  · rename_i e
    simp only [Option.some.injEq, Prod.mk.injEq] at h
    exact ⟨_, by rw [e, h.1], h.2.symm⟩

theorem buildThenPack_runs {env : Env} {d : DocxFile} {w w' : World} {es : List Entry}
    (h : buildThenPack env d w = some (es, w')) :
    ∃ l g1 x g2, (d.preparePackage env w).1.buildLists (d.preparePackage env w).2.1 (d.preparePackage env w).2.2.gen = some (l, g1) ∧
      (d.preparePackage env w).1.buildRest env (d.preparePackage env w).2.1 l g1 = some (x, g2) ∧ x.pack = some es ∧
      w' = { (d.preparePackage env w).2.2 with gen := g2 } := by
  unfold buildThenPack at h
  split at h
  · exact absurd h (by simp)
  · rename_i x w1 e
    unfold DocxFile.build at e
    simp only [Option.bind_eq_bind, Option.bind_eq_some_iff, Option.pure_def, Prod.exists, Option.some.injEq, Prod.mk.injEq] at e
    obtain ⟨l, g1, e1, y, g2, e2, e3, e4⟩ := e
    subst e3
    rw [Option.map_eq_some_iff] at h
    obtain ⟨es', h1, h2⟩ := h
    simp only [Prod.mk.injEq] at h2
    exact ⟨l, g1, y, g2, e1, e2, by rw [h1, h2.1], by rw [← h2.2, ← e4]⟩

theorem buildThenPack_eq {env : Env} {d : DocxFile} {w : World} {l : BuiltLists} {g1 g2 : Gen} {x : XmlDocx} {es : List Entry}
    (h1 : (d.preparePackage env w).1.buildLists (d.preparePackage env w).2.1 (d.preparePackage env w).2.2.gen = some (l, g1))
    (h2 : (d.preparePackage env w).1.buildRest env (d.preparePackage env w).2.1 l g1 = some (x, g2)) (h3 : x.pack = some es) :
    buildThenPack env d w = some (es, { (d.preparePackage env w).2.2 with gen := g2 }) := by
  have : d.build env w = some (x, { (d.preparePackage env w).2.2 with gen := g2 }) := by
    unfold DocxFile.build
    simp only [Option.bind_eq_bind, Option.bind_eq_some_iff, Option.pure_def, Prod.exists]
    exact ⟨l, g1, h1, x, g2, h2, rfl⟩
  unfold buildThenPack
  rw [this]
  simp only [h3, Option.map_some]

/-- **C16.** `pack` never fails with an XML writer error: it either panics or writes an archive. -/
theorem C16_no_error (env : Env) (d : DocxFile) (w w' : World) (e : Error) : d.pack env w ≠ some (.error e, w') := by
  intro h
  obtain ⟨g, h1, _⟩ := pack_runs h
  have hs := zipDocxSteps_steady env (d.preparePackage env w).1 (d.preparePackage env w).2.1
  by_cases hw : ∀ n p, ZipStep.write n p ∈ zipDocxSteps env (d.preparePackage env w).1 (d.preparePackage env w).2.1 → p.Writes
  · obtain ⟨es, g', e'⟩ := runSteps_writes _ hw (d.preparePackage env w).2.2.gen
    rw [e'] at h1
    exact absurd h1 (by simp)
  · rw [runSteps_panics _ hs _ hw] at h1
    exact absurd h1 (by simp)

/-- **C16.** `pack` writes an archive exactly when `build` followed by `pack` does. -/
theorem C16_same_outcome (env : Env) (d : DocxFile) (w : World) :
    (∃ es w', d.pack env w = some (.ok es, w')) ↔ ∃ es w', buildThenPack env d w = some (es, w') := by
  have hs := zipDocxSteps_steady env (d.preparePackage env w).1 (d.preparePackage env w).2.1
  constructor
  · rintro ⟨es, w', h⟩
    obtain ⟨g, h1, _⟩ := pack_runs h
    obtain ⟨l, g1, x, g2, es', h2, h3, h4⟩ := build_writes (fits_writes (runSteps_fits _ _ _ _ h1) hs) (d.preparePackage env w).2.2.gen
    exact ⟨_, _, buildThenPack_eq h2 h3 h4⟩
  · rintro ⟨es, w', h⟩
    obtain ⟨l, g1, x, g2, h1, h2, h3, _⟩ := buildThenPack_runs h
    have hf := pack_fits (build_built h1 h2) (preparePackage_rels env d w) h3
    obtain ⟨es', g', e⟩ := runSteps_writes _ (fits_writes hf hs) (d.preparePackage env w).2.2.gen
    refine ⟨es', { (d.preparePackage env w).2.2 with gen := g' }, ?_⟩
    unfold DocxFile.pack
    simp only [e]

/-- **C16, in part.** The entries `pack` writes and those `build` and then `pack` write are the same in number and
order, have the same names, and have the same contents except for generated ids: revision ids and the ids of
paragraphs made by the writer, and these only in the document, styles, comments, numbering, footnotes, header
and footer parts. Full statement: the same contents; it is false, see `C16_fails`. -/
theorem C16_entries_partial (env : Env) (d : DocxFile) (w w1 w2 : World) (es es' : List Entry)
    (h1 : d.pack env w = some (.ok es, w1)) (h2 : buildThenPack env d w = some (es', w2)) :
    List.Forall₂ SameEntry es es' := by
  obtain ⟨g, h1, _⟩ := pack_runs h1
  obtain ⟨l, g1, x, g2, e1, e2, e3, _⟩ := buildThenPack_runs h2
  exact same_entries (zipDocxSteps_same _ _ _) (runSteps_fits _ _ _ _ h1)
    (pack_fits (build_built e1 e2) (preparePackage_rels env d w) e3)

/-- **C16, in part.** If no header, no footer and no style draws a generated id while it is written, both ways
write the very same entries, and leave the id generators in the same state. -/
theorem C16_same_partial (env : Env) (d : DocxFile) (w w1 w2 : World) (es es' : List Entry)
    (hh : ∀ h ∈ (d.preparePackage env w).1.document.headers, Part.WritesNoIds h.writeHeader)
    (hf : ∀ h ∈ (d.preparePackage env w).1.document.footers, Part.WritesNoIds h.writeFooter)
    (hs : Part.WritesNoIds (d.preparePackage env w).1.stylesPart)
    (h1 : d.pack env w = some (.ok es, w1)) (h2 : buildThenPack env d w = some (es', w2)) :
    es = es' ∧ w1 = w2 := by
  obtain ⟨g, h3, rfl⟩ := pack_runs h1
  obtain ⟨l, g1, x, g2, e1, e2, e3, rfl⟩ := buildThenPack_runs h2
  have := build_runs (preparePackage_rels env d w) hh hf hs e1 e2 e3
  rw [this] at h3
  simp only [Option.some.injEq, Prod.mk.injEq, Except.ok.injEq] at h3
  rw [h3.1, h3.2]
  exact ⟨rfl, rfl⟩

theorem prepared_media_nodup (env : Env) (d : DocxFile) (w : World) :
    ((d.preparePackage env w).2.1.media.map Prod.fst).Nodup := by
  have := C14_media_names_unique env.crc (d.prepareForBuild env w).1.document
  have hi := preparePackage_images env d w
  generalize collectImages env.crc (d.prepareForBuild env w).1.document = i at this hi
  rw [hi]
  exact this

/-- **C17.** No two entries `pack` writes have the same name. -/
theorem C17_pack (env : Env) (d : DocxFile) (w w' : World) (es : List Entry) (h : d.pack env w = some (.ok es, w')) :
    (es.map Entry.name).Nodup := by
  obtain ⟨g, h1, _⟩ := pack_runs h
  rw [fits_names (runSteps_fits _ _ _ _ h1)]
  exact names_nodup _ _ _ (prepared_media_nodup env d w)

/-- **C17.** No two entries `build` and then `pack` write have the same name. -/
theorem C17_build_pack (env : Env) (d : DocxFile) (w w' : World) (es : List Entry) (h : buildThenPack env d w = some (es, w')) :
    (es.map Entry.name).Nodup := by
  obtain ⟨l, g1, x, g2, e1, e2, e3, _⟩ := buildThenPack_runs h
  rw [fits_names (pack_fits (build_built e1 e2) (preparePackage_rels env d w) e3)]
  exact names_nodup _ _ _ (prepared_media_nodup env d w)

theorem writePart_noIds {n : N} {f : List Node} (sa : Option Bool) (h : ∀ g, n g = some (f, g)) :
    Part.WritesNoIds (writePart sa (flat n)) := by
  have : Part.Const (writePart sa (flat n)) (constText sa f) := by
    intro g
    simp only [writePart, flat, h, declarationEvent, C05_declaration, constText]
  exact this.noIds

theorem buildElement_noIds {n : N} {f : List Node} (h : ∀ g, n g = some (f, g)) :
    Part.WritesNoIds (buildElement (flat n)) := by
  have : Part.Const (buildElement (flat n)) (printForest f) := by
    intro g
    simp only [buildElement, flat, h, C05_writes_canonical]
  exact this.noIds

/-- A paragraph that is a tracked insertion. -/
private def inserted (s : Str) : Paragraph :=
  { id := c!"a", children := [.insert { author := c!"x", date := c!"y", children := [.run { children := [.text (textOf s)] }] }] }
private def testEnv : Env := ⟨fun _ => 0, id, id⟩

/-- A header and a body, with a tracked insertion in the body. -/
private def plainHeader : Header :=
  { children := [.paragraph { id := c!"c", children := [.run { children := [.text (textOf c!"f")] }] }] }
private def plainFile : DocxFile := (DocxFile.new.setHeader plainHeader).addParagraph (inserted c!"b")

/-- The hypotheses of `C16_same_partial` are met: a header without tracked changes, the default styles and a tracked
insertion in the body. -/
example : (∀ h ∈ (plainFile.preparePackage testEnv {}).1.document.headers, Part.WritesNoIds h.writeHeader) ∧
    (∀ h ∈ (plainFile.preparePackage testEnv {}).1.document.footers, Part.WritesNoIds h.writeFooter) ∧
    Part.WritesNoIds (plainFile.preparePackage testEnv {}).1.stylesPart ∧
    (plainFile.preparePackage testEnv {}).1.document.headers.length = 1 := by
  have h1 : (plainFile.preparePackage testEnv {}).1.document.headers = [plainHeader] := by rfl
  have h2 : (plainFile.preparePackage testEnv {}).1.document.footers = [] := by rfl
  have h3 : (plainFile.preparePackage testEnv {}).1.styles = DocxFile.new.styles := by rfl
  rw [h1, h2]
  refine ⟨?_, by simp, ?_, rfl⟩
  · intro h hm
    rw [List.mem_singleton] at hm
    subst hm
    have : plainHeader.writeHeader = writePart (some true) (flat (plainHeader.nodes c!"w:hdr")) := by
      rw [Header_build_flat]; rfl
    rw [this]
    exact writePart_noIds _ fun g => rfl
  · have : (plainFile.preparePackage testEnv {}).1.stylesPart = buildElement (flat DocxFile.new.styles.nodes) := by
      unfold DocxFile.stylesPart
      rw [h3, Styles_build_flat]
    rw [this]
    exact buildElement_noIds fun g => rfl

end Docx.Props
