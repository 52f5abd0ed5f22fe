import Verif.Lemmas.Witness
import Verif.Lemmas.BareTwice
import Verif.Props.C16_C17_Package

/-!
# C47 and C50: a document without unsupported content is always written, and what is written is that document
-/

namespace Docx.Props

open Docx.Spec

/-- **C50.** Whatever calls built it, a document without text boxes, shapes, empty drawings and `HYPERLINK` instructions is written, by `pack`
and by `build` followed by `pack`. -/
theorem C50_writable_packs (cs : List Call) (d : DocxFile) (env : Env) (w : World) (hc : DocxFile.new.calls cs = some d) (hw : Writable d) :
    (∃ es w', d.pack env w = some (.ok es, w')) ∧ ∃ es w', buildThenPack env d w = some (es, w') := by
  have hs := calls_sound hc
  have h := writable_packs env d w hw (by rw [hs.crels, List.length_replicate]; exact Nat.le_refl _)
    (by rw [hs.props]; exact Nat.le_refl _)
  exact ⟨h, (C16_same_outcome env d w).1 h⟩

/-- **C50.** If the text of the document, comments and footnotes apart, has such content, writing panics. -/
theorem C50_unsupported_panics (d : DocxFile) (env : Env) (w : World)
    (h : supported elsewhereBody (walkDocument d.document) = false) : d.pack env w = none := by
  rw [← preparePackage_supported elsewhereBody env d w] at h
  have hp : ∀ g, (d.preparePackage env w).1.document.write g = none := by
    intro g
    have := C45_document (d.preparePackage env w).1.document g
    rw [WritesElement, h] at this
    simpa using this
  have hn : ¬ ∀ n p, ZipStep.write n p ∈ zipDocxSteps env (d.preparePackage env w).1 (d.preparePackage env w).2.1 → p.Writes := by
    intro hall
    obtain ⟨s, g', e⟩ := hall _ _ (step_document (env := env) (d := (d.preparePackage env w).1) (p := (d.preparePackage env w).2.1)) {}
    rw [hp] at e
    cases e
  have := runSteps_panics _ (zipDocxSteps_steady env (d.preparePackage env w).1 (d.preparePackage env w).2.1)
    (d.preparePackage env w).2.2.gen hn
  unfold DocxFile.pack
  simp only [this]

/-- A document that meets the first theorem. -/
example : ∃ d, DocxFile.new.calls [.header (aHeader c!"h"), .addParagraph { id := c!"p", children :=
      [.commentStart 1 { id := 1, children := [.paragraph (aParagraph c!"c")] }, .run { children := [.footnoteReference 1 c!"s" [aParagraph c!"n"]] }] },
      .addCustomItem c!"i" c!"<a></a>"] = some d ∧ Writable d := by
  have : packs (fun _ _ => true) [.header (aHeader c!"h"), .addParagraph { id := c!"p", children :=
      [.commentStart 1 { id := 1, children := [.paragraph (aParagraph c!"c")] }, .run { children := [.footnoteReference 1 c!"s" [aParagraph c!"n"]] }] },
      .addCustomItem c!"i" c!"<a></a>"] = true := by decide +kernel
  unfold packs at this
  split at this
  · cases this
  · rename_i d e
    rw [Bool.and_eq_true] at this
    exact ⟨d, e, writableB_spec this.1⟩

/-- A document that meets the second. -/
example : ∃ d, DocxFile.new.calls [.addParagraph { id := c!"p", children := [.run { children := [.textBox []] }] }] = some d ∧
    supported elsewhereBody (walkDocument d.document) = false := ⟨_, rfl, by decide⟩

/-- **C47.** Without an automatic table of contents, `word/document.xml` is the document as it was built: the text written is that of a
document that differs from it at most in paragraph ids, picture ids and picture bytes. Missing: the same up to the entries for documents with
an automatic table of contents, whose paragraphs also get bookmarks (C27, C28). -/
theorem C47_document_kept_partial (d : DocxFile) (env : Env) (w : World) (es : List Entry) (h : Packed env d w es)
    (ht : autoTocIndexes 0 d.document.children = []) :
    ∃ (x : Document) (s : Str) (g g' : Gen), bareDocument x = bareDocument d.document ∧ x.write g = some (.ok s, g') ∧
      ⟨c!"word/document.xml", .text s⟩ ∈ es := by
  obtain ⟨s, g, g', e1, e2⟩ := fits_write (packed_fits h) (step_document (env := env) (d := (d.preparePackage env w).1)
    (p := (d.preparePackage env w).2.1))
  exact ⟨_, s, g, g', preparePackage_bare env d w ht, e1, e2⟩

/-- **C47.** With any tables of contents, preparation keeps every run, field, picture, comment, footnote reference, table, cell, content
control and link of the document, in the same order and the same places, up to paragraph ids, picture ids and picture bytes. -/
theorem C47_items_kept (d : DocxFile) (env : Env) (w : World) (es : List Entry) (h : Packed env d w es)
    (kept : List Place → Item → Bool) (hp : ∀ w p, kept w (.paragraph p) = false) (ht : ∀ w t, kept w (.toc t) = false)
    (hk : ∀ w i j, bareItem i = bareItem j → kept w i = kept w j) :
    ∃ (x : Document) (s : Str) (g g' : Gen), x.write g = some (.ok s, g') ∧ ⟨c!"word/document.xml", .text s⟩ ∈ es ∧
      ((walkDocument x).filter fun y => kept y.1 y.2).map (fun y => (y.1, bareItem y.2)) =
        ((walkDocument d.document).filter fun y => kept y.1 y.2).map fun y => (y.1, bareItem y.2) := by
  obtain ⟨s, g, g', e1, e2⟩ := fits_write (packed_fits h) (step_document (env := env) (d := (d.preparePackage env w).1)
    (p := (d.preparePackage env w).2.1))
  refine ⟨_, s, g, g', e1, e2, ?_⟩
  have e : ∀ l : Walk, (l.filter fun y => kept y.1 y.2).map (fun y => (y.1, bareItem y.2)) =
      pick (fun w i => if kept w i then [(w, bareItem i)] else []) l := by
    intro l
    unfold pick
    induction l with
    | nil => rfl
    | cons x l ih =>
      rw [List.flatMap_cons, ← ih, List.filter_cons]
      cases e : kept x.1 x.2 <;> simp [e]
  have b1 : ∀ i : Item, bareItem (bareItem i) = bareItem i := bareItem_bare
  have b2 : ∀ i : Item, bareItem (blankItem i) = bareItem i := bareItem_blank
  have k1 : ∀ w i, (if kept w (blankItem i) then [(w, bareItem (blankItem i))] else []) = if kept w i then [(w, bareItem i)] else [] :=
    fun w i => by rw [hk w _ i (b2 i), b2]
  have k2 : ∀ w i, (if kept w (bareItem i) then [(w, bareItem (bareItem i))] else []) = if kept w i then [(w, bareItem i)] else [] :=
    fun w i => by rw [hk w _ i (b1 i), b1]
  rw [e, e]
  have h := preparePackage_document env d w
  have hb := collectImages_bare env.crc (d.prepareForBuild env w).1.document
  generalize (collectImages env.crc (d.prepareForBuild env w).1.document).document = y at h hb
  rw [h, ← walkDocument_bare k2, hb, walkDocument_bare k2, prepareForBuild_pick ⟨fun w _ => ?_, fun w _ => ?_⟩ k1]
  · rw [hp]; rfl
  · rw [ht]; rfl

/-- Runs are one kind of kept content. -/
example : ∃ kept : List Place → Item → Bool, (∀ w p, kept w (.paragraph p) = false) ∧ (∀ w t, kept w (.toc t) = false) ∧
    (∀ w i j, bareItem i = bareItem j → kept w i = kept w j) ∧ ∀ w r, kept w (.run r) = true := by
  refine ⟨fun _ i => match i with | .run _ => true | _ => false, fun _ _ => rfl, fun _ _ => rfl, fun _ i j e => ?_, fun _ _ => rfl⟩
  cases i <;> cases j <;> first | rfl | (simp only [bareItem, reduceCtorEq] at e)

end Docx.Props
