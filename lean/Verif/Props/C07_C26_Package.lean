import Verif.Spec.Copied
import Verif.Lemmas.HeldParts
import Verif.Lemmas.Witness
import Verif.Props.C13_C26_Written
import Verif.Props.C42_PartRels
import Verif.Props.C24_C25_Comments

/-!
# C07, C08, C26: the texts and footnotes of a written package

`C07_C08_Strings.lean` and `C13_C26_Written.lean` speak about one part that is written. These theorems speak about the package that is
written for a document, in terms of the document as given: preparation and the writers in between keep what is said.
-/

namespace Docx.Props

open Docx Docx.Spec Docx.Xml

/-- The items of a header or footer part. -/
def partItemsOf : Side → Header → List Item
  | .header, x => headerPartItems x
  | .footer, x => footerPartItems x

private theorem within_flatMap {α : Type} (keep : List Place → Bool) (f : Item → List α) (l : Walk) :
    (l.within keep).flatMap f = pick (fun w i => if keep w then f i else []) l := by
  unfold Walk.within pick
  induction l with
  | nil => rfl
  | cons x l ih =>
    rw [List.filter_cons, List.flatMap_cons, ← ih]
    split <;> simp_all

theorem text_bare (i : Item) : (bareItem i).text = i.text := by
  cases i with
  | runChild c => cases c <;> rfl
  | _ => rfl

theorem text_blank (i : Item) : (blankItem i).text = i.text := by
  rw [← text_bare (blankItem i), bareItem_blank, text_bare]

/-- **C07.** In a written package every text of the body as given is found in `word/document.xml`, in document order and with its
multiplicity. -/
theorem C07_package (d : DocxFile) (env : Env) (w : World) (es : List Entry) (hs : Copied d) (h : Packed env d w es) :
    ∃ body, ⟨c!"word/document.xml", .text body⟩ ∈ es ∧
      ((bodyItems d.document).flatMap Item.text).Sublist (eventTexts wT (readEvents body)) ∧
      eventTexts wDelText (readEvents body) = (bodyItems d.document).flatMap Item.deletedText := by
  have hbody := prepared_strings generates_stored env d w hs.body hs.ids
  have hf := packed_fits h
  have e1 : (bodyItems (d.preparePackage env w).1.document).flatMap Item.text = (bodyItems d.document).flatMap Item.text :=
    preparePackage_bodyItems (fun _ => rfl) (fun _ => rfl) text_bare env d w
  have e2 : (bodyItems (d.preparePackage env w).1.document).flatMap Item.deletedText = (bodyItems d.document).flatMap Item.deletedText :=
    preparePackage_bodyItems (fun _ => rfl) (fun _ => rfl) (fun i => by
      cases i with
      | runChild c => cases c <;> rfl
      | _ => rfl) env d w
  generalize d.preparePackage env w = q at *
  obtain ⟨b, gb, gb', w1, w2⟩ := fits_write hf (step_document env q.1 q.2.1)
  refine ⟨b, w2, ?_, ?_⟩
  · rw [← e1]
    exact C07_document _ hbody _ _ _ w1
  · rw [← e2]
    exact C07_document_deleted _ hbody _ _ _ w1

/-- **C07.** The same for every header and footer: part number `j + 1` of its kind has all texts of the `j`-th of them. -/
theorem C07_package_parts (side : Side) (d : DocxFile) (env : Env) (w : World) (es : List Entry) (hs : Copied d)
    (h : Packed env d w es) (j : Nat) (x : Header) (hx : (side.ofDocument d.document)[j]? = some x) :
    ∃ s, ⟨side.entry (j + 1), .text s⟩ ∈ es ∧
      ((partItemsOf side x).flatMap Item.text).Sublist (eventTexts wT (readEvents s)) := by
  have hf := packed_fits h
  have hstr : ∀ y ∈ Side.all side d.document, ∀ s ∈ y.2.strings, Stored s := by
    intro y hy
    have hm : y.2 ∈ side.ofDocument d.document := by rw [ofDocument_eq]; exact List.mem_map_of_mem hy
    cases side
    · exact hs.headers _ hm
    · exact hs.footers _ hm
  have hparts := prepared_part_strings generates_stored side env d w hstr hs.ids
  have hbare := prepared_parts side env d w
  rw [ofDocument_eq, List.getElem?_map] at hx
  cases hd : (Side.all side d.document)[j]? with
  | none => rw [hd] at hx; cases hx
  | some y =>
    rw [hd] at hx
    simp only [Option.map_some, Option.some.injEq] at hx
    subst hx
    have hlen := congrArg List.length hbare
    rw [List.length_map, List.length_map] at hlen
    obtain ⟨y1, hy1⟩ : ∃ y1, (Side.all side (d.preparePackage env w).1.document)[j]? = some y1 :=
      ⟨_, List.getElem?_eq_getElem (by rw [hlen]; exact (List.getElem?_eq_some_iff.1 hd).1)⟩
    have hb1 : bareHeader y1.2 = bareHeader y.2 := by
      have e := congrArg (·[j]?) hbare
      simp only [List.getElem?_map, hy1, hd, Option.map_some, Option.some.injEq, Prod.mk.injEq] at e
      exact e.2
    have hst := hparts y1 (List.mem_of_getElem? hy1)
    generalize d.preparePackage env w = q at *
    obtain ⟨s, g, g', w1, w2⟩ := fits_write hf (step_part side env q.1 q.2.1 j y1.2 (by rw [List.getElem?_map, hy1]; rfl))
    rw [entry_eq] at w2
    refine ⟨s, w2, ?_⟩
    have key : ∀ (l : List Place) (keep : List Place → Bool),
        ((walkHeader l y.2).within keep).flatMap Item.text = ((walkHeader l y1.2).within keep).flatMap Item.text := by
      intro l keep
      have hk : ∀ w i, (fun w i => if keep w then Item.text i else []) w (bareItem i) = (fun w i => if keep w then Item.text i else []) w i := by
        intro w i
        dsimp only
        rw [text_bare]
      rw [within_flatMap, within_flatMap, ← walkHeader_bare hk, ← hb1, walkHeader_bare hk]
    cases side with
    | header =>
      simp only [partItemsOf, headerPartItems]
      rw [key]
      exact C07_header _ hst _ _ _ w1
    | footer =>
      simp only [partItemsOf, footerPartItems]
      rw [key]
      exact C07_footer _ hst _ _ _ w1

/-- **C08.** `word/document.xml` of a written package reads back as exactly the elements, attributes and texts of a document that is the
one given except for paragraph ids, picture ids and the contents generated for automatic tables of contents. -/
theorem C08_package (d : DocxFile) (env : Env) (w : World) (es : List Entry) (hs : Copied d) (h : Packed env d w es) :
    ∃ body x g g' tree, ⟨c!"word/document.xml", .text body⟩ ∈ es ∧ Document.nodes x g = some (tree, g') ∧
      readEvents body = expect [] none (tagsForest tree) ∧
      bareDocument x =
        bareDocument { d.document with children := (expandAutoTocs d.styles.styles d.document.children w.toc).1 } := by
  have hbody := prepared_strings generates_stored env d w hs.body hs.ids
  have hf := packed_fits h
  have hb : bareDocument (d.preparePackage env w).1.document =
      bareDocument { d.document with children := (expandAutoTocs d.styles.styles d.document.children w.toc).1 } := by
    obtain ⟨x, e1, e2⟩ := prepareForBuild_document env d w
    rw [preparePackage_document, collectImages_bare, e2, refreshDuplicateParaIds_bare, e1]
  generalize d.preparePackage env w = q at *
  obtain ⟨b, gb, gb', w1, w2⟩ := fits_write hf (step_document env q.1 q.2.1)
  obtain ⟨tree, h1, h2⟩ := C08_document _ hbody _ _ _ w1
  exact ⟨b, q.1.document, gb, gb', tree, w2, h1, h2, hb⟩

/-- **C26.** In a written package the references to footnotes that a reader finds in `word/document.xml` are those of the body as
given, and the footnotes in `word/footnotes.xml` are the ones given to the file before, followed by exactly those, both in document
order. -/
theorem C26_package (d : DocxFile) (env : Env) (w : World) (es : List Entry) (hs : Copied d) (h : Packed env d w es) :
    ∃ body notes, ⟨c!"word/document.xml", .text body⟩ ∈ es ∧ ⟨c!"word/footnotes.xml", .text notes⟩ ∈ es ∧
      idsOf c!"footnoteReference" (readEvents body) = (partFootnotes (walkDocument d.document)).map (fun f => dec f.id) ∧
      idsOf c!"footnote" (readEvents notes) =
        (d.footnotes ++ partFootnotes (walkDocument d.document)).map (fun f => dec f.id) := by
  have hbody := prepared_strings generates_stored env d w hs.body hs.ids
  have hnotes := prepared_footnote_strings generates_stored env d w hs.footnotes hs.ids
  have hf := packed_fits h
  have e1 : partFootnotes (walkDocument (d.preparePackage env w).1.document) = partFootnotes (walkDocument d.document) := by
    unfold partFootnotes
    rw [within_pick, within_pick]
    refine preparePackage_pick ⟨fun w p => ?_, fun w p => ?_⟩ (fun w i => ?_) env d w
    · simp [Item.footnote?]
    · simp [Item.footnote?]
    · cases i <;> simp [Item.footnote?, bareItem]
  have e2 : (d.preparePackage env w).1.footnotes.map (fun f => dec f.id) =
      (d.footnotes ++ partFootnotes (walkDocument d.document)).map fun f => dec f.id := by
    obtain ⟨x, y, hb, _, e2, e3, _⟩ := prepared_story generates_stored env d w hs.ids
    rw [preparePackage_footnotes, prepareForBuild_footnotes, e3, updateDependencies_footnotes, List.map_append, List.map_append]
    congr 1
    have e : y.footnotes.map blankFootnote = x.footnotes.map blankFootnote := congrArg Story.footnotes hb
    have key : ∀ l : List Footnote, (l.map fun f => dec f.id) = (l.map blankFootnote).map fun f => dec f.id := by
      intro l
      rw [List.map_map]
      rfl
    dsimp only
    rw [key, e, ← key, e2]
  generalize d.preparePackage env w = q at *
  obtain ⟨b, gb, gb', w1, w2⟩ := fits_write hf (step_document env q.1 q.2.1)
  obtain ⟨n, gn, gn', w3, w4⟩ := fits_write hf (step_footnotes env q.1 q.2.1)
  refine ⟨b, n, w2, w4, ?_, ?_⟩
  · rw [C26_references_written _ hbody _ _ _ w1, e1]
  · rw [C26_footnotes_written _ hnotes _ _ _ w3, e2]

/-- **C07.** Every text of a footnote of the body as given is found in `word/footnotes.xml`, in order. -/
theorem C07_package_footnotes (d : DocxFile) (env : Env) (w : World) (es : List Entry) (hs : Copied d) (h : Packed env d w es) :
    ∃ notes, ⟨c!"word/footnotes.xml", .text notes⟩ ∈ es ∧
      ((footnotePartItems (d.footnotes ++ partFootnotes (walkDocument d.document))).flatMap Item.text).Sublist
        (eventTexts wT (readEvents notes)) := by
  have hnotes := prepared_footnote_strings generates_stored env d w hs.footnotes hs.ids
  have hf := packed_fits h
  have e2 : (footnotePartItems (d.preparePackage env w).1.footnotes).flatMap Item.text =
      (footnotePartItems (d.footnotes ++ partFootnotes (walkDocument d.document))).flatMap Item.text := by
    obtain ⟨x, y, hb, _, e2, e3, _⟩ := prepared_story generates_stored env d w hs.ids
    rw [preparePackage_footnotes, prepareForBuild_footnotes, e3, updateDependencies_footnotes]
    have e : y.footnotes.map blankFootnote = x.footnotes.map blankFootnote := congrArg Story.footnotes hb
    have hk : ∀ w i, (fun (w : List Place) i => if (!w.any elsewhere) then Item.text i else []) w (blankItem i) =
        (fun (w : List Place) i => if (!w.any elsewhere) then Item.text i else []) w i := by
      intro w i
      dsimp only
      rw [text_blank]
    have key : ∀ l : List Footnote,
        (Walk.within (l := l.flatMap fun f => walkParagraphs [.footnotes] f.content) fun w => !w.any elsewhere).flatMap Item.text =
        (Walk.within (l := (l.map blankFootnote).flatMap fun f => walkParagraphs [.footnotes] f.content) fun w => !w.any elsewhere).flatMap
          Item.text := by
      intro l
      rw [within_flatMap, within_flatMap, pick_flatMap, pick_flatMap, List.flatMap_map]
      congr 1
      funext f
      exact (walkParagraphs_blank hk _ _).symm
    unfold footnotePartItems
    dsimp only
    rw [key, key (d.footnotes ++ _), List.map_append, List.map_append, e, e2]
  generalize d.preparePackage env w = q at *
  obtain ⟨n, gn, gn', w3, w4⟩ := fits_write hf (step_footnotes env q.1 q.2.1)
  refine ⟨n, w4, ?_⟩
  rw [← e2]
  exact C07_footnotes _ hnotes _ _ _ w3

private def noteCalls : List Call :=
  [ .header { children := [.paragraph (aParagraph c!"head")] },
    .addParagraph { id := c!"p", children := [.run { children := [.text c!"a &amp; b", .footnoteReference 7 c!"" [aParagraph c!"note"]] }] },
    .addTable { rows := [{ cells := [{ children := [.paragraph (aParagraph c!"cell")] }] }] },
    .footer { children := [.paragraph (aParagraph c!"foot")] } ]

private theorem note_pack : packs (fun d _ => copiedB d && decide ((bodyItems d.document).flatMap Item.text = [c!"a & b", c!"cell"] ∧
    (partFootnotes (walkDocument d.document)).map Footnote.id = [7] ∧
    (Side.header.ofDocument d.document).map (fun x => (partItemsOf .header x).flatMap Item.text) = [[c!"head"]] ∧
    (Side.footer.ofDocument d.document).map (fun x => (partItemsOf .footer x).flatMap Item.text) = [[c!"foot"]])) noteCalls = true := by
  decide +kernel

/-- The hypotheses of the theorems above hold of a document with a table, a footnote, a header and a footer. -/
example : ∃ d es, DocxFile.new.calls noteCalls = some d ∧ Packed anEnv d {} es ∧ Copied d ∧
    (bodyItems d.document).flatMap Item.text = [c!"a & b", c!"cell"] ∧
    (partFootnotes (walkDocument d.document)).map Footnote.id = [7] ∧
    (Side.header.ofDocument d.document).map (fun x => (partItemsOf .header x).flatMap Item.text) = [[c!"head"]] ∧
    (Side.footer.ofDocument d.document).map (fun x => (partItemsOf .footer x).flatMap Item.text) = [[c!"foot"]] := by
  obtain ⟨d, es, h1, h2, h3⟩ := packs_spec note_pack
  rw [Bool.and_eq_true, decide_eq_true_eq] at h3
  exact ⟨d, es, h1, h2, copiedB_spec h3.1, h3.2⟩

end Docx.Props
