import Verif.Lemmas.AsRead
import Verif.Lemmas.PackedParts
import Verif.Props.C47_C50_Writes
import Verif.Props.C67_ReadThenSaved

/-!
# C72: saving a file that was read

The reader keeps text boxes, shapes, and drawings that are not pictures; the writer panics at each of them.
-/

namespace Docx.Props

open Docx.Spec Docx.Xml

/-- Nothing in comments is unwritable: neither in those of the file nor in those kept at their ranges. -/
structure CommentsWritable (d : DocxFile) : Prop where
  listed : ∀ c ∈ d.comments, ∀ x ∈ walkComment [.comments] c, x.2.unwritable = false
  placed : ∀ w i c, (w, .comment i c) ∈ walkDocument d.document → ∀ x ∈ walkComment [.comments] c, x.2.unwritable = false

/-- Where a header or footer is walked from. -/
def Side.place : Side → Place
  | .header => .header
  | .footer => .footer

/-- What is written for the body and for every header and footer is all supported. -/
structure BodyWritable (d : DocxFile) : Prop where
  body : supported elsewhereBody (walkDocument d.document) = true
  parts : ∀ side, ∀ x ∈ Side.all side d.document, supported elsewhere (walkHeader [Side.place side] x.2) = true

theorem supported_pick (away : Place → Bool) : ∀ l : Walk, supported away l = (pick (fun w i => if w.any away then [] else bad i) l).isEmpty := by
  intro l
  induction l with
  | nil => rfl
  | cons x l ih =>
    obtain ⟨w, i⟩ := x
    rw [pick_cons]
    unfold supported Walk.within at ih ⊢
    cases h : w.any away
    · rw [List.filter_cons_of_pos (by simp [h]), List.map_cons, List.all_cons, ih]
      unfold bad
      cases i.unwritable <;> simp
    · rw [List.filter_cons_of_neg (by simp [h]), ih]
      simp

theorem header_supported (w : List Place) (h h' : Header) (e : bareHeader h = bareHeader h') :
    supported elsewhere (walkHeader w h) = supported elsewhere (walkHeader w h') := by
  have k2 : ∀ (w : List Place) (i : Item), (if w.any elsewhere then [] else bad (bareItem i)) = if w.any elsewhere then [] else bad i :=
    fun w i => by rw [bad_bare]
  rw [supported_pick, supported_pick, ← walkHeader_bare k2, e, walkHeader_bare k2]

theorem prepared_side {side : Side} {env : Env} {d : DocxFile} {w : World} {x : Str × Header}
    (h : x ∈ Side.all side (d.preparePackage env w).1.document) : ∃ y ∈ Side.all side d.document, bareHeader y.2 = bareHeader x.2 := by
  have := List.mem_map_of_mem (f := fun x : Str × Header => (x.1, bareHeader x.2)) h
  rw [prepared_parts side env d w] at this
  obtain ⟨y, hy, e⟩ := List.mem_map.1 this
  exact ⟨y, hy, congrArg Prod.snd e⟩

theorem side_prepared {side : Side} {env : Env} {d : DocxFile} {w : World} {x : Str × Header}
    (h : x ∈ Side.all side d.document) : ∃ y ∈ Side.all side (d.preparePackage env w).1.document, bareHeader y.2 = bareHeader x.2 := by
  have := List.mem_map_of_mem (f := fun x : Str × Header => (x.1, bareHeader x.2)) h
  rw [← prepared_parts side env d w] at this
  obtain ⟨y, hy, e⟩ := List.mem_map.1 this
  exact ⟨y, hy, congrArg Prod.snd e⟩

/-- The comments that are written have nothing unwritable in them. -/
theorem comments_written {d : DocxFile} (h : CommentsWritable d) (env : Env) (w : World) :
    supported elsewhere ((d.preparePackage env w).1.comments.flatMap (walkComment [.comments])) = true := by
  refine supported_of (flatMap_bad fun c hc => ?_)
  rw [preparePackage_comments] at hc
  rcases prepareForBuild_comments env d w with h' | h'
  · have := List.mem_map_of_mem (f := blankComment) hc
    rw [h'] at this
    obtain ⟨c', hc', e⟩ := List.mem_map.1 this
    rw [← walkComment_blank (fun _ i => bad_blank i), ← e, walkComment_blank (fun _ i => bad_blank i)]
    exact (pick_bad _).2 (h.listed c' hc')
  · obtain ⟨w', i, hi, e⟩ := mem_within (h' c hc)
    cases i with
    | comment i c' =>
      simp only [Item.comment?, Option.some.injEq] at e
      subst e
      let k : List Place → Item → List Unit := fun _ i => match i with
        | .comment _ c => pick (fun _ => bad) (walkComment [.comments] c)
        | _ => []
      have hk : pick k (walkDocument (d.prepareForBuild env w).1.document) = pick k (walkDocument d.document) := by
        refine prepareForBuild_pick ⟨fun _ _ => rfl, fun _ _ => rfl⟩ (fun _ i => ?_) env d w
        cases i with
        | comment i c => exact walkComment_blank (fun _ i => bad_blank i) _ _
        | _ => rfl
      have hz : pick k (walkDocument d.document) = [] := by
        unfold pick
        rw [List.flatMap_eq_nil_iff]
        rintro ⟨w, i⟩ hx
        cases i with
        | comment i c => exact (pick_bad _).2 (h.placed w i c hx)
        | _ => rfl
      rw [hz] at hk
      unfold pick at hk
      rw [List.flatMap_eq_nil_iff] at hk
      exact hk _ hi
    | _ => cases e

/-- What decides whether a file without footnotes is saved. -/
theorem packs_iff {d : DocxFile} (hs : Sound d) (hc : CommentsWritable d) (hf : d.footnotes = []) (hp : partFootnotes (walkDocument d.document) = [])
    (env : Env) (w : World) : (∃ es w', d.pack env w = some (.ok es, w')) ↔ BodyWritable d := by
  constructor
  · rintro ⟨es, w', h⟩
    have hall : ∀ n p, ZipStep.write n p ∈ zipDocxSteps env (d.preparePackage env w).1 (d.preparePackage env w).2.1 → p.Writes := by
      intro n p hm
      by_contra hn
      have := runSteps_panics _ (zipDocxSteps_steady env (d.preparePackage env w).1 (d.preparePackage env w).2.1)
        (d.preparePackage env w).2.2.gen (fun hall => hn (hall n p hm))
      unfold DocxFile.pack at h
      simp only [this] at h
      cases h
    refine ⟨?_, fun side x hx => ?_⟩
    · by_contra hb
      rw [Bool.not_eq_true] at hb
      rw [C50_unsupported_panics d env w hb] at h
      cases h
    · obtain ⟨y, hy, e⟩ := side_prepared (env := env) (w := w) hx
      obtain ⟨j, hj⟩ := List.getElem?_of_mem (List.mem_map_of_mem (f := Prod.snd) hy)
      have hw := hall _ _ (step_part side env (d.preparePackage env w).1 (d.preparePackage env w).2.1 j y.2 hj)
      rw [← header_supported _ _ _ e]
      by_contra hb
      rw [Bool.not_eq_true] at hb
      obtain ⟨s, g', e⟩ := hw {}
      cases side
      · have := C45_header y.2 {}
        rw [WritesElement, show supported elsewhere (walkHeader [.header] y.2) = false from hb] at this
        have e : y.2.writeHeader {} = some (.ok s, g') := e
        rw [show y.2.writeHeader {} = none by simpa using this] at e
        cases e
      · have := C45_footer y.2 {}
        rw [WritesElement, show supported elsewhere (walkHeader [.footer] y.2) = false from hb] at this
        have e : y.2.writeFooter {} = some (.ok s, g') := e
        rw [show y.2.writeFooter {} = none by simpa using this] at e
        cases e
  · intro hb
    obtain ⟨_, b1, b2, b3, b4, b5⟩ := preparePackage_books env d w
    have key := zipDocxSteps_write env (d.preparePackage env w).1 (d.preparePackage env w).2.1
      (writes_of ((preparePackage_supported elsewhereBody env d w).trans hb.body) fun g => C45_document _ g)
      (writes_of (comments_written hc env w) fun g => C45_comments _ g)
      (writes_of (supported_of (away := elsewhere) (flatMap_bad fun c hc => ?_)) fun g => C45_footnotes _ g)
      (fun h hh => writes_of (b := supported elsewhere (walkHeader [.header] h)) ?_ fun g => C45_header h g)
      (fun h hh => writes_of (b := supported elsewhere (walkHeader [.footer] h)) ?_ fun g => C45_footer h g)
      (by rw [b3, b5, hs.crels, List.length_replicate]; exact Nat.le_refl _) (by rw [b3, b4, hs.props]; exact Nat.le_refl _)
    · obtain ⟨es, g, e⟩ := runSteps_writes _ key (d.preparePackage env w).2.2.gen
      refine ⟨es, { (d.preparePackage env w).2.2 with gen := g }, ?_⟩
      unfold DocxFile.pack
      simp only [e]
    · exfalso
      rw [preparePackage_footnotes, prepareForBuild_footnotes, hp, List.append_nil] at hc
      have := List.mem_map_of_mem (f := blankFootnote) hc
      rw [prepareForBuild_blankFootnotes, hf] at this
      cases this
    · rw [headers_all] at hh
      obtain ⟨x, hx, rfl⟩ := List.mem_map.1 hh
      obtain ⟨y, hy, e⟩ := prepared_side hx
      rw [← header_supported _ _ _ e]
      exact hb.parts .header y hy
    · rw [footers_all] at hh
      obtain ⟨x, hx, rfl⟩ := List.mem_map.1 hh
      obtain ⟨y, hy, e⟩ := prepared_side hx
      rw [← header_supported _ _ _ e]
      exact hb.parts .footer y hy

/-- Saving succeeds or panics. -/
theorem packs_or_panics (d : DocxFile) (env : Env) (w : World) : (∃ es w', d.pack env w = some (.ok es, w')) ∨ d.pack env w = none := by
  by_cases hall : ∀ n p, ZipStep.write n p ∈ zipDocxSteps env (d.preparePackage env w).1 (d.preparePackage env w).2.1 → p.Writes
  · obtain ⟨es, g, e⟩ := runSteps_writes _ hall (d.preparePackage env w).2.2.gen
    refine .inl ⟨es, { (d.preparePackage env w).2.2 with gen := g }, ?_⟩
    unfold DocxFile.pack
    simp only [e]
  · refine .inr ?_
    have := runSteps_panics _ (zipDocxSteps_steady env (d.preparePackage env w).1 (d.preparePackage env w).2.1)
      (d.preparePackage env w).2.2.gen hall
    unfold DocxFile.pack
    simp only [this]

/-- A file that was read has no footnotes. -/
theorem read_footnotes {e : FileEnv} {n : Nat} {ar : List Entry} {r : ReadFile} (hr : readDocx e n ar = .ok r) :
    r.file.footnotes = [] ∧ partFootnotes (walkDocument r.file.document) = [] := by
  refine ⟨(readDocx_books hr).books.footnotes, List.eq_nil_iff_forall_not_mem.2 fun f hf => ?_⟩
  obtain ⟨w, i, hi, e⟩ := mem_within hf
  cases i with
  | footnote i c => exact (readDocx_fileR hr).all _ hi
  | _ => cases e

/-- **C72.** Read any archive: what was read can be saved if and only if the body and all headers and footers are free of text boxes, shapes
and drawings that are not pictures; otherwise saving panics. (With such content in comments it may panic too.) -/
theorem C72_saved_iff {e : FileEnv} {n : Nat} {ar : List Entry} {r : ReadFile} (hr : readDocx e n ar = .ok r) (hc : CommentsWritable r.file)
    (env : Env) (w : World) :
    ((∃ es w', r.file.pack env w = some (.ok es, w')) ↔ BodyWritable r.file) ∧
    ((∃ es w', buildThenPack env r.file w = some (es, w')) ↔ BodyWritable r.file) ∧
    (r.file.pack env w = none ↔ ¬ BodyWritable r.file) := by
  have h := packs_iff (readDocx_books hr).books.sound hc (read_footnotes hr).1 (read_footnotes hr).2 env w
  refine ⟨h, (C16_same_outcome env r.file w).symm.trans h, fun hn hb => ?_, fun hb => ?_⟩
  · obtain ⟨es, w', e⟩ := h.2 hb
    rw [hn] at e
    cases e
  · exact (packs_or_panics r.file env w).resolve_left fun hp => hb (h.1 hp)

/-- **C72, after changes.** Read any archive and make any calls on what was read: it can be saved, both ways, if nothing in it is a text box, a
shape, a drawing that is not a picture, or a `HYPERLINK` instruction. -/
theorem C72_saved_partial {e : FileEnv} {n : Nat} {ar : List Entry} {r : ReadFile} {cs : List Call} {d : DocxFile} (hr : readDocx e n ar = .ok r)
    (hc : r.file.calls cs = some d) (hw : Writable d) (env : Env) (w : World) :
    (∃ es w', d.pack env w = some (.ok es, w')) ∧ ∃ es w', buildThenPack env d w = some (es, w') := by
  have hs := (read_calls hr hc).2
  have h := writable_packs env d w hw (by rw [hs.crels, List.length_replicate]; exact Nat.le_refl _)
    (by rw [hs.props]; exact Nat.le_refl _)
  exact ⟨h, (C16_same_outcome env d w).1 h⟩

/-! ## Archives that cannot be saved -/

private def readsTo (p : DocxFile → Bool) (ar : List Entry) : Bool :=
  match readDocx aReader 40 ar with
  | .ok r => p r.file
  | _ => false

private theorem readsTo_spec {p : DocxFile → Bool} {ar : List Entry} (h : readsTo p ar = true) :
    ∃ r, readDocx aReader 40 ar = .ok r ∧ p r.file = true := by
  unfold readsTo at h
  split at h
  · next r e => exact ⟨r, e, h⟩
  · cases h

private def inRun (s : Str) : Str := c!"<w:document><w:body><w:p><w:r>" ++ s ++ c!"</w:r></w:p></w:body></w:document>"

/-- A chart. -/
private def chart : Str := c!"<w:drawing><wp:inline><a:graphic><a:graphicData><c:chart r:id=\"rId4\"/></a:graphicData></a:graphic></wp:inline></w:drawing>"

/-- A text box. -/
private def textBox : Str := c!"<w:drawing><wp:anchor><a:graphic><a:graphicData><wps:wsp><wps:txbx><w:txbxContent><w:p><w:r><w:t>in</w:t></w:r></w:p>" ++
  c!"</w:txbxContent></wps:txbx></wps:wsp></a:graphicData></a:graphic></wp:anchor></w:drawing>"

/-- A shape in the older notation. -/
private def oldShape : Str := c!"<w:pict><v:shape style=\"width:1pt\"><v:imagedata r:id=\"rId7\"/></v:shape></w:pict>"

private def unsavable (d : DocxFile) : Bool := !supported elsewhereBody (walkDocument d.document)

private def noComments (d : DocxFile) : Bool := d.comments.isEmpty && (walkDocument d.document).all fun x => match x.2 with
  | .comment _ _ => false
  | _ => true

private theorem noComments_spec {d : DocxFile} (h : noComments d = true) : CommentsWritable d := by
  rw [noComments, Bool.and_eq_true, List.isEmpty_iff, List.all_eq_true] at h
  refine ⟨fun c hc => (by rw [h.1] at hc; cases hc), fun w i c hx => ?_⟩
  cases h.2 _ hx

/-- The archive is read, and saving what was read panics, whatever the environment. -/
def ReadNotSaved (ar : List Entry) : Prop := ∃ r, readDocx aReader 40 ar = .ok r ∧ ∀ env w, r.file.pack env w = none

private theorem unsavable_panics {ar : List Entry} (h : readsTo unsavable ar = true) : ReadNotSaved ar := by
  obtain ⟨r, h1, h2⟩ := readsTo_spec h
  refine ⟨r, h1, fun env w => C50_unsupported_panics _ env w ?_⟩
  simpa [unsavable] using h2

private theorem chart_reads : readsTo unsavable (smallArchive c!"<Relationships/>" (inRun chart) []) = true := by decide +kernel
private theorem box_reads : readsTo unsavable (smallArchive c!"<Relationships/>" (inRun textBox) []) = true := by decide +kernel
private theorem shape_reads : readsTo unsavable (smallArchive c!"<Relationships/>" (inRun oldShape) []) = true := by decide +kernel

/-- **C72 fails** for a file with a chart, a file with a text box, and a file with a shape in the older notation. -/
theorem C72_fails : ReadNotSaved (smallArchive c!"<Relationships/>" (inRun chart) []) ∧
    ReadNotSaved (smallArchive c!"<Relationships/>" (inRun textBox) []) ∧ ReadNotSaved (smallArchive c!"<Relationships/>" (inRun oldShape) []) :=
  ⟨unsavable_panics chart_reads, unsavable_panics box_reads, unsavable_panics shape_reads⟩

private def headedRels : Str :=
  c!"<Relationships><Relationship Id=\"rId9\" Type=\"http://schemas.openxmlformats.org/officeDocument/2006/relationships/header\" Target=\"header1.xml\"/></Relationships>"

private def headedDocument : Str :=
  c!"<w:document><w:body><w:p><w:r><w:t>one</w:t></w:r></w:p><w:sectPr><w:headerReference w:type=\"default\" r:id=\"rId9\"/></w:sectPr></w:body></w:document>"

private def headerWith (s : Str) : Entry := ⟨c!"word/header1.xml", .text (c!"<w:hdr><w:p><w:r>" ++ s ++ c!"</w:r></w:p></w:hdr>")⟩

private def headWritable (d : DocxFile) : Bool :=
  (Side.all .header d.document).all (fun x => supported elsewhere (walkHeader [.header] x.2)) &&
  (Side.all .footer d.document).all fun x => supported elsewhere (walkHeader [.footer] x.2)

private theorem writable_spec {d : DocxFile} : BodyWritable d ↔ (!unsavable d && headWritable d) = true := by
  rw [Bool.and_eq_true, unsavable, Bool.not_not, headWritable, Bool.and_eq_true, List.all_eq_true, List.all_eq_true]
  constructor
  · intro h
    exact ⟨h.body, fun x hx => h.parts .header x hx, fun x hx => h.parts .footer x hx⟩
  · rintro ⟨h1, h2, h3⟩
    exact ⟨h1, fun side x hx => by cases side; exacts [h2 x hx, h3 x hx]⟩

private theorem header_reads : readsTo (fun d => noComments d && !unsavable d && !headWritable d)
    (smallArchive headedRels headedDocument [headerWith chart]) = true := by decide +kernel
private theorem fine_reads : readsTo (fun d => noComments d && (!unsavable d && headWritable d) && !(Side.all .header d.document).isEmpty)
    (smallArchive headedRels headedDocument [headerWith c!"<w:t>top</w:t>"]) = true := by decide +kernel

private theorem header_panics {ar : List Entry} (h : readsTo (fun d => noComments d && !unsavable d && !headWritable d) ar = true) : ReadNotSaved ar := by
  obtain ⟨r, h1, h2⟩ := readsTo_spec h
  rw [Bool.and_eq_true, Bool.and_eq_true] at h2
  refine ⟨r, h1, fun env w => ((C72_saved_iff h1 (noComments_spec h2.1.1) env w).2.2).2 fun hb => ?_⟩
  have := writable_spec.1 hb
  rw [Bool.and_eq_true] at this
  rw [this.2] at h2
  cases h2.2

/-- **C72 fails** also if only a header has a chart. -/
theorem C72_fails_header : ReadNotSaved (smallArchive headedRels headedDocument [headerWith chart]) := header_panics header_reads

private theorem fine_saved {ar : List Entry}
    (h : readsTo (fun d => noComments d && (!unsavable d && headWritable d) && !(Side.all .header d.document).isEmpty) ar = true) :
    ∃ r, readDocx aReader 40 ar = .ok r ∧ CommentsWritable r.file ∧ BodyWritable r.file ∧ Side.all .header r.file.document ≠ [] ∧
    ∃ es w', r.file.pack anEnv {} = some (.ok es, w') := by
  obtain ⟨r, h1, h2⟩ := readsTo_spec h
  rw [Bool.and_eq_true, Bool.and_eq_true] at h2
  have hb := writable_spec.2 h2.1.2
  refine ⟨r, h1, noComments_spec h2.1.1, hb, fun e => ?_, ((C72_saved_iff h1 (noComments_spec h2.1.1) anEnv {}).1).2 hb⟩
  rw [e] at h2
  cases h2.2

/-- A file with a header that is read and saved. -/
example : ∃ r, readDocx aReader 40 (smallArchive headedRels headedDocument [headerWith c!"<w:t>top</w:t>"]) = .ok r ∧ CommentsWritable r.file ∧
    BodyWritable r.file ∧ Side.all .header r.file.document ≠ [] ∧ ∃ es w', r.file.pack anEnv {} = some (.ok es, w') := fine_saved fine_reads

end Docx.Props
