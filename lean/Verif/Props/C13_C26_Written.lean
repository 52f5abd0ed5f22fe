import Verif.Props.C13_C15_Media
import Verif.Props.C07_C08_Strings
import Verif.Props.C45_Parts

/-!
# C13, C24, C26: what the written parts refer to

The theorems of `C13_C15_Media.lean` speak about the document tree. These speak about the written parts, as
an XML reader sees them.
-/

namespace Docx.Props

open Docx Docx.Spec Docx.Xml

/-- The image reference of a picture: attribute `r:embed` of `a:blip`. -/
abbrev blipIds (l : List REvent) : List Str := eventAttrs ⟨some c!"a", c!"blip"⟩ ⟨some c!"r", c!"embed"⟩ l
/-- The ids of all elements `w:<name>`. -/
abbrev idsOf (name : Str) (l : List REvent) : List Str := eventAttrs (w name) (w c!"id") l

theorem blipIds_eq (l : List REvent) :
    blipIds l = eventAttrs (splitQName c!"a:blip") (splitQName c!"r:embed") l := by
  have e1 : (⟨some c!"a", c!"blip"⟩ : QName) = splitQName c!"a:blip" := by decide
  have e2 : (⟨some c!"r", c!"embed"⟩ : QName) = splitQName c!"r:embed" := by decide
  rw [blipIds, e1, e2]

/-- The written references to the pictures of a part, in order: the reference to each picture is an id (as
read from the file) whose relationship leads to the media file with the picture's bytes. -/
abbrev WrittenPictures (rels : List (Str × Str)) (media : List (Str × List UInt8)) (before : List Pic)
    (written : List Str) : Prop :=
  List.Forall₂ (fun p v => ∃ id, decodeAttr id = some v ∧ Resolves rels media id p.image) before written

theorem flatMap_pictureId (l : List Item) :
    l.flatMap Item.pictureId = (l.filterMap Item.picture?).flatMap fun p => (decodeAttr p.id).toList := by
  induction l with
  | nil => rfl
  | cons i l ih =>
    rw [List.flatMap_cons, ih]
    cases i <;> simp [Item.pictureId, List.filterMap_cons, Item.picture?]

theorem flatMap_footnoteId (l : List Item) :
    l.flatMap Item.footnoteId = (l.filterMap Item.footnote?).map fun f => dec f.id := by
  induction l with
  | nil => rfl
  | cons i l ih =>
    rw [List.flatMap_cons, ih]
    cases i <;> simp [Item.footnoteId, List.filterMap_cons, Item.footnote?]

theorem written_of_resolve {rels : List (Str × Str)} {media : List (Str × List UInt8)} {a b : List Pic}
    (h : PicturesResolve rels media a b) (hb : ∀ p ∈ b, (decodeAttr p.id).isSome) :
    WrittenPictures rels media a (b.flatMap fun p => (decodeAttr p.id).toList) := by
  induction h with
  | nil => exact .nil
  | @cons p q a b hpq _ ih =>
    have h1 := hb q (by simp)
    obtain ⟨v, hv⟩ := Option.isSome_iff_exists.1 h1
    rw [List.flatMap_cons, hv]
    exact .cons ⟨q.id, hv, hpq.2⟩ (ih fun p hp => hb p (by simp [hp]))

theorem flatMap_pictureRaw (l : List Item) :
    l.flatMap Item.pictureRaw = (l.filterMap Item.picture?).map Pic.id := by
  induction l with
  | nil => rfl
  | cons i l ih =>
    rw [List.flatMap_cons, ih]
    cases i <;> simp [Item.pictureRaw, List.filterMap_cons, Item.picture?]

theorem filterMap_decodeAttr (l : List Str) :
    l.filterMap decodeAttr = l.flatMap fun s => (decodeAttr s).toList := by
  induction l with
  | nil => rfl
  | cons s l ih => rw [List.filterMap_cons, List.flatMap_cons, ← ih]; cases decodeAttr s <;> rfl

/-- A part whose pictures are `ps`. -/
theorem part_pictures {n : N} {sa : Option Bool} {g g' : Gen} {out : Str} {items : List Item} (hok : OkN n)
    (hc : Col (rawAttrIn c!"a:blip" c!"r:embed") Eq n (items.flatMap Item.pictureRaw))
    (h : writePart sa (flat n) g = some (.ok out, g')) {rels : List (Str × Str)}
    {media : List (Str × List UInt8)} {before : List Pic}
    (hr : PicturesResolve rels media before (items.filterMap Item.picture?)) :
    WrittenPictures rels media before (blipIds (readEvents out)) := by
  obtain ⟨f, h1, h2, h3⟩ := writePart_reads hok h
  have e := hc _ _ _ h1
  rw [flatMap_pictureRaw] at e
  have e2 : blipIds (readEvents out) =
      (items.filterMap Item.picture?).flatMap fun p => (decodeAttr p.id).toList := by
    rw [blipIds_eq, h3, eventAttrs_tags _ _ _ h2, collectForest_attr, ← e, filterMap_decodeAttr, List.flatMap_map]
  rw [e2]
  refine written_of_resolve hr fun p hp => ?_
  refine collectForest_rawAttr_ok c!"a:blip" c!"r:embed" f (hok _ _ _ h1) p.id ?_
  rw [← e]
  exact List.mem_map_of_mem hp

/-- **C13.** The pictures referred to by the written `word/document.xml` are the pictures of the body, in
order, and each reference leads through the document relationships to the media file with its bytes. -/
theorem C13_document_written (crc : List UInt8 → Nat) (d : Document)
    (hs : ∀ s ∈ (collectImages crc d).document.strings, Stored s) (g g' : Gen) (out : Str)
    (h : (collectImages crc d).document.write g = some (.ok out, g')) :
    WrittenPictures (collectImages crc d).documentRels (collectImages crc d).media
      (partPictures (walkDocument d)) (blipIds (readEvents out)) := by
  rw [Document.write, ← Document_build_flat] at h
  have hr := C13_body_pictures_resolve crc d
  refine part_pictures (items := bodyItems (collectImages crc d).document) (Document.ok _ hs) ?_ h hr
  rw [bodyItems_eq]
  exact gathers_pictureRaw.document _

theorem here_inPart (l : Walk) : here elsewhereBody l = l.within inPart := by
  unfold here Walk.within
  congr 2
  funext x
  have key : ∀ l : List Place, inPart l = !l.any elsewhereBody := by
    intro l
    induction l with
    | nil => rfl
    | cons p l ih =>
      rw [List.any_cons, Bool.not_or, ← ih]
      cases p <;> simp [inPart, elsewhereBody]
  exact (key _).symm

theorem header_pictures {name : Str} (hn : NameOk name) (hq : QuietName name) (x : Header)
    (hs : ∀ s ∈ x.strings, Stored s) {sa : Option Bool} {g g' : Gen} {out : Str} {rels : List (Str × Str)}
    {media : List (Str × List UInt8)} {before : List Pic} (h : writePart sa (flat (x.nodes name)) g = some (.ok out, g'))
    (hr : PicturesResolve rels media before (partPictures (walkHeader [] x))) :
    WrittenPictures rels media before (blipIds (readEvents out)) := by
  refine part_pictures (items := (walkHeader [] x).within inPart) (x.ok hn hs) ?_ h hr
  rw [← here_inPart]
  exact .elemQuiet gathers_pictureRaw hq
    (Header.alongAt away_elsewhereBody gathers_pictureRaw.along x [] (by rfl))

/-- **C13.** As `C13_document_written`, for header number `i` and its own relationships. -/
theorem C13_header_written (crc : List UInt8 → Nat) (d : Document) (i : Nat) (x x' : Header)
    (e : (headersOf d)[i]? = some x) (e' : (headersOf (collectImages crc d).document)[i]? = some x')
    (hs : ∀ s ∈ x'.strings, Stored s) (g g' : Gen) (out : Str) (h : x'.writeHeader g = some (.ok out, g')) :
    WrittenPictures (relsOfPart (collectImages crc d).headerRels i) (collectImages crc d).media
      (partPictures (walkHeader [] x)) (blipIds (readEvents out)) := by
  rw [Header.writeHeader, ← Header_build_flat] at h
  exact header_pictures (by decide) (by decide) x' hs h ((C13_header_pictures_resolve crc d).2 i x x' e e')

/-- **C13.** As `C13_document_written`, for footer number `i` and its own relationships. -/
theorem C13_footer_written (crc : List UInt8 → Nat) (d : Document) (i : Nat) (x x' : Header)
    (e : (footersOf d)[i]? = some x) (e' : (footersOf (collectImages crc d).document)[i]? = some x')
    (hs : ∀ s ∈ x'.strings, Stored s) (g g' : Gen) (out : Str) (h : x'.writeFooter g = some (.ok out, g')) :
    WrittenPictures (relsOfPart (collectImages crc d).footerRels i) (collectImages crc d).media
      (partPictures (walkHeader [] x)) (blipIds (readEvents out)) := by
  rw [Header.writeFooter, ← Header_build_flat] at h
  exact header_pictures (by decide) (by decide) x' hs h ((C13_footer_pictures_resolve crc d).2 i x x' e e')

theorem idsOf_eq {name : Str} (hn : w name = splitQName (c!"w:" ++ name)) (l : List REvent) :
    idsOf name l = eventAttrs (splitQName (c!"w:" ++ name)) (splitQName c!"w:id") l := by
  have e2 : (w c!"id" : QName) = splitQName c!"w:id" := by decide
  rw [idsOf, hn, e2]

/-- **C26.** The footnote references a reader finds in `word/document.xml` are those of the document, in
order. -/
theorem C26_references_written (d : Document) (hs : ∀ s ∈ d.strings, Stored s) (g g' : Gen) (out : Str)
    (h : d.write g = some (.ok out, g')) :
    idsOf c!"footnoteReference" (readEvents out) = (partFootnotes (walkDocument d)).map fun f => dec f.id := by
  rw [Document.write, ← Document_build_flat] at h
  rw [idsOf_eq (by decide), partFootnotes, ← flatMap_footnoteId, ← here_inPart]
  exact (part_attrs (d.ok hs) (gathers_footnote.document d) h).symm

theorem flatMap_nil {α β} (l : List α) : l.flatMap (fun _ => ([] : List β)) = [] := by
  induction l <;> simp_all

/-- **C26.** The footnotes a reader finds in the written footnotes part are the given ones, in order. -/
theorem C26_footnotes_written (fs : List Footnote) (hs : ∀ c ∈ fs, ∀ s ∈ c.strings, Stored s) (g g' : Gen)
    (out : Str) (h : writeFootnotes fs g = some (.ok out, g')) :
    idsOf c!"footnote" (readEvents out) = fs.map fun f => dec f.id := by
  rw [writeFootnotes, ← footnotesB_flat] at h
  rw [idsOf_eq (by decide)]
  refine (part_attrs (footnotesN_ok fs hs) ((gathers_footnoteElem.footnotesWith (fun f => [dec f.id]) ?_ fs).congr ?_)
    h).symm
  · intro f cs
    exact (attrIn_dec c!"w:footnote" c!"w:id" f.id).symm
  · clear hs h
    simp only [flatMap_nil, List.append_nil]
    induction fs <;> simp_all

/-- **C26.** Every footnote reference in the written body of a package has its footnote in the written
footnotes part, in the same order, and there are no other footnotes there. -/
theorem C26_references_resolve (crc : List UInt8 → Nat) (d : Document)
    (hs : ∀ s ∈ (collectImages crc d).document.strings, Stored s)
    (hf : ∀ f ∈ (collectImages crc d).footnotes, ∀ s ∈ f.strings, Stored s)
    (g1 g1' g2 g2' : Gen) (body notes : Str)
    (h1 : (collectImages crc d).document.write g1 = some (.ok body, g1'))
    (h2 : writeFootnotes (collectImages crc d).footnotes g2 = some (.ok notes, g2')) :
    idsOf c!"footnoteReference" (readEvents body) = idsOf c!"footnote" (readEvents notes) := by
  rw [C26_references_written _ hs _ _ _ h1, C26_footnotes_written _ hf _ _ _ h2, C26_footnotes_in_order]
  obtain ⟨_, _, _, hp, _⟩ := collectImages_spec crc d
  rw [partFootnotes_eq, partFootnotes_eq, matches_footnotes hp.items]

/-! A document with a picture in a table cell and two footnotes: all hypotheses hold. -/

private def anchorsDoc : Document :=
  { children :=
      [.paragraph { id := c!"1", children := [.run { children :=
          [.footnoteReference 7 c!"FootnoteReference" [{ id := c!"2", children := [.run { children := [.text c!"a"] }] }]] }] },
       .table { rows := [{ cells := [{ children := [.paragraph
          { id := c!"3", children := [.run { children :=
            [.picture { id := c!"rIdImage1", image := [1], size := (1, 1) },
             .footnoteReference 3 c!"FootnoteReference" []] }] }] }] }] }] }

private abbrev anchorsPackage : CollectedImages := collectImages (fun _ => 0) anchorsDoc

private theorem anchors_stored : (∀ s ∈ anchorsPackage.document.strings, Stored s) ∧
    ∀ f ∈ anchorsPackage.footnotes, ∀ s ∈ f.strings, Stored s := by
  constructor <;> decide +kernel

example : ∃ body g1 notes g2,
    anchorsPackage.document.write {} = some (.ok body, g1) ∧
    writeFootnotes anchorsPackage.footnotes g1 = some (.ok notes, g2) ∧
    idsOf c!"footnoteReference" (readEvents body) = [c!"7", c!"3"] ∧
    idsOf c!"footnote" (readEvents notes) = [c!"7", c!"3"] := by
  have h1 := C45_document anchorsPackage.document {}
  rw [WritesElement, if_pos (by decide)] at h1
  obtain ⟨_, _, g1, e1, _⟩ := h1
  have h2 := C45_footnotes anchorsPackage.footnotes g1
  rw [WritesElement, if_pos (by decide)] at h2
  obtain ⟨_, _, g2, e2, _⟩ := h2
  refine ⟨_, _, _, _, e1, e2, ?_, ?_⟩
  · rw [C26_references_written _ anchors_stored.1 _ _ _ e1]; decide
  · rw [C26_footnotes_written _ anchors_stored.2 _ _ _ e2]; decide

/-- **C24.** The comments a reader finds in the written comments part are the given ones, in order. -/
theorem C24_comments_written (cs : List Comment) (hs : ∀ c ∈ cs, ∀ s ∈ c.strings, Stored s) (g g' : Gen)
    (out : Str) (h : writeComments cs g = some (.ok out, g')) :
    idsOf c!"comment" (readEvents out) = cs.map fun f => dec f.id := by
  rw [writeComments, ← commentsB_flat] at h
  rw [idsOf_eq (by decide)]
  refine (part_attrs (commentsN_ok cs hs) ((gathers_commentElem.commentsWith (fun f => [dec f.id]) ?_ cs).congr ?_)
    h).symm
  · intro c cs
    rw [attrIn_raw]
    have : rawAttrIn c!"w:comment" c!"w:id" c!"w:comment" [(c!"w:id", dec c.id), (c!"w:author", c.author),
      (c!"w:date", c.date), (c!"w:initials", [])] cs = [dec c.id] := rfl
    rw [this, filterMap_decode, decodeAttr_dec]
    rfl
  · clear hs h
    simp only [flatMap_nil, List.append_nil]
    induction cs <;> simp_all

/-- **C24.** The comment ranges a reader finds in `word/document.xml` are those of the body, in order. -/
theorem C24_ranges_written (d : Document) (hs : ∀ s ∈ d.strings, Stored s) (g g' : Gen) (out : Str)
    (h : d.write g = some (.ok out, g')) :
    idsOf c!"commentRangeStart" (readEvents out) = (bodyItems d).flatMap Item.commentId := by
  rw [Document.write, ← Document_build_flat] at h
  rw [idsOf_eq (by decide), bodyItems_eq]
  exact (part_attrs (d.ok hs) (gathers_comment.document d) h).symm

end Docx.Props
