import Verif.Lemmas.MediaParts

/-!
# C13, C14, C15, C26: pictures, media files, relationships and footnotes

`collectImages crc d` is what packaging does to the pictures and footnote references of a document
`d` (with its headers and footers). `crc` is the checksum used to find equal images quickly; nothing
is assumed about it.
-/

namespace Docx.Props
open Docx.Spec

/-- Two lists of pictures, before and after packaging: the same pictures in the same order, and the
new relationship id of each resolves to its old bytes. -/
abbrev PicturesResolve (rels : List (Str × Str)) (media : List (Str × List UInt8))
    (before after : List Pic) : Prop :=
  List.Forall₂ (fun p q => SamePicture p q ∧ Resolves rels media q.id p.image) before after

private theorem resolve_of_partOk {rels : List (Str × Str)} {media : List (Str × Bytes)}
    {a b : Walk} (hm : (media.map Prod.fst).Nodup)
    (h : PartOk media (visited a) (visited b) rels) :
    PicturesResolve rels media (partPictures a) (partPictures b) := by
  rw [partPictures_eq, partPictures_eq]
  exact (matches_pictures h.items).imp fun p q hpq => ⟨hpq.1, hpq.2.resolves h.ids hm⟩

/-- C13 for the pictures of the document body. -/
theorem C13_body_pictures_resolve (crc : List UInt8 → Nat) (d : Document) :
    PicturesResolve (collectImages crc d).documentRels (collectImages crc d).media
      (partPictures (walkDocument d)) (partPictures (walkDocument (collectImages crc d).document)) := by
  obtain ⟨hm, _, _, hp, _⟩ := collectImages_spec crc d
  exact resolve_of_partOk hm hp

/-- C13 for the pictures of every header: there are as many headers as before, and the pictures of
header `i` resolve through the relationships of header `i`. -/
theorem C13_header_pictures_resolve (crc : List UInt8 → Nat) (d : Document) :
    (headersOf (collectImages crc d).document).length = (headersOf d).length ∧
    ∀ (i : Nat) (h h' : Header), (headersOf d)[i]? = some h →
      (headersOf (collectImages crc d).document)[i]? = some h' →
      PicturesResolve (relsOfPart (collectImages crc d).headerRels i) (collectImages crc d).media
        (partPictures (walkHeader [] h)) (partPictures (walkHeader [] h')) := by
  obtain ⟨hm, _, _, _, ⟨hl, out, e, ol, hp⟩, _⟩ := collectImages_spec crc d
  refine ⟨hl, fun i h h' e1 e2 => ?_⟩
  have hlt : i < out.length := by rw [ol]; exact (List.getElem?_eq_some_iff.mp e1).1
  have e3 : out[i]? = some out[i] := List.getElem?_eq_getElem hlt
  rw [e, relsOfPart_sparse, e3]
  exact resolve_of_partOk hm (hp i h h' _ e1 e2 e3)

/-- C13 for the pictures of every footer. -/
theorem C13_footer_pictures_resolve (crc : List UInt8 → Nat) (d : Document) :
    (footersOf (collectImages crc d).document).length = (footersOf d).length ∧
    ∀ (i : Nat) (h h' : Header), (footersOf d)[i]? = some h →
      (footersOf (collectImages crc d).document)[i]? = some h' →
      PicturesResolve (relsOfPart (collectImages crc d).footerRels i) (collectImages crc d).media
        (partPictures (walkHeader [] h)) (partPictures (walkHeader [] h')) := by
  obtain ⟨hm, _, _, _, _, ⟨hl, out, e, ol, hp⟩, _⟩ := collectImages_spec crc d
  refine ⟨hl, fun i h h' e1 e2 => ?_⟩
  have hlt : i < out.length := by rw [ol]; exact (List.getElem?_eq_some_iff.mp e1).1
  have e3 : out[i]? = some out[i] := List.getElem?_eq_getElem hlt
  rw [e, relsOfPart_sparse, e3]
  exact resolve_of_partOk hm (hp i h h' _ e1 e2 e3)

/-- C14: media names are unique. -/
theorem C14_media_names_unique (crc : List UInt8 → Nat) (d : Document) :
    ((collectImages crc d).media.map Prod.fst).Nodup := (collectImages_spec crc d).1

/-- C14: no bytes are stored twice. -/
theorem C14_media_stored_once (crc : List UInt8 → Nat) (d : Document) :
    ((collectImages crc d).media.map Prod.snd).Nodup := (collectImages_spec crc d).2.1

/-- The bytes of all pictures of the body, the headers and the footers. -/
def allPictureBytes (d : Document) : List (List UInt8) :=
  ((partPictures (walkDocument d)) ++ (headersOf d).flatMap (fun h => partPictures (walkHeader [] h)) ++
    (footersOf d).flatMap (fun h => partPictures (walkHeader [] h))).map Pic.image

private theorem picsOf_flatMap (l : List Header) (b : Bytes) (h : b ∈ picsOf (l.flatMap headerItems)) :
    b ∈ (l.flatMap (fun h => partPictures (walkHeader [] h))).map Pic.image := by
  unfold picsOf at h
  obtain ⟨p, hp, rfl⟩ := List.mem_map.mp h
  obtain ⟨x, hx, hxp⟩ := List.mem_filterMap.mp hp
  obtain ⟨y, hy, hyx⟩ := List.mem_flatMap.mp hx
  refine List.mem_map_of_mem (List.mem_flatMap.mpr ⟨y, hy, ?_⟩)
  rw [partPictures_eq]
  exact List.mem_filterMap.mpr ⟨x, hyx, hxp⟩

private theorem mem_of_resolves {rels : List (Str × Str)} {media : List (Str × Bytes)} {a b : List Pic}
    (h : PicturesResolve rels media a b) : ∀ p ∈ a, p.image ∈ media.map Prod.snd := by
  induction h with
  | nil => simp
  | cons h _ ih =>
    intro p hp
    rcases List.mem_cons.mp hp with rfl | hp
    · obtain ⟨n, _, hn⟩ := h.2
      have : (n, p.image) ∈ media.filter (fun m => decide (m.1 = n)) := by rw [hn]; simp
      exact List.mem_map_of_mem (f := Prod.snd) (List.mem_filter.mp this).1
    · exact ih p hp

/-- C14: the stored byte strings are exactly those of the pictures of the document. -/
theorem C14_media_are_the_pictures (crc : List UInt8 → Nat) (d : Document) (b : List UInt8) :
    b ∈ (collectImages crc d).media.map Prod.snd ↔ b ∈ allPictureBytes d := by
  unfold allPictureBytes
  rw [List.map_append, List.map_append, List.mem_append, List.mem_append]
  constructor
  · intro hb
    obtain ⟨m, hm, rfl⟩ := List.mem_map.mp hb
    rcases (collectImages_spec crc d).2.2.1 m hm with h | h | h
    · refine Or.inl (Or.inl ?_)
      rw [partPictures_eq]
      exact h
    · exact Or.inl (Or.inr (picsOf_flatMap _ _ h))
    · exact Or.inr (picsOf_flatMap _ _ h)
  · rintro ((h | h) | h)
    · obtain ⟨p, hp, rfl⟩ := List.mem_map.mp h
      exact mem_of_resolves (C13_body_pictures_resolve crc d) p hp
    · obtain ⟨p, hp, rfl⟩ := List.mem_map.mp h
      obtain ⟨x, hx, hxp⟩ := List.mem_flatMap.mp hp
      obtain ⟨i, hi⟩ := List.mem_iff_getElem?.mp hx
      obtain ⟨hl, hr⟩ := C13_header_pictures_resolve crc d
      have hlt : i < (headersOf (collectImages crc d).document).length := by
        rw [hl]; exact (List.getElem?_eq_some_iff.mp hi).1
      exact mem_of_resolves (hr i x _ hi (List.getElem?_eq_getElem hlt)) p hxp
    · obtain ⟨p, hp, rfl⟩ := List.mem_map.mp h
      obtain ⟨x, hx, hxp⟩ := List.mem_flatMap.mp hp
      obtain ⟨i, hi⟩ := List.mem_iff_getElem?.mp hx
      obtain ⟨hl, hr⟩ := C13_footer_pictures_resolve crc d
      have hlt : i < (footersOf (collectImages crc d).document).length := by
        rw [hl]; exact (List.getElem?_eq_some_iff.mp hi).1
      exact mem_of_resolves (hr i x _ hi (List.getElem?_eq_getElem hlt)) p hxp

/-- C15: image relationship ids are unique in the document part and in every header and footer part. -/
theorem C15_relationship_ids_unique (crc : List UInt8 → Nat) (d : Document) :
    ((collectImages crc d).documentRels.map Prod.fst).Nodup ∧
    (∀ x ∈ (collectImages crc d).headerRels, (x.2.map Prod.fst).Nodup) ∧
    (∀ x ∈ (collectImages crc d).footerRels, (x.2.map Prod.fst).Nodup) := by
  obtain ⟨_, _, _, hp, ⟨hl, out, e, ol, h1⟩, ⟨fl, out', e', ol', h2⟩, _⟩ := collectImages_spec crc d
  refine ⟨hp.ids, ?_, ?_⟩
  · rintro ⟨i, o⟩ hx
    rw [e] at hx
    obtain ⟨ho, _⟩ := mem_sparse _ _ _ hx
    have hlt : i < (headersOf d).length := by rw [← ol]; exact (List.getElem?_eq_some_iff.mp ho).1
    exact (h1 i _ _ o (List.getElem?_eq_getElem hlt) (List.getElem?_eq_getElem (by rw [hl]; exact hlt)) ho).ids
  · rintro ⟨i, o⟩ hx
    rw [e'] at hx
    obtain ⟨ho, _⟩ := mem_sparse _ _ _ hx
    have hlt : i < (footersOf d).length := by rw [← ol']; exact (List.getElem?_eq_some_iff.mp ho).1
    exact (h2 i _ _ o (List.getElem?_eq_getElem hlt) (List.getElem?_eq_getElem (by rw [fl]; exact hlt)) ho).ids

/-- C15: every image relationship, in whichever part, targets a stored media file. -/
theorem C15_relationship_targets_stored (crc : List UInt8 → Nat) (d : Document) :
    ∀ rels, (rels = (collectImages crc d).documentRels ∨
        rels ∈ (collectImages crc d).headerRels.map Prod.snd ∨
        rels ∈ (collectImages crc d).footerRels.map Prod.snd) →
      ∀ x ∈ rels, ∃ name bytes, x.2 = c!"media/" ++ name ++ c!".png" ∧
        (name, bytes) ∈ (collectImages crc d).media := by
  obtain ⟨_, _, _, hp, ⟨hl, out, e, ol, h1⟩, ⟨fl, out', e', ol', h2⟩, _⟩ := collectImages_spec crc d
  rintro rels (rfl | h | h)
  · exact hp.targets
  · obtain ⟨⟨i, o⟩, hx, rfl⟩ := List.mem_map.mp h
    rw [e] at hx
    obtain ⟨ho, _⟩ := mem_sparse _ _ _ hx
    have hlt : i < (headersOf d).length := by rw [← ol]; exact (List.getElem?_eq_some_iff.mp ho).1
    exact (h1 i _ _ o (List.getElem?_eq_getElem hlt) (List.getElem?_eq_getElem (by rw [hl]; exact hlt)) ho).targets
  · obtain ⟨⟨i, o⟩, hx, rfl⟩ := List.mem_map.mp h
    rw [e'] at hx
    obtain ⟨ho, _⟩ := mem_sparse _ _ _ hx
    have hlt : i < (footersOf d).length := by rw [← ol']; exact (List.getElem?_eq_some_iff.mp ho).1
    exact (h2 i _ _ o (List.getElem?_eq_getElem hlt) (List.getElem?_eq_getElem (by rw [fl]; exact hlt)) ho).targets

/-- C26: the collected footnotes are exactly those referenced from the body, in document order. -/
theorem C26_footnotes_in_order (crc : List UInt8 → Nat) (d : Document) :
    (collectImages crc d).footnotes = partFootnotes (walkDocument d) :=
  (collectImages_spec crc d).2.2.2.2.2.2

private theorem footnoteVisitor_items : ∀ (l : List Visited) (s : List Footnote),
    (visitItems footnoteVisitor l s).2 = s ++ l.filterMap Visited.fn?
  | [], s => by simp [visitItems]
  | .pic p :: l, s => by
    rw [filterMap_fn_pic]
    exact footnoteVisitor_items l s
  | .fn f :: l, s => by
    rw [filterMap_fn_fn]
    show (visitItems footnoteVisitor l (s ++ [f])).2 = _
    rw [footnoteVisitor_items l]
    simp

/-- C26 for the separately callable `collect_footnotes`. -/
theorem C26_collect_footnotes (d : Document) :
    collectDocumentFootnotes d = partFootnotes (walkDocument d) := by
  have := visitDocument_walk footnoteVisitor d []
  have h2 := footnoteVisitor_items (visited (walkDocument d)) []
  rw [this] at h2
  unfold collectDocumentFootnotes
  rw [partFootnotes_eq]
  simpa using h2

/-! ## Examples

A body with two pictures with the same id and different bytes (one inside a tracked insertion in a
table cell), and a header with a picture whose bytes are already in the body. The checksum collides
on everything. -/

private def pic (id : Str) (b : List UInt8) : RunChild := .picture { id, image := b, size := (1, 1) }

private def para (cs : List RunChild) : Paragraph := { id := c!"1", children := [.run { children := cs }] }

private def exampleDoc : Document :=
  { children :=
      [.paragraph (para [pic c!"rIdImage1" [1, 2]]),
       .table { rows := [{ cells := [{ children := [.paragraph
          { id := c!"2", children := [.insert { children := [.run { children := [pic c!"rIdImage1" [3],
             .footnoteReference 7 c!"FootnoteReference" [para [.text c!"note"]]] }] }] }] }] }] }]
    sectionProperty := { header := some (c!"rIdHeader1", { children := [.paragraph (para [pic c!"rIdImage9" [3]])] }) } }

example :
    let r := collectImages (fun _ => 0) exampleDoc
    r.documentRels = [(c!"rIdImage1", c!"media/rIdImage1.png"), (c!"rIdImage1_2", c!"media/rIdImage1_2.png")] ∧
    r.headerRels = [(0, [(c!"headerrIdImage9", c!"media/rIdImage1_2.png")])] ∧
    r.media = [(c!"rIdImage1", [1, 2]), (c!"rIdImage1_2", [3])] ∧
    r.footnotes.map Footnote.id = [7] ∧
    (partPictures (walkDocument r.document)).map Pic.id = [c!"rIdImage1", c!"rIdImage1_2"] := by
  refine ⟨?_, ?_, ?_, ?_, ?_⟩ <;> rfl

/-- A limit of C13: a picture in the text of a comment gets no relationship and no media file, so the
comments part refers to an id that nothing defines. Likewise for the text of a footnote. -/
theorem C13_comment_and_footnote_pictures_lost : ∃ d : Document, ∃ p q : Pic,
    p.image ≠ [] ∧ q.image ≠ [] ∧
    ((walkDocument d).within (fun w => decide (Place.comment ∈ w))).filterMap Item.picture? = [p] ∧
    ((walkDocument d).within (fun w => decide (Place.footnote ∈ w))).filterMap Item.picture? = [q] ∧
    ∀ crc, (collectImages crc d).documentRels = [] ∧ (collectImages crc d).media = [] := by
  refine ⟨{ children := [.paragraph { id := c!"1", children :=
      [.commentStart 1 { id := 1, children := [.paragraph (para [pic c!"rIdImage1" [1]])] },
       .run { children := [.footnoteReference 1 [] [para [pic c!"rIdImage2" [2]]]] }] }] },
    { id := c!"rIdImage1", image := [1], size := (1, 1) },
    { id := c!"rIdImage2", image := [2], size := (1, 1) }, by decide, by decide, rfl, rfl, fun crc => ⟨rfl, rfl⟩⟩

end Docx.Props
