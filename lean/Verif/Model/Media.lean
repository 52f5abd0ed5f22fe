import Verif.Model.DocTree

/-!
# Images and footnotes of a package (`docx-core/src/documents/image_collector.rs`)

`HashMap`s are association lists: `get` is `List.lookup` and `insert` puts the new pair in front.
`crc32fast::hash` is an external function. The model takes it as an argument `crc`, so every theorem
holds for whatever function it is, including one with collisions.
-/

namespace Docx

abbrev Bytes := List UInt8

/-- `MediaRegistry`. image_collector.rs:21-26. -/
structure MediaRegistry where
  media : List (Str × Bytes) := []
  mediaById : List (Str × Nat) := []
  byFingerprint : List ((Nat × Nat) × List Nat) := []
  nextSuffixById : List (Str × Nat) := []

/-- `format!("{preferred_id}_{suffix}")`. image_collector.rs:94,173. -/
def suffixed (preferred : Str) (n : Nat) : Str := preferred ++ c!"_" ++ dec n

/-- The `loop` of `unique_media_id` and `unique_relationship_id`. image_collector.rs:93-101,172-180.
Returns the candidate and the suffix after the loop. The loop is cut after `fuel` candidates;
`Lemmas/Media.lean` shows that one candidate more than there are names in use is enough. The panic
at the end of the `usize` range is not modelled. -/
def freeSuffix (used : List Str) (preferred : Str) : Nat → Nat → Option (Str × Nat)
  | 0, _ => none
  | fuel + 1, n =>
    if suffixed preferred n ∈ used then freeSuffix used preferred fuel (n + 1)
    else some (suffixed preferred n, n + 1)

/-- `unique_media_id`, `unique_relationship_id`: the free id and the updated suffix table.
image_collector.rs:83-102,159-181. `used` are the keys of `media_by_id` or the set
`relationship_ids`. -/
def uniqueId (used : List Str) (next : List (Str × Nat)) (preferred : Str) : Str × List (Str × Nat) :=
  if preferred ∉ used then (preferred, next)
  else
    match freeSuffix used preferred (used.length + 1) ((next.lookup preferred).getD 2) with
    | some (c, n) => (c, (preferred, n) :: next)
    | none => ([], next)

/-- `media[index].1 == bytes`. image_collector.rs:38,53. -/
def MediaRegistry.holds (r : MediaRegistry) (bytes : Bytes) (index : Nat) : Bool :=
  (r.media[index]?).any (fun m => decide (m.2 = bytes))

/-- `register`. image_collector.rs:36-66. -/
def MediaRegistry.register (crc : Bytes → Nat) (r : MediaRegistry) (preferred : Str) (bytes : Bytes) :
    Nat × MediaRegistry :=
  match (r.mediaById.lookup preferred).filter (r.holds bytes) with
  | some index => (index, r)
  | none =>
    let fingerprint := (bytes.length, crc bytes)
    let candidates := (r.byFingerprint.lookup fingerprint).getD []
    match candidates.find? (r.holds bytes) with
    | some index => (index, r)
    | none =>
      let u := uniqueId (r.mediaById.map Prod.fst) r.nextSuffixById preferred
      let index := r.media.length
      (index,
        { media := r.media ++ [(u.1, bytes)]
          mediaById := (u.1, index) :: r.mediaById
          byFingerprint := (fingerprint, candidates ++ [index]) :: r.byFingerprint
          nextSuffixById := u.2 })

/-- `PackagePartCollector`. image_collector.rs:116-126. `relationship_ids` is a `HashSet`. -/
structure Collector where
  registry : MediaRegistry := {}
  relationshipPrefix : Str := []
  relationships : List (Str × Str) := []
  relationshipIds : List Str := []
  nextRelationshipSuffixById : List (Str × Nat) := []
  relationshipsByMedia : List (Nat × Nat) := []
  footnotes : List Footnote := []

/-- `PackagePartCollector::new`. image_collector.rs:129-139. `None` and `Some("")` behave alike in
`relationship_id`, so the prefix is a string. -/
def Collector.new (registry : MediaRegistry) (relationshipPrefix : Str) : Collector :=
  { registry, relationshipPrefix }

/-- `relationship_id`. image_collector.rs:148-153. -/
def Collector.relationshipId (c : Collector) (pictureId : Str) : Str := c.relationshipPrefix ++ pictureId

/-- `format!("media/{}.png", media_id)`. image_collector.rs:200. -/
def mediaTarget (mediaId : Str) : Str := c!"media/" ++ mediaId ++ c!".png"

/-- `visit_picture`. image_collector.rs:185-207. `mem::take` leaves an empty image behind.
The indexing `self.relationships[i]` and `self.media[i]` panics out of range; the model falls back to
the empty id there and `Lemmas/Media.lean` shows that the indices are always in range. -/
def Collector.visitPicture (crc : Bytes → Nat) (p : Pic) (c : Collector) : Pic × Collector :=
  let preferred := c.relationshipId p.id
  let g := c.registry.register crc preferred p.image
  match c.relationshipsByMedia.lookup g.1 with
  | some i =>
    ({ p with image := [], id := ((c.relationships[i]?).map Prod.fst).getD [] },
      { c with registry := g.2 })
  | none =>
    let u := uniqueId c.relationshipIds c.nextRelationshipSuffixById preferred
    let target := mediaTarget (((g.2.media[g.1]?).map Prod.fst).getD [])
    ({ p with image := [], id := u.1 },
      { c with
        registry := g.2
        relationshipIds := u.1 :: c.relationshipIds
        nextRelationshipSuffixById := u.2
        relationshipsByMedia := (g.1, c.relationships.length) :: c.relationshipsByMedia
        relationships := c.relationships ++ [(u.1, target)] })

/-- `visit_footnote_reference`. image_collector.rs:209-211. -/
def Collector.visitFootnote (f : Footnote) (c : Collector) : Collector :=
  { c with footnotes := c.footnotes ++ [f] }

/-- `impl DocumentTreeVisitor for PackagePartCollector`. image_collector.rs:184-212. -/
def Collector.visitor (crc : Bytes → Nat) : Visitor Collector where
  picture := Collector.visitPicture crc
  footnote := Collector.visitFootnote

/-- `CollectedPart`. image_collector.rs:106-109, `finish` 141-146. -/
structure CollectedPart where
  relationships : List (Str × Str)
  footnotes : List Footnote

/-- `finish`, and the registry, which the collector only borrows. image_collector.rs:141-146. -/
def Collector.finish (c : Collector) : CollectedPart × MediaRegistry :=
  (⟨c.relationships, c.footnotes⟩, c.registry)

/-- `collect_document_part`. image_collector.rs:215-222. -/
def collectDocumentPart (crc : Bytes → Nat) (d : Document) (r : MediaRegistry) :
    Document × CollectedPart × MediaRegistry :=
  let v := visitDocument (Collector.visitor crc) d (Collector.new r [])
  (v.1, v.2.finish)

/-- `FootnoteCollector`, a visitor whose state is the list of footnotes.
image_collector.rs:231-240. -/
def footnoteVisitor : Visitor (List Footnote) where
  picture p s := (p, s)
  footnote f s := s ++ [f]

/-- `collect_document_footnotes`. image_collector.rs:230-245. -/
def collectDocumentFootnotes (d : Document) : List Footnote := (visitDocument footnoteVisitor d []).2

/-- `collect_header_part` and `collect_footer_part`, which differ in the prefix `"header"` or
`"footer"`. image_collector.rs:248-255,258-265. -/
def collectHeaderPart (crc : Bytes → Nat) (pfx : Str) (h : Header) (r : MediaRegistry) :
    Header × CollectedPart × MediaRegistry :=
  let v := visitHeader (Collector.visitor crc) h (Collector.new r pfx)
  (v.1, v.2.finish)

/-- The body of the closure in `collect_header_images` and `collect_footer_images`, with the list of
the relationships of the parts collected so far. documents/mod.rs:1229-1232,1246-1249. -/
def collectHeaderImages (crc : Bytes → Nat) (pfx : Str) (h : Header) :
    Visit (MediaRegistry × List (List (Str × Str))) Header := fun s =>
  let c := collectHeaderPart crc pfx h s.1
  (c.1, (c.2.2, s.2 ++ [c.2.1.relationships]))

/-- An update of an optional header with its relationship id; `None` is skipped
(`filter_map(Option::as_mut)`). elements/section_property.rs:155-163,174-182. -/
def visitPart {σ : Type} (f : Header → Visit σ Header) : Option (Str × Header) → Visit σ (Option (Str × Header))
  | some (i, h), s => let r := f h s; (some (i, r.1), r.2)
  | none, s => (none, s)

/-- Updating everything in `SectionProperty::headers_mut`. elements/section_property.rs:155-163. -/
def visitHeadersOfProperty {σ : Type} (f : Header → Visit σ Header) (p : SectionProperty) :
    Visit σ SectionProperty := fun s =>
  let a := visitPart f p.header s
  let b := visitPart f p.firstHeader a.2
  let c := visitPart f p.evenHeader b.2
  ({ p with header := a.1, firstHeader := b.1, evenHeader := c.1 }, c.2)

/-- Updating everything in `SectionProperty::footers_mut`. elements/section_property.rs:174-182. -/
def visitFootersOfProperty {σ : Type} (f : Header → Visit σ Header) (p : SectionProperty) :
    Visit σ SectionProperty := fun s =>
  let a := visitPart f p.footer s
  let b := visitPart f p.firstFooter a.2
  let c := visitPart f p.evenFooter b.2
  ({ p with footer := a.1, firstFooter := b.1, evenFooter := c.1 }, c.2)

/-- The step for one child in `headers_mut`/`footers_mut`: only sections have parts.
documents/document.rs:273-284,300-311. -/
def visitSectionProperties {σ : Type} (g : SectionProperty → Visit σ SectionProperty) :
    DocumentChild → Visit σ DocumentChild
  | .section x, s => let r := g x.property s; (.section { x with property := r.1 }, r.2)
  | x, s => (x, s)

/-- Updating everything in `Document::headers_mut` or `footers_mut`: the document's own section
property first, then the sections in order. documents/document.rs:273-284,300-311. -/
def visitParts {σ : Type} (g : SectionProperty → Visit σ SectionProperty) (d : Document) :
    Visit σ Document := fun s =>
  let a := g d.sectionProperty s
  let b := visitEach (visitSectionProperties g) d.children a.2
  ({ d with sectionProperty := a.1, children := b.1 }, b.2)

/-- `enumerate().filter_map(.. !relationships.is_empty() ..)`. documents/mod.rs:1227-1234. -/
def sparse (l : List (List (Str × Str))) : List (Nat × List (Str × Str)) :=
  (l.zipIdx.map Prod.swap).filter (fun x => decide (x.2 ≠ []))

/-- What `prepare_package` knows about images and footnotes. documents/mod.rs:848-852,869-875. -/
structure CollectedImages where
  document : Document
  documentRels : List (Str × Str)
  headerRels : List (Nat × List (Str × Str))
  footerRels : List (Nat × List (Str × Str))
  media : List (Str × Bytes)
  footnotes : List Footnote

/-- The image and footnote part of `prepare_package`. documents/mod.rs:845-899. -/
def collectImages (crc : Bytes → Nat) (d : Document) : CollectedImages :=
  let a := collectDocumentPart crc d {}
  let h := visitParts (visitHeadersOfProperty (collectHeaderImages crc c!"header")) a.1 (a.2.2, [])
  let f := visitParts (visitFootersOfProperty (collectHeaderImages crc c!"footer")) h.1 (h.2.1, [])
  { document := f.1
    documentRels := a.2.1.relationships
    headerRels := sparse h.2.2
    footerRels := sparse f.2.2
    media := f.2.1.media
    footnotes := a.2.1.footnotes }

end Docx
