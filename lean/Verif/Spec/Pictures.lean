import Verif.Spec.Walk

/-!
# Specification for the picture and footnote properties (C13, C14, C15, C26)
-/

namespace Docx.Spec

/-- In the text of the part itself: not in a comment, a footnote's text, a text box, and not in a
header or footer (those are parts of their own). -/
def inPart (w : List Place) : Bool :=
  decide (Place.comment ∉ w) && decide (Place.footnote ∉ w) && decide (Place.textBox ∉ w)
    && decide (Place.header ∉ w) && decide (Place.footer ∉ w)

/-- The picture of a picture item. -/
def Item.picture? : Item → Option Pic
  | .picture p => some p
  | _ => none

/-- The footnote of a footnote reference. -/
def Item.footnote? : Item → Option Footnote
  | .footnote i ps => some ⟨i, ps⟩
  | _ => none

/-- The pictures of a part, in document order. -/
def partPictures (l : Walk) : List Pic := (l.within inPart).filterMap Item.picture?

/-- The footnotes referenced from a part, in document order. -/
def partFootnotes (l : Walk) : List Footnote := (l.within inPart).filterMap Item.footnote?

/-- The section properties of a document: its own, then those of its sections, in order. -/
def sectionProperties (d : Document) : List SectionProperty :=
  d.sectionProperty :: d.children.filterMap (fun | .section s => some s.property | _ => none)

/-- The headers of a document, numbered from 0 in the order the header parts are numbered. -/
def headersOf (d : Document) : List Header :=
  (sectionProperties d).flatMap fun p =>
    ([p.header, p.firstHeader, p.evenHeader].filterMap id).map Prod.snd

/-- The footers of a document. -/
def footersOf (d : Document) : List Header :=
  (sectionProperties d).flatMap fun p =>
    ([p.footer, p.firstFooter, p.evenFooter].filterMap id).map Prod.snd

/-- A picture element with relationship id `id`, in a part with relationships `rels`, in a package
with media files `media` (name without `word/media/` and `.png`, bytes): the id belongs to exactly one
relationship, its target names exactly one media file, and that file holds `bytes`. -/
def Resolves (rels : List (Str × Str)) (media : List (Str × List UInt8)) (id : Str)
    (bytes : List UInt8) : Prop :=
  ∃ name, rels.filter (fun r => decide (r.1 = id)) = [(id, c!"media/" ++ name ++ c!".png")] ∧
    media.filter (fun m => decide (m.1 = name)) = [(name, bytes)]

/-- The same picture up to its relationship id and its bytes (which move to the media file). -/
def SamePicture (p q : Pic) : Prop := { q with id := p.id, image := p.image } = p

/-- The relationships of part number `i`, given the parts that have any. -/
def relsOfPart (l : List (Nat × List (Str × Str))) (i : Nat) : List (Str × Str) :=
  (l.lookup i).getD []

end Docx.Spec
