import Verif.Spec.Headers
import Verif.Spec.Bare
import Verif.Spec.DocXml
import Verif.Spec.Pictures
import Verif.Props.C45_Parts

/-!
# Specification: references from sections to headers and footers
-/

namespace Docx.Spec

open Docx Docx.Xml

/-- An element with the given name. -/
def isNamed (name : Str) : Node → Bool
  | .elem n _ _ => decide (n = name)
  | .text _ => false

/-- The references a section has, in the order default, first page, even pages. -/
def referenceElements (side : Side) (rids : List (Option Str)) : List Node :=
  (List.zipWith (fun (t : Str) (r : Option Str) => r.map fun r => Node.elem side.element [(c!"w:type", t), (c!"r:id", r)] [])
    referenceTypes rids).filterMap id

/-- In the main document of the package, the properties of section `i` refer to the relationships `rids`, and to no other headers
(or footers). Section 0 is the document itself, whose properties end the body; those of another section are in a paragraph. -/
def SectionReferences (es : List Entry) (side : Side) (i : Nat) (rids : List (Option Str)) : Prop :=
  ∃ body sect,
    ⟨c!"word/document.xml", .text (Props.standaloneDeclaration ++ (Node.elem c!"w:document" documentAttrs [.elem c!"w:body" [] body]).print)⟩ ∈ es ∧
    sect.filter (isNamed side.element) = referenceElements side rids ∧
    (i = 0 → ∃ pre, body = pre ++ [.elem c!"w:sectPr" [] sect]) ∧
    (i ≠ 0 → ∃ id, .elem c!"w:p" [(c!"w14:paraId", id)] [.elem c!"w:pPr" [] [.elem c!"w:sectPr" [] sect]] ∈ body)

/-- Exactly one relationship of the main document has the id `rid`; it is of the right type and its target is an entry that is the
written form of `x`, up to paragraph and picture ids. -/
def ResolvesTo (es : List Entry) (side : Side) (rid : Str) (x : Header) : Prop :=
  ∃ rs target h s g g', HasRelations es c!"word/_rels/document.xml.rels" rs ∧
    rs.filter (fun r => decide (r.id = rid)) = [⟨rid, side.type, target, none⟩] ∧
    ⟨c!"word/" ++ target, .text s⟩ ∈ es ∧ side.write h g = some (.ok s, g') ∧ bareHeader h = bareHeader x

/-- A reference exists exactly when a part was given, and then leads to it. -/
inductive Leads (es : List Entry) (side : Side) : Option Header → Option Str → Prop where
  | none : Leads es side none none
  | some {x rid} : ResolvesTo es side rid x → Leads es side (some x) (some rid)

/-! ## Pictures in headers and footers -/

/-- The headers or footers of a document in the order in which their parts are numbered. -/
def Side.ofDocument : Side → Document → List Header
  | .header, d => headersOf d
  | .footer, d => footersOf d

/-- The name of the entry for the part with a number. -/
def Side.entry : Side → Nat → Str
  | .header, n => c!"word/header" ++ dec n ++ c!".xml"
  | .footer, n => c!"word/footer" ++ dec n ++ c!".xml"

/-- The name of the entry for the relationships of that part. -/
def Side.relsEntry : Side → Nat → Str
  | .header, n => c!"word/_rels/header" ++ dec n ++ c!".xml.rels"
  | .footer, n => c!"word/_rels/footer" ++ dec n ++ c!".xml.rels"

/-- The type of the relationships of pictures. -/
def imageType : Str := c!"http://schemas.openxmlformats.org/officeDocument/2006/relationships/image"

/-- The relationships `rs` of a part lead from its pictures, as written (`after`), to the bytes of the pictures as given (`before`). -/
def PicturesFound (es : List Entry) (rs : List Relation) (before after : List Pic) : Prop :=
  List.Forall₂ (fun p q => SamePicture p q ∧ ∃ target, rs.filter (fun r => decide (r.id = q.id)) = [⟨q.id, imageType, target, none⟩] ∧
    ⟨c!"word/" ++ target, .bytes p.image⟩ ∈ es) before after

/-- All pictures have ids as made by the constructor. -/
structure MadePictures (d : Document) : Prop where
  body : ∀ p ∈ partPictures (walkDocument d), ∃ n, p.id = createPicRid n
  parts : ∀ (side : Side), ∀ h ∈ side.ofDocument d, ∀ p ∈ partPictures (walkHeader [] h), ∃ n, p.id = createPicRid n

end Docx.Spec
