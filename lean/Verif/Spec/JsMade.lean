import Verif.Spec.Dependencies
import Verif.Spec.Js

/-!
# Specification: the tables of contents of a document put together in JavaScript

The model takes a table of contents as the Rust value that is built for it, so what is said about the content of a document
needs to be said about them.
-/

namespace Docx.Spec

open Docx

/-- A picture or an external link carries the id its constructor gives. -/
def ItemMade : Item → Prop
  | .picture p => ∃ n, p.id = createPicRid n
  | .hyperlink h => ∀ rid path, h.link = .external rid path → ∃ n url, (Hyperlink.new n url .external).link = .external rid path
  | _ => True

mutual

/-- The tables of contents in a table. -/
def jsTableTocs : JsTable → List Toc
  | ⟨rs, _, _, _⟩ => jsRowsTocs rs

/-- In rows. -/
def jsRowsTocs : List JsRow → List Toc
  | [] => []
  | ⟨cs, _, _⟩ :: rs => jsCellsTocs cs ++ jsRowsTocs rs

/-- In cells. -/
def jsCellsTocs : List JsCell → List Toc
  | [] => []
  | ⟨xs, _, _⟩ :: cs => jsContentTocs xs ++ jsCellsTocs cs

/-- In the content of a cell. -/
def jsContentTocs : List JsCellChild → List Toc
  | [] => []
  | .paragraph _ :: xs => jsContentTocs xs
  | .table t :: xs => jsTableTocs t ++ jsContentTocs xs
  | .toc t :: xs => t :: jsContentTocs xs

end

/-- In a document. -/
def jsTocs (d : JsDocx) : List Toc :=
  d.children.flatMap fun
    | .table t => jsTableTocs t
    | .toc t => [t]
    | _ => []

/-- The pictures and links before and after the entries of a table of contents carry the ids their constructors give. -/
def TocMade (t : Toc) : Prop := ∀ w, ∀ x ∈ walkToc w t, ItemMade x.2

/-- There are no pictures and no external links before and after the entries of a table of contents. -/
def TocBare (t : Toc) : Prop := ∀ w, ∀ x ∈ walkToc w t, x.2.picture? = none ∧ x.2.external? = none

/-- The address of an external link. -/
def JsParagraphChild.address : JsParagraphChild → List Str
  | .hyperlink v .external _ => [v]
  | _ => []

/-- The addresses of the external links in a paragraph. -/
def JsParagraph.addresses : JsParagraph → List Str
  | ⟨cs, _, _⟩ => cs.flatMap JsParagraphChild.address

mutual

/-- In a table. -/
def jsTableLinks : JsTable → List Str
  | ⟨rs, _, _, _⟩ => jsRowsLinks rs

/-- In rows. -/
def jsRowsLinks : List JsRow → List Str
  | [] => []
  | ⟨cs, _, _⟩ :: rs => jsCellsLinks cs ++ jsRowsLinks rs

/-- In cells. -/
def jsCellsLinks : List JsCell → List Str
  | [] => []
  | ⟨xs, _, _⟩ :: cs => jsContentLinks xs ++ jsCellsLinks cs

/-- In the content of a cell. -/
def jsContentLinks : List JsCellChild → List Str
  | [] => []
  | .paragraph p :: xs => JsParagraph.addresses p ++ jsContentLinks xs
  | .table t :: xs => jsTableLinks t ++ jsContentLinks xs
  | .toc _ :: xs => jsContentLinks xs

end

/-- The addresses of the external links in the paragraphs of a document and of its tables, in order. -/
def jsLinks (d : JsDocx) : List Str :=
  d.children.flatMap fun
    | .paragraph p => JsParagraph.addresses p
    | .table t => jsTableLinks t
    | _ => []

/-- The ids of all external links of a document, those in comments as well, in order. -/
def linkIds (d : Document) : List Str := ((walkDocument d).map Prod.snd).filterMap fun i => i.external?.map Prod.fst

/-- The ids of all pictures of a document, those in comments as well, in order. -/
def pictureIds (d : Document) : List Str := ((walkDocument d).map Prod.snd).filterMap fun i => i.picture?.map Pic.id

end Docx.Spec
