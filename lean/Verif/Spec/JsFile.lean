import Verif.Model.JsFile
import Verif.Spec.Js
import Verif.Spec.JsNumbered
import Verif.Spec.References

/-!
# Specification: headers and footers given in JavaScript
-/

namespace Docx.Spec

open Docx Docx.Xml

variable (lib : ImageLib)

/-- What was put into a header or footer, in order. -/
def JsPart.content (h : JsPart) : List Shown := h.children.flatMap fun
  | .paragraph p => JsParagraph.content lib p
  | .table t => jsTableContent lib [] t

/-- What is in a header or footer of the Rust library. -/
def headerContent (h : Header) : List Shown := ((walkHeader [] h).within inPart).flatMap Item.shown

/-- The part a call gives for the default, for the first page or for even pages. -/
def Side.gives : Side → Nat → JsFileCall → Option JsPart
  | .header, 0, .header h | .header, 1, .firstHeader h | .header, 2, .evenHeader h => some h
  | .footer, 0, .footer h | .footer, 1, .firstFooter h | .footer, 2, .evenFooter h => some h
  | _, _, _ => none

/-- The parts last given, in the order default, first page, even pages. -/
def Side.lastGiven (side : Side) (cs : List JsFileCall) : List (Option JsPart) :=
  [0, 1, 2].map fun k => (cs.filterMap (side.gives k)).getLast?

/-- A reference exists exactly when a part was given, and then leads to a part of the package with the content given. -/
inductive JsPartFound (es : List Entry) (side : Side) : Option JsPart → Option Str → Prop where
  | none : JsPartFound es side none none
  | some {p rid} (h : Header) : headerContent h = JsPart.content lib p → ResolvesTo es side rid h → JsPartFound es side (some p) (some rid)

/-- The document after calls. -/
def jsFileOf (cs : List JsFileCall) : JsFile := cs.foldl JsFile.call {}

/-- A paragraph of a header or footer, or of a table in it, is numbered. -/
def jsPartNumbered (h : JsPart) : Bool := h.children.any fun
  | .paragraph p => jsParagraphNumbered p
  | .table t => jsTableNumbered t

end Docx.Spec
