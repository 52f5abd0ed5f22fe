import Verif.Spec.Relations

/-!
# Specification: headers and footers given to the builder
-/

namespace Docx.Spec

open Docx

/-- Headers or footers. -/
inductive Side where
  | header | footer
deriving DecidableEq

/-- The three parts a section can have: default, first page, even pages. -/
def Side.parts : Side → SectionProperty → List (Option (Str × Header))
  | .header, p => [p.header, p.firstHeader, p.evenHeader]
  | .footer, p => [p.footer, p.firstFooter, p.evenFooter]

/-- The references to them, in the same order. -/
def Side.references : Side → SectionBase → List (Option PartReference)
  | .header, b => [b.headerReference, b.firstHeaderReference, b.evenHeaderReference]
  | .footer, b => [b.footerReference, b.firstFooterReference, b.evenFooterReference]

/-- The types of the three references. -/
def referenceTypes : List Str := [c!"default", c!"first", c!"even"]

/-- The headers or footers a section is added with. -/
def Side.ofSection : Side → Section → List (Option Header)
  | .header, s => [s.tempHeader, s.tempFirstHeader, s.tempEvenHeader]
  | .footer, s => [s.tempFooter, s.tempFirstFooter, s.tempEvenFooter]

/-- The headers or footers a builder call gives. -/
def Side.given : Side → Call → List Header
  | .header, .header h | .header, .firstHeader h | .header, .evenHeader h => [h]
  | .footer, .footer h | .footer, .firstFooter h | .footer, .evenFooter h => [h]
  | side, .addSection s => (side.ofSection s).filterMap id
  | _, _ => []

/-- Which of the three parts of the document a call sets. -/
def Side.slot : Side → Call → Option Nat
  | .header, .header _ => some 0
  | .header, .firstHeader _ => some 1
  | .header, .evenHeader _ => some 2
  | .footer, .footer _ => some 0
  | .footer, .firstFooter _ => some 1
  | .footer, .evenFooter _ => some 2
  | _, _ => none

/-- The place of a call in the order default, first page, even pages, sections. -/
def Side.rank (side : Side) (c : Call) : Option Nat :=
  match side.slot c with
  | some k => some k
  | none => if side.given c = [] then none else some 3

/-- No headers, footers or references to them. -/
def Fresh (p : SectionProperty) : Prop :=
  ∀ side : Side, (∀ o ∈ side.parts p, o = none) ∧ ∀ o ∈ side.references p.base, o = none

/-- The body is not replaced, and sections get their headers and footers from the builder only. -/
def Plainly (cs : List Call) : Prop :=
  (∀ x, Call.document x ∉ cs) ∧ ∀ s, Call.addSection s ∈ cs → Fresh s.property

/-- None of the three parts of the document is set twice. -/
def Once (side : Side) (cs : List Call) : Prop := (cs.filterMap side.slot).Nodup

/-- Parts are given in the order default, first page, even pages, sections. -/
def InOrder (side : Side) (cs : List Call) : Prop := (cs.filterMap side.rank).Pairwise fun a b => a < b ∨ (a = 3 ∧ b = 3)

/-- The header or footer last given for one of the three parts of the document. -/
def Side.last (side : Side) (k : Nat) (cs : List Call) : Option Header :=
  ((cs.filter fun c => decide (side.slot c = some k)).flatMap side.given).getLast?

/-- The headers or footers of the sections added by a call. -/
def Side.ofCall (side : Side) : Call → List (List (Option Header))
  | .addSection s => [side.ofSection s]
  | _ => []

/-- The headers or footers given for the parts of the document (default, first page, even pages), followed by those of every
added section. -/
def Side.passed (side : Side) (cs : List Call) : List (List (Option Header)) :=
  [0, 1, 2].map (side.last · cs) :: cs.flatMap side.ofCall

/-- The element that refers to such a part. -/
def Side.element : Side → Str
  | .header => c!"w:headerReference"
  | .footer => c!"w:footerReference"

/-- The relationship id of the part with a number. -/
def Side.rid : Side → Nat → Str
  | .header, n => createHeaderRid n
  | .footer, n => createFooterRid n

/-- The type of the relationship. -/
def Side.type : Side → Str
  | .header => c!"http://schemas.openxmlformats.org/officeDocument/2006/relationships/header"
  | .footer => c!"http://schemas.openxmlformats.org/officeDocument/2006/relationships/footer"

/-- How such a part is written. -/
def Side.write : Side → Header → Part
  | .header => Header.writeHeader
  | .footer => Header.writeFooter

end Docx.Spec
