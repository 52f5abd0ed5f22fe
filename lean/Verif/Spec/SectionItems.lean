import Verif.Spec.BodyItems
import Verif.Spec.PartItems
import Verif.Spec.KeptParagraph
import Verif.Model.Sections

/-!
# What is in a document with sections
-/

namespace Docx.Spec

/-- A paragraph, a table, or a section: what is in it, and the set-up of its pages. -/
inductive BookItem where
  | item (i : BodyItem)
  | «section» (items : List BodyItem) (page : SectionBase)

/-- The section with these items, put together through the building interface. -/
def sectionOf (items : List BodyItem) : Section :=
  items.foldl (fun s i => match i with
    | .paragraph id property parts => s.addParagraph (paragraphOf id property parts)
    | .table rows => s.addTable (Table.new (rowsOf rows))) {}

/-- The child of a document is this item. -/
def BookItem.Is : BookItem → DocumentChild → Prop
  | .item i, c => [c] = (bodyOf [i]).children
  | .section items page, c => ∃ s, c = .section s ∧ s.children = (sectionOf items).children ∧ s.property.base = page

/-- The paragraph, without text, at the end of a section with this set-up of its pages. -/
def sectionMark (page : SectionBase) : BodyItem := .paragraph [] { base := { sectionProperty := some page } } []

/-- What is read for an item: for a section what was in it, and a paragraph with the set-up of its pages. -/
def BookItem.after : BookItem → List BodyItem
  | .item i => afterItems [i]
  | .section items page => afterItems items ++ [sectionMark page]

/-- Items that can be read back. -/
def BookItem.Kept : BookItem → Prop
  | .item i => KeptItem i
  | .section items page => KeptItems items ∧ SectionBase.Kept page

end Docx.Spec
