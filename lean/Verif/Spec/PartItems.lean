import Verif.Spec.BodyItems
import Verif.Spec.Headers

/-!
# Specification: what is in the body, the headers and the footers of a file

Headers and footers are made of the same items as bodies. Paragraph ids are left out of the comparison where a file is packed, because
packing may give paragraphs new ones. Nothing here refers to the writer or the reader.
-/

namespace Docx.Spec

mutual
/-- An item without the ids of its paragraphs. -/
def BodyItem.dropIds : BodyItem → BodyItem
  | .paragraph _ property parts => .paragraph [] property parts
  | .table rows => .table (dropRowIds rows)
/-- Rows without the ids of their paragraphs. -/
def dropRowIds : List (List (List BodyItem)) → List (List (List BodyItem))
  | [] => []
  | r :: rs => dropCellIds r :: dropRowIds rs
/-- Cells without the ids of their paragraphs. -/
def dropCellIds : List (List BodyItem) → List (List BodyItem)
  | [] => []
  | c :: cs => dropIds c :: dropCellIds cs
/-- Items without the ids of their paragraphs. -/
def dropIds : List BodyItem → List BodyItem
  | [] => []
  | i :: is => i.dropIds :: dropIds is
end

/-- The header or footer with these items, put together through the building interface. -/
def headerOf (items : List BodyItem) : Header :=
  items.foldl (fun h i => match i with
    | .paragraph id property parts => h.addParagraph (paragraphOf id property parts)
    | .table rows => h.addTable (Table.new (rowsOf rows))) {}

/-- The item a child of a header or footer stands for. -/
def seenHeaderChild : HeaderChild → Option BodyItem
  | .paragraph p => seenParagraph p
  | .table ⟨rows, _, _, _⟩ => (seenRows rows).map .table
  | .sdt _ => none

/-- The items of a header or footer. -/
def seenHeader (h : Header) : Option (List BodyItem) := allThere (h.children.map seenHeaderChild)

end Docx.Spec
