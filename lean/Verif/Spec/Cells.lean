import Verif.Spec.Walk

/-!
# Specification: what is in a written table cell

The names of the elements directly inside the cell, from what the user put into it.
-/

namespace Docx.Spec

open Docx

/-- The element of a block before or after a table of contents. -/
def blockElement : Block → Str
  | .paragraph _ => c!"w:p"
  | .table _ => c!"w:tbl"

/-- The elements of the blocks after a table of contents: a table that comes first has an empty line before
it. -/
def afterElements : List Block → List Str
  | .table t :: bs => c!"w:p" :: (Block.table t :: bs).map blockElement
  | bs => bs.map blockElement

/-- The elements of a table of contents: one content control, or without it the blocks before, the field or
the entries, and the blocks after. -/
def tocElements (t : Toc) : List Str :=
  if t.withoutSdt then
    t.before.map blockElement ++
      (if t.items = [] then c!"w:p" :: (if t.after = [] then [c!"w:p"] else []) else [c!"w:sdt"]) ++
      afterElements t.after
  else [c!"w:sdt"]

/-- The elements of one thing in a cell. -/
def contentElements : CellContent → List Str
  | .paragraph _ => [c!"w:p"]
  | .table _ => [c!"w:tbl"]
  | .sdt _ => [c!"w:sdt"]
  | .toc t => tocElements t

/-- The paragraph added to a cell: to an empty cell, and to a cell that holds one table and nothing else. -/
def addedParagraph : List CellContent → List Str
  | [] => [c!"w:p"]
  | [.table _] => [c!"w:p"]
  | _ => []

/-- The elements of a cell: its properties and its content. -/
def cellElements (c : Cell) : List Str :=
  c!"w:tcPr" :: (c.children.flatMap contentElements ++ addedParagraph c.children)

/-- The cells among some items. -/
def Item.cell? : Item → Option Cell
  | .cell c => some c
  | _ => none

/-- The element names a cell must have one of: paragraph, table or content control. -/
def blockNames : List Str := [c!"w:p", c!"w:tbl", c!"w:sdt"]

end Docx.Spec
