import Verif.Model.JsTableCalls
import Verif.Model.JsCalls

/-!
# Putting content together in JavaScript (docx-wasm/js/paragraph.ts, table-cell.ts, table-row.ts, table.ts)

Simplification: what is added is the value at that time. In JavaScript it is the object itself, which may be changed later
(`JsDocx.changeChild`).
-/

namespace Docx

/-- `addRun`, `addHyperlink`, `addInsert`, `addDelete`, `addBookmarkStart`, `addBookmarkEnd`, `addCommentStart`, `addCommentEnd`,
`addPageNum`, `addNumPages` of a paragraph. docx-wasm/js/paragraph.ts:41-89. -/
def JsParagraph.add : JsParagraph → JsParagraphChild → JsParagraph
  | ⟨cs, p, h⟩, c => ⟨cs ++ [c], p, h⟩

/-- The flag of what is put into a cell. docx-wasm/js/table-cell.ts:80-99. -/
def JsCellChild.flagged : JsCellChild → Bool
  | .paragraph p => p.hasNumberings
  | .table t => t.hasNumberings
  | .toc _ => false

/-- `addParagraph`, `addTableOfContents`, `addTable` of a cell. docx-wasm/js/table-cell.ts:80-99. -/
def JsCell.add : JsCell → JsCellChild → JsCell
  | ⟨cs, p, h⟩, c => ⟨cs ++ [c], p, h || c.flagged⟩

/-- `addCell`. docx-wasm/js/table-row.ts:13-19. -/
def JsRow.addCell : JsRow → JsCell → JsRow
  | ⟨cs, p, h⟩, c => ⟨cs ++ [c], p, h || c.hasNumberings⟩

/-- `addRow`. docx-wasm/js/table.ts:118-124. -/
def JsTable.addRow : JsTable → JsRow → JsTable
  | ⟨rs, g, p, h⟩, r => ⟨rs ++ [r], g, p, h || r.hasNumberings⟩

/-- A method of an object that has been added to the document: the document holds the changed object and its own flag stays.
docx-wasm/js/index.ts:59-65,77-83. -/
def JsDocx.changeChild (d : JsDocx) (i : Nat) (f : JsChild → JsChild) : JsDocx := { d with children := d.children.modify i f }

end Docx
