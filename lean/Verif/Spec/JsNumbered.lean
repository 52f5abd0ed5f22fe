import Verif.Model.JsAdd

/-!
# Specification: numbering in JavaScript
-/

namespace Docx.Spec

open Docx

/-- Paragraphs made with the methods of `Paragraph`. -/
inductive MadeJsParagraph : JsParagraph → Prop
  | new : MadeJsParagraph {}
  | add (p c) : MadeJsParagraph p → MadeJsParagraph (p.add c)
  | call (p c) : MadeJsParagraph p → MadeJsParagraph (p.call c)

mutual

/-- Tables made with the methods of `Table`. -/
inductive MadeJsTable : JsTable → Prop
  | new : MadeJsTable {}
  | addRow (t r) : MadeJsTable t → MadeJsRow r → MadeJsTable (t.addRow r)
  | call (t c) : MadeJsTable t → MadeJsTable (t.call c)

/-- Rows made with the methods of `TableRow`. -/
inductive MadeJsRow : JsRow → Prop
  | new : MadeJsRow {}
  | addCell (r c) : MadeJsRow r → MadeJsCell c → MadeJsRow (r.addCell c)
  | call (r c) : MadeJsRow r → MadeJsRow (r.call c)

/-- Cells made with the methods of `TableCell`. -/
inductive MadeJsCell : JsCell → Prop
  | new : MadeJsCell {}
  | addParagraph (c p) : MadeJsCell c → MadeJsParagraph p → MadeJsCell (c.add (.paragraph p))
  | addTable (c t) : MadeJsCell c → MadeJsTable t → MadeJsCell (c.add (.table t))
  | addToc (c t) : MadeJsCell c → MadeJsCell (c.add (.toc t))
  | call (c x) : MadeJsCell c → MadeJsCell (c.call x)

end

/-- Documents made with the methods of `Docx`. -/
inductive MadeJsDocx : JsDocx → Prop
  | new : MadeJsDocx {}
  | addParagraph (d p) : MadeJsDocx d → MadeJsParagraph p → MadeJsDocx (d.add (.paragraph p))
  | addTable (d t) : MadeJsDocx d → MadeJsTable t → MadeJsDocx (d.add (.table t))
  | addBookmarkStart (d i s) : MadeJsDocx d → MadeJsDocx (d.add (.bookmarkStart i s))
  | addBookmarkEnd (d i) : MadeJsDocx d → MadeJsDocx (d.add (.bookmarkEnd i))
  | addToc (d t) : MadeJsDocx d → MadeJsDocx (d.add (.toc t))

/-- A paragraph is numbered. -/
def jsParagraphNumbered : JsParagraph → Bool
  | ⟨_, p, _⟩ => p.numbering.isSome

mutual

/-- A paragraph of a table is. -/
def jsTableNumbered : JsTable → Bool
  | ⟨rs, _, _, _⟩ => jsRowsNumbered rs

/-- Of rows. -/
def jsRowsNumbered : List JsRow → Bool
  | [] => false
  | ⟨cs, _, _⟩ :: rs => jsCellsNumbered cs || jsRowsNumbered rs

/-- Of cells. -/
def jsCellsNumbered : List JsCell → Bool
  | [] => false
  | ⟨xs, _, _⟩ :: cs => jsContentNumbered xs || jsCellsNumbered cs

/-- Of the content of a cell. -/
def jsContentNumbered : List JsCellChild → Bool
  | [] => false
  | .paragraph p :: xs => jsParagraphNumbered p || jsContentNumbered xs
  | .table t :: xs => jsTableNumbered t || jsContentNumbered xs
  | .toc _ :: xs => jsContentNumbered xs

end

/-- An item of a document has a numbered paragraph. -/
def jsChildNumbered : JsChild → Bool
  | .paragraph p => jsParagraphNumbered p
  | .table t => jsTableNumbered t
  | _ => false

/-- A paragraph of a document, of its tables or of the tables in them is numbered. -/
def jsNumbered (d : JsDocx) : Bool := d.children.any jsChildNumbered

end Docx.Spec
