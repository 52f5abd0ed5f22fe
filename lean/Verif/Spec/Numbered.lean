import Verif.Spec.Headers
import Verif.Model.Sections

/-!
# Specification: which paragraphs use numbering, and content as the constructors make it
-/

namespace Docx.Spec

open Docx

/-- A paragraph with a numbering of its own. -/
def Item.numbered : Item → Bool
  | .paragraph p => p.property.base.numberingProperty.isSome
  | _ => false

/-- In the body, a header or a footer, perhaps in sections, tables and content controls, but not inside a paragraph (text boxes,
comments, footnotes), not in a table of contents and not in a content control put into a cell. -/
def carried : List Place → Bool
  | [] => true
  | .sdt :: .cell :: _ => false
  | .cell :: w | .sdt :: w | .section :: w | .header :: w | .footer :: w | .document :: w => carried w
  | _ => false

/-- Some paragraph uses numbering. -/
def UsesNumbering (d : Document) : Prop := ∃ x ∈ walkDocument d, x.2.numbered = true

/-- Some paragraph in one of the places above uses numbering. -/
def CarriesNumbering (d : Document) : Prop := ∃ x ∈ walkDocument d, x.2.numbered = true ∧ carried x.1 = true

/-- Paragraphs made with the methods of `Paragraph`. -/
inductive MadeParagraph : Paragraph → Prop
  | new (id : Str) : MadeParagraph (Paragraph.new id)
  | setId (p id) : MadeParagraph p → MadeParagraph (p.setId id)
  | children (p : Paragraph) (cs) : MadeParagraph p → MadeParagraph { p with children := cs }
  | format (p f) : MadeParagraph p →
      (∀ x : ParagraphProperty, (f x).base.numberingProperty = x.base.numberingProperty) → MadeParagraph (p.format f)
  | numbering (p id level) : MadeParagraph p → MadeParagraph (p.numbering id level)

mutual
/-- Cells made with the methods of `TableCell`. -/
inductive MadeCell : Cell → Prop
  | new : MadeCell {}
  | addParagraph (c p) : MadeCell c → MadeParagraph p → MadeCell (c.addParagraph p)
  | addTable (c t) : MadeCell c → MadeTable t → MadeCell (c.addTable t)
  | addSdt (c s) : MadeCell c → MadeCell (c.addSdt s)
  | addToc (c t) : MadeCell c → MadeCell (c.addToc t)
  | format (c : Cell) (pr) : MadeCell c → MadeCell { c with property := pr }
/-- Rows made with the methods of `TableRow`. -/
inductive MadeRow : Row → Prop
  | new (cs : List Cell) : (∀ c ∈ cs, MadeCell c) → MadeRow (Row.new cs)
  | format (r : Row) (pr) : MadeRow r → MadeRow { r with property := pr }
/-- Tables made with the methods of `Table`, except that rows added afterwards use numbering only if the table did before. -/
inductive MadeTable : Table → Prop
  | new (rs : List Row) : (∀ r ∈ rs, MadeRow r) → MadeTable (Table.new rs)
  | withoutBorders (rs : List Row) : (∀ r ∈ rs, MadeRow r) → MadeTable (Table.withoutBorders rs)
  | addRow (t r) : MadeTable t → MadeRow r → (r.hasNumbering = true → t.hasNumbering = true) → MadeTable (t.addRow r)
  | format (t : Table) (g pr) : MadeTable t → MadeTable { t with grid := g, property := pr }
end

/-- Content controls made with the methods of `StructuredDataTag`. -/
inductive MadeSdt : Sdt → Prop
  | new : MadeSdt {}
  | addRun (s r) : MadeSdt s → MadeSdt (s.addRun r)
  | addParagraph (s p) : MadeSdt s → MadeParagraph p → MadeSdt (s.addParagraph p)
  | addTable (s t) : MadeSdt s → MadeTable t → MadeSdt (s.addTable t)
  | format (s : Sdt) (pr) : MadeSdt s → MadeSdt { s with property := pr }

/-- Headers and footers made with the methods of `Header` and `Footer`. -/
inductive MadeHeader : Header → Prop
  | new : MadeHeader {}
  | addParagraph (h p) : MadeHeader h → MadeParagraph p → MadeHeader (h.addParagraph p)
  | addTable (h t) : MadeHeader h → MadeTable t → MadeHeader (h.addTable t)
  | addSdt (h s) : MadeHeader h → MadeSdt s → MadeHeader (h.addSdt s)

/-- Sections made with the methods of `Section`. -/
inductive MadeSection : Section → Prop
  | new : MadeSection {}
  | addParagraph (s p) : MadeSection s → MadeParagraph p → MadeSection (s.addParagraph p)
  | addTable (s t) : MadeSection s → MadeTable t → MadeSection (s.addTable t)
  | addBookmarkStart (s i n) : MadeSection s → MadeSection (s.addBookmarkStart i n)
  | addBookmarkEnd (s i) : MadeSection s → MadeSection (s.addBookmarkEnd i)
  | addCommentStart (s c) : MadeSection s → MadeSection (s.addCommentStart c)
  | addCommentEnd (s i) : MadeSection s → MadeSection (s.addCommentEnd i)
  | setHeader (s h) : MadeSection s → MadeHeader h → MadeSection (s.setHeader h)
  | setFirstHeader (s h) : MadeSection s → MadeHeader h → MadeSection (s.setFirstHeader h)
  | setEvenHeader (s h) : MadeSection s → MadeHeader h → MadeSection (s.setEvenHeader h)
  | setFooter (s h) : MadeSection s → MadeHeader h → MadeSection (s.setFooter h)
  | setFirstFooter (s h) : MadeSection s → MadeHeader h → MadeSection (s.setFirstFooter h)
  | setEvenFooter (s h) : MadeSection s → MadeHeader h → MadeSection (s.setEvenFooter h)
  | layout (s f) : MadeSection s → MadeSection (s.layout f)

/-- What a call is given was made with these methods; the whole document is not replaced. -/
def MadeCall : Call → Prop
  | .document _ => False
  | .addParagraph p => MadeParagraph p
  | .addTable t => MadeTable t
  | .addSdt s => MadeSdt s
  | .addSection s => MadeSection s
  | .header h | .firstHeader h | .evenHeader h | .footer h | .firstFooter h | .evenFooter h => MadeHeader h
  | _ => True

/-- The main document relates the numbering part. -/
def NumberingRelated (es : List Entry) : Prop :=
  ∃ rs, HasRelations es c!"word/_rels/document.xml.rels" rs ∧
    ∃ r ∈ rs, r.type = c!"http://schemas.openxmlformats.org/officeDocument/2006/relationships/numbering" ∧ r.target = c!"numbering.xml"

end Docx.Spec
