import Verif.Spec.BlankIds
import Verif.Spec.Walk

/-!
# A document without paragraph ids, picture ids and picture bytes

`bare* x` is `x` with the id of every paragraph and the relationship id and bytes of every picture replaced by empty
strings, except in the text of footnotes attached to their references and in text boxes, which stay as they are. Two
values with the same `bare` differ in nothing else.
-/

namespace Docx.Spec

mutual
def bareRun : Run → Run
  | ⟨p, cs⟩ => ⟨p, bareRunChildren cs⟩
def bareComment : Comment → Comment
  | ⟨a, b, c, cs, d⟩ => ⟨a, b, c, bareBlocks cs, d⟩
def bareDelete : Delete → Delete
  | ⟨a, b, cs⟩ => ⟨a, b, bareDeleteChildren cs⟩
def bareInsert : Insert → Insert
  | ⟨a, b, cs⟩ => ⟨a, b, bareInsertChildren cs⟩
def bareHyperlink : Hyperlink → Hyperlink
  | ⟨a, b, cs⟩ => ⟨a, b, bareParagraphChildren cs⟩
def bareParagraph : Paragraph → Paragraph
  | ⟨_, cs, p, n⟩ => ⟨[], bareParagraphChildren cs, p, n⟩
def bareSdt : Sdt → Sdt
  | ⟨cs, p, n⟩ => ⟨bareSdtChildren cs, p, n⟩
def bareTable : Table → Table
  | ⟨cs, g, n, p⟩ => ⟨bareRows cs, g, n, p⟩
def bareRow : Row → Row
  | ⟨cs, n, p⟩ => ⟨bareCells cs, n, p⟩
def bareCell : Cell → Cell
  | ⟨cs, p, n⟩ => ⟨bareCellContents cs, p, n⟩
def bareRunChildren : List RunChild → List RunChild
  | [] => []
  | c :: cs => bareRunChild c :: bareRunChildren cs
def bareBlocks : List Block → List Block
  | [] => []
  | c :: cs => bareBlock c :: bareBlocks cs
def bareDeleteChildren : List DeleteChild → List DeleteChild
  | [] => []
  | c :: cs => bareDeleteChild c :: bareDeleteChildren cs
def bareInsertChildren : List InsertChild → List InsertChild
  | [] => []
  | c :: cs => bareInsertChild c :: bareInsertChildren cs
def bareParagraphChildren : List ParagraphChild → List ParagraphChild
  | [] => []
  | c :: cs => bareParagraphChild c :: bareParagraphChildren cs
def bareSdtChildren : List SdtChild → List SdtChild
  | [] => []
  | c :: cs => bareSdtChild c :: bareSdtChildren cs
def bareRows : List Row → List Row
  | [] => []
  | c :: cs => bareRow c :: bareRows cs
def bareCells : List Cell → List Cell
  | [] => []
  | c :: cs => bareCell c :: bareCells cs
def bareCellContents : List CellContent → List CellContent
  | [] => []
  | c :: cs => bareCellContent c :: bareCellContents cs
def bareRunChild : RunChild → RunChild
  | .text a => .text a
  | .sym a b => .sym a b
  | .deleteText a => .deleteText a
  | .tab => .tab
  | .ptab a => .ptab a
  | .brk a => .brk a
  | .carriageReturn => .carriageReturn
  | .picture a => .picture { a with id := [], image := [] }
  | .textBox a => .textBox a
  | .emptyDrawing => .emptyDrawing
  | .shape a => .shape a
  | .commentStart i c => .commentStart i (bareComment c)
  | .commentEnd a => .commentEnd a
  | .fieldChar a b => .fieldChar a b
  | .instrText a => .instrText a
  | .deleteInstrText a => .deleteInstrText a
  | .instrTextString a => .instrTextString a
  | .footnoteReference a b c => .footnoteReference a b c
  | .shading a => .shading a
def bareBlock : Block → Block
  | .paragraph p => .paragraph (bareParagraph p)
  | .table t => .table (bareTable t)
def bareDeleteChild : DeleteChild → DeleteChild
  | .run r => .run (bareRun r)
  | .commentStart i c => .commentStart i (bareComment c)
  | .commentEnd a => .commentEnd a
def bareInsertChild : InsertChild → InsertChild
  | .run r => .run (bareRun r)
  | .delete d => .delete (bareDelete d)
  | .commentStart i c => .commentStart i (bareComment c)
  | .commentEnd a => .commentEnd a
def bareParagraphChild : ParagraphChild → ParagraphChild
  | .run r => .run (bareRun r)
  | .insert i => .insert (bareInsert i)
  | .delete d => .delete (bareDelete d)
  | .moveFrom d => .moveFrom (bareDelete d)
  | .moveTo i => .moveTo (bareInsert i)
  | .bookmarkStart a b => .bookmarkStart a b
  | .hyperlink h => .hyperlink (bareHyperlink h)
  | .bookmarkEnd a => .bookmarkEnd a
  | .commentStart i c => .commentStart i (bareComment c)
  | .commentEnd a => .commentEnd a
  | .sdt s => .sdt (bareSdt s)
  | .pageNum a => .pageNum a
  | .numPages a => .numPages a
def bareSdtChild : SdtChild → SdtChild
  | .run r => .run (bareRun r)
  | .paragraph p => .paragraph (bareParagraph p)
  | .table t => .table (bareTable t)
  | .bookmarkStart a b => .bookmarkStart a b
  | .bookmarkEnd a => .bookmarkEnd a
  | .commentStart i c => .commentStart i (bareComment c)
  | .commentEnd a => .commentEnd a
  | .sdt s => .sdt (bareSdt s)
def bareCellContent : CellContent → CellContent
  | .paragraph p => .paragraph (bareParagraph p)
  | .table t => .table (bareTable t)
  | .sdt s => .sdt (bareSdt s)
  | .toc t => .toc (bareToc t)
def bareToc : Toc → Toc
  | ⟨a, b, c, d, e, f, g, bs, as, j, k⟩ => ⟨a, b, c, d, e, f, g, bareBlocks bs, bareBlocks as, j, k⟩
end

def bareHeaderChild : HeaderChild → HeaderChild
  | .paragraph p => .paragraph (bareParagraph p)
  | .table t => .table (bareTable t)
  | .sdt s => .sdt (bareSdt s)

def bareHeader (h : Header) : Header := { h with children := h.children.map bareHeaderChild }

def barePart (p : Option (Str × Header)) : Option (Str × Header) :=
  p.map (fun x => (x.1, bareHeader x.2))

def bareSectionProperty (p : SectionProperty) : SectionProperty :=
  { p with header := barePart p.header, firstHeader := barePart p.firstHeader,
           evenHeader := barePart p.evenHeader, footer := barePart p.footer,
           firstFooter := barePart p.firstFooter, evenFooter := barePart p.evenFooter }

def bareSectionChild : SectionChild → SectionChild
  | .paragraph p => .paragraph (bareParagraph p)
  | .table t => .table (bareTable t)
  | .sdt s => .sdt (bareSdt s)
  | .toc t => .toc (bareToc t)
  | .commentStart i c => .commentStart i (bareComment c)
  | x => x

def bareSection (s : Section) : Section :=
  { s with children := s.children.map bareSectionChild, property := bareSectionProperty s.property }

def bareDocumentChild : DocumentChild → DocumentChild
  | .paragraph p => .paragraph (bareParagraph p)
  | .table t => .table (bareTable t)
  | .sdt s => .sdt (bareSdt s)
  | .toc t => .toc (bareToc t)
  | .commentStart i c => .commentStart i (bareComment c)
  | .section s => .section (bareSection s)
  | x => x

def bareDocument (d : Document) : Document :=
  { d with children := d.children.map bareDocumentChild,
           sectionProperty := bareSectionProperty d.sectionProperty }

/-- An item without paragraph ids, picture ids and picture bytes. -/
def bareItem : Item → Item
  | .paragraph p => .paragraph (bareParagraph p)
  | .table t => .table (bareTable t)
  | .cell c => .cell (bareCell c)
  | .run r => .run (bareRun r)
  | .runChild c => .runChild (bareRunChild c)
  | .hyperlink h => .hyperlink (bareHyperlink h)
  | .sdt s => .sdt (bareSdt s)
  | .toc t => .toc (bareToc t)
  | .comment i c => .comment i (bareComment c)
  | .footnote i ps => .footnote i ps
  | .picture p => .picture { p with id := [], image := [] }

end Docx.Spec
