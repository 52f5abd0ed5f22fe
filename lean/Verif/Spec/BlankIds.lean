import Verif.Model.ParaIds

/-!
# A document with its paragraph ids removed (C10)

`blank* x` is `x` with the id of every paragraph replaced by the empty string, except that the text
of footnotes attached to their references and text boxes are left as they are. Two values with the
same `blank` differ in paragraph ids only.
-/

namespace Docx.Spec

mutual
def blankRun : Run → Run
  | ⟨p, cs⟩ => ⟨p, blankRunChildren cs⟩
def blankComment : Comment → Comment
  | ⟨a, b, c, cs, d⟩ => ⟨a, b, c, blankBlocks cs, d⟩
def blankDelete : Delete → Delete
  | ⟨a, b, cs⟩ => ⟨a, b, blankDeleteChildren cs⟩
def blankInsert : Insert → Insert
  | ⟨a, b, cs⟩ => ⟨a, b, blankInsertChildren cs⟩
def blankHyperlink : Hyperlink → Hyperlink
  | ⟨a, b, cs⟩ => ⟨a, b, blankParagraphChildren cs⟩
def blankParagraph : Paragraph → Paragraph
  | ⟨_, cs, p, n⟩ => ⟨[], blankParagraphChildren cs, p, n⟩
def blankSdt : Sdt → Sdt
  | ⟨cs, p, n⟩ => ⟨blankSdtChildren cs, p, n⟩
def blankTable : Table → Table
  | ⟨cs, g, n, p⟩ => ⟨blankRows cs, g, n, p⟩
def blankRow : Row → Row
  | ⟨cs, n, p⟩ => ⟨blankCells cs, n, p⟩
def blankCell : Cell → Cell
  | ⟨cs, p, n⟩ => ⟨blankCellContents cs, p, n⟩
def blankRunChildren : List RunChild → List RunChild
  | [] => []
  | c :: cs => blankRunChild c :: blankRunChildren cs
def blankBlocks : List Block → List Block
  | [] => []
  | c :: cs => blankBlock c :: blankBlocks cs
def blankDeleteChildren : List DeleteChild → List DeleteChild
  | [] => []
  | c :: cs => blankDeleteChild c :: blankDeleteChildren cs
def blankInsertChildren : List InsertChild → List InsertChild
  | [] => []
  | c :: cs => blankInsertChild c :: blankInsertChildren cs
def blankParagraphChildren : List ParagraphChild → List ParagraphChild
  | [] => []
  | c :: cs => blankParagraphChild c :: blankParagraphChildren cs
def blankSdtChildren : List SdtChild → List SdtChild
  | [] => []
  | c :: cs => blankSdtChild c :: blankSdtChildren cs
def blankRows : List Row → List Row
  | [] => []
  | c :: cs => blankRow c :: blankRows cs
def blankCells : List Cell → List Cell
  | [] => []
  | c :: cs => blankCell c :: blankCells cs
def blankCellContents : List CellContent → List CellContent
  | [] => []
  | c :: cs => blankCellContent c :: blankCellContents cs
def blankRunChild : RunChild → RunChild
  | .text a => .text a
  | .sym a b => .sym a b
  | .deleteText a => .deleteText a
  | .tab => .tab
  | .ptab a => .ptab a
  | .brk a => .brk a
  | .carriageReturn => .carriageReturn
  | .picture a => .picture a
  | .textBox a => .textBox a
  | .emptyDrawing => .emptyDrawing
  | .shape a => .shape a
  | .commentStart i c => .commentStart i (blankComment c)
  | .commentEnd a => .commentEnd a
  | .fieldChar a b => .fieldChar a b
  | .instrText a => .instrText a
  | .deleteInstrText a => .deleteInstrText a
  | .instrTextString a => .instrTextString a
  | .footnoteReference a b c => .footnoteReference a b c
  | .shading a => .shading a
def blankBlock : Block → Block
  | .paragraph p => .paragraph (blankParagraph p)
  | .table t => .table (blankTable t)
def blankDeleteChild : DeleteChild → DeleteChild
  | .run r => .run (blankRun r)
  | .commentStart i c => .commentStart i (blankComment c)
  | .commentEnd a => .commentEnd a
def blankInsertChild : InsertChild → InsertChild
  | .run r => .run (blankRun r)
  | .delete d => .delete (blankDelete d)
  | .commentStart i c => .commentStart i (blankComment c)
  | .commentEnd a => .commentEnd a
def blankParagraphChild : ParagraphChild → ParagraphChild
  | .run r => .run (blankRun r)
  | .insert i => .insert (blankInsert i)
  | .delete d => .delete (blankDelete d)
  | .moveFrom d => .moveFrom (blankDelete d)
  | .moveTo i => .moveTo (blankInsert i)
  | .bookmarkStart a b => .bookmarkStart a b
  | .hyperlink h => .hyperlink (blankHyperlink h)
  | .bookmarkEnd a => .bookmarkEnd a
  | .commentStart i c => .commentStart i (blankComment c)
  | .commentEnd a => .commentEnd a
  | .sdt s => .sdt (blankSdt s)
  | .pageNum a => .pageNum a
  | .numPages a => .numPages a
def blankSdtChild : SdtChild → SdtChild
  | .run r => .run (blankRun r)
  | .paragraph p => .paragraph (blankParagraph p)
  | .table t => .table (blankTable t)
  | .bookmarkStart a b => .bookmarkStart a b
  | .bookmarkEnd a => .bookmarkEnd a
  | .commentStart i c => .commentStart i (blankComment c)
  | .commentEnd a => .commentEnd a
  | .sdt s => .sdt (blankSdt s)
def blankCellContent : CellContent → CellContent
  | .paragraph p => .paragraph (blankParagraph p)
  | .table t => .table (blankTable t)
  | .sdt s => .sdt (blankSdt s)
  | .toc t => .toc (blankToc t)
def blankToc : Toc → Toc
  | ⟨a, b, c, d, e, f, g, bs, as, j, k⟩ => ⟨a, b, c, d, e, f, g, blankBlocks bs, blankBlocks as, j, k⟩
end

def blankHeaderChild : HeaderChild → HeaderChild
  | .paragraph p => .paragraph (blankParagraph p)
  | .table t => .table (blankTable t)
  | .sdt s => .sdt (blankSdt s)

def blankHeader (h : Header) : Header := { h with children := h.children.map blankHeaderChild }

def blankPart (p : Option (Str × Header)) : Option (Str × Header) :=
  p.map (fun x => (x.1, blankHeader x.2))

def blankSectionProperty (p : SectionProperty) : SectionProperty :=
  { p with header := blankPart p.header, firstHeader := blankPart p.firstHeader,
           evenHeader := blankPart p.evenHeader, footer := blankPart p.footer,
           firstFooter := blankPart p.firstFooter, evenFooter := blankPart p.evenFooter }

def blankSectionChild : SectionChild → SectionChild
  | .paragraph p => .paragraph (blankParagraph p)
  | .table t => .table (blankTable t)
  | .sdt s => .sdt (blankSdt s)
  | .toc t => .toc (blankToc t)
  | .commentStart i c => .commentStart i (blankComment c)
  | x => x

def blankSection (s : Section) : Section :=
  { s with children := s.children.map blankSectionChild, property := blankSectionProperty s.property }

def blankDocumentChild : DocumentChild → DocumentChild
  | .paragraph p => .paragraph (blankParagraph p)
  | .table t => .table (blankTable t)
  | .sdt s => .sdt (blankSdt s)
  | .toc t => .toc (blankToc t)
  | .commentStart i c => .commentStart i (blankComment c)
  | .section s => .section (blankSection s)
  | x => x

def blankDocument (d : Document) : Document :=
  { d with children := d.children.map blankDocumentChild,
           sectionProperty := blankSectionProperty d.sectionProperty }

def blankFootnote (f : Footnote) : Footnote := { f with content := f.content.map blankParagraph }

def blankStory (x : Story) : Story :=
  { document := blankDocument x.document, comments := x.comments.map blankComment,
    footnotes := x.footnotes.map blankFootnote }

end Docx.Spec
