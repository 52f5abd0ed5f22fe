import Verif.Model.Types

/-!
# Where things are in a document

A specification-only walk over a document. It lists, in document order, every item of interest
(paragraphs, pictures, comments, footnote references, hyperlinks, ...) together with the kinds of the
containers it sits in (innermost first). It descends into *everything*. A property says which items
it is about by a condition on the kinds of the enclosing containers.
-/

namespace Docx.Spec

/-- The kind of a container. -/
inductive Place where
  | paragraph | run | comment | footnote | textBox | insert | delete | moveFrom | moveTo
  | hyperlink | sdt | cell | tocBefore | tocAfter | section | header | footer | footnotes
  | comments | document
deriving DecidableEq

/-- An item of a document. -/
inductive Item where
  | paragraph (p : Paragraph)
  | table (t : Table)
  | cell (c : Cell)
  | run (r : Run)
  | runChild (c : RunChild)
  | hyperlink (h : Hyperlink)
  | sdt (s : Sdt)
  | toc (t : Toc)
  | comment (id : Nat) (c : Comment)
  | footnote (id : Nat) (content : List Paragraph)
  | picture (p : Pic)

/-- Items with the containers around them. -/
abbrev Walk := List (List Place × Item)

mutual

def walkRun (w : List Place) : Run → Walk
  | ⟨pr, cs⟩ => (w, .run ⟨pr, cs⟩) :: walkRunChildren (.run :: w) cs

def walkRunChild (w : List Place) : RunChild → Walk
  | .picture p => [(w, .runChild (.picture p)), (w, .picture p)]
  | .textBox bs => (w, .runChild (.textBox bs)) :: walkBlocks (.textBox :: w) bs
  | .commentStart i c =>
      (w, .runChild (.commentStart i c)) :: (w, .comment i c) :: walkComment (.comment :: w) c
  | .footnoteReference i s ps =>
      (w, .runChild (.footnoteReference i s ps)) :: (w, .footnote i ps)
        :: walkParagraphs (.footnote :: w) ps
  | .text t => [(w, .runChild (.text t))]
  | .sym f c => [(w, .runChild (.sym f c))]
  | .deleteText t => [(w, .runChild (.deleteText t))]
  | .tab => [(w, .runChild .tab)]
  | .ptab t => [(w, .runChild (.ptab t))]
  | .brk t => [(w, .runChild (.brk t))]
  | .carriageReturn => [(w, .runChild .carriageReturn)]
  | .emptyDrawing => [(w, .runChild .emptyDrawing)]
  | .shape s => [(w, .runChild (.shape s))]
  | .commentEnd i => [(w, .runChild (.commentEnd i))]
  | .fieldChar t d => [(w, .runChild (.fieldChar t d))]
  | .instrText i => [(w, .runChild (.instrText i))]
  | .deleteInstrText i => [(w, .runChild (.deleteInstrText i))]
  | .instrTextString s => [(w, .runChild (.instrTextString s))]
  | .shading s => [(w, .runChild (.shading s))]

def walkRunChildren (w : List Place) : List RunChild → Walk
  | [] => []
  | c :: cs => walkRunChild w c ++ walkRunChildren w cs

/-- The blocks of a comment. -/
def walkComment (w : List Place) : Comment → Walk
  | ⟨_, _, _, bs, _⟩ => walkBlocks w bs

def walkBlock (w : List Place) : Block → Walk
  | .paragraph p => walkParagraph w p
  | .table t => walkTable w t

def walkBlocks (w : List Place) : List Block → Walk
  | [] => []
  | b :: bs => walkBlock w b ++ walkBlocks w bs

def walkDelete (w : List Place) : Delete → Walk
  | ⟨_, _, cs⟩ => walkDeleteChildren w cs

def walkDeleteChild (w : List Place) : DeleteChild → Walk
  | .run r => walkRun w r
  | .commentStart i c => (w, .comment i c) :: walkComment (.comment :: w) c
  | .commentEnd _ => []

def walkDeleteChildren (w : List Place) : List DeleteChild → Walk
  | [] => []
  | c :: cs => walkDeleteChild w c ++ walkDeleteChildren w cs

def walkInsert (w : List Place) : Insert → Walk
  | ⟨_, _, cs⟩ => walkInsertChildren w cs

def walkInsertChild (w : List Place) : InsertChild → Walk
  | .run r => walkRun w r
  | .delete d => walkDelete (.delete :: w) d
  | .commentStart i c => (w, .comment i c) :: walkComment (.comment :: w) c
  | .commentEnd _ => []

def walkInsertChildren (w : List Place) : List InsertChild → Walk
  | [] => []
  | c :: cs => walkInsertChild w c ++ walkInsertChildren w cs

def walkHyperlink (w : List Place) : Hyperlink → Walk
  | ⟨l, h, cs⟩ => (w, .hyperlink ⟨l, h, cs⟩) :: walkParagraphChildren (.hyperlink :: w) cs

def walkParagraphChild (w : List Place) : ParagraphChild → Walk
  | .run r => walkRun w r
  | .insert i => walkInsert (.insert :: w) i
  | .delete d => walkDelete (.delete :: w) d
  | .moveFrom d => walkDelete (.moveFrom :: w) d
  | .moveTo i => walkInsert (.moveTo :: w) i
  | .hyperlink h => walkHyperlink w h
  | .commentStart i c => (w, .comment i c) :: walkComment (.comment :: w) c
  | .sdt s => walkSdt w s
  | .bookmarkStart _ _ | .bookmarkEnd _ | .commentEnd _ | .pageNum _ | .numPages _ => []

def walkParagraphChildren (w : List Place) : List ParagraphChild → Walk
  | [] => []
  | c :: cs => walkParagraphChild w c ++ walkParagraphChildren w cs

def walkParagraph (w : List Place) : Paragraph → Walk
  | ⟨i, cs, pr, n⟩ => (w, .paragraph ⟨i, cs, pr, n⟩) :: walkParagraphChildren (.paragraph :: w) cs

def walkParagraphs (w : List Place) : List Paragraph → Walk
  | [] => []
  | p :: ps => walkParagraph w p ++ walkParagraphs w ps

def walkSdt (w : List Place) : Sdt → Walk
  | ⟨cs, pr, n⟩ => (w, .sdt ⟨cs, pr, n⟩) :: walkSdtChildren (.sdt :: w) cs

def walkSdtChild (w : List Place) : SdtChild → Walk
  | .run r => walkRun w r
  | .paragraph p => walkParagraph w p
  | .table t => walkTable w t
  | .commentStart i c => (w, .comment i c) :: walkComment (.comment :: w) c
  | .sdt s => walkSdt w s
  | .bookmarkStart _ _ | .bookmarkEnd _ | .commentEnd _ => []

def walkSdtChildren (w : List Place) : List SdtChild → Walk
  | [] => []
  | c :: cs => walkSdtChild w c ++ walkSdtChildren w cs

def walkTable (w : List Place) : Table → Walk
  | ⟨rs, g, n, pr⟩ => (w, .table ⟨rs, g, n, pr⟩) :: walkRows w rs

def walkRow (w : List Place) : Row → Walk
  | ⟨cs, _, _⟩ => walkCells w cs

def walkRows (w : List Place) : List Row → Walk
  | [] => []
  | r :: rs => walkRow w r ++ walkRows w rs

def walkCell (w : List Place) : Cell → Walk
  | ⟨cs, pr, hn⟩ => (w, .cell ⟨cs, pr, hn⟩) :: walkCellContents (.cell :: w) cs

def walkCells (w : List Place) : List Cell → Walk
  | [] => []
  | c :: cs => walkCell w c ++ walkCells w cs

def walkCellContent (w : List Place) : CellContent → Walk
  | .paragraph p => walkParagraph w p
  | .table t => walkTable w t
  | .sdt s => walkSdt w s
  | .toc t => walkToc w t

def walkCellContents (w : List Place) : List CellContent → Walk
  | [] => []
  | c :: cs => walkCellContent w c ++ walkCellContents w cs

def walkToc (w : List Place) : Toc → Walk
  | ⟨a, b, c, d, e, f, g, bs, as, j, k⟩ =>
      (w, .toc ⟨a, b, c, d, e, f, g, bs, as, j, k⟩)
        :: (walkBlocks (.tocBefore :: w) bs ++ walkBlocks (.tocAfter :: w) as)

end

def walkHeaderChild (w : List Place) : HeaderChild → Walk
  | .paragraph p => walkParagraph w p
  | .table t => walkTable w t
  | .sdt s => walkSdt w s

def walkHeader (w : List Place) (h : Header) : Walk := h.children.flatMap (walkHeaderChild w)

/-- The headers and footers of a section, in the order default, first, even. -/
def walkSectionProperty (w : List Place) (p : SectionProperty) : Walk :=
  ([p.header, p.firstHeader, p.evenHeader].filterMap id).flatMap
      (fun x => walkHeader (.header :: w) x.2) ++
  ([p.footer, p.firstFooter, p.evenFooter].filterMap id).flatMap
      (fun x => walkHeader (.footer :: w) x.2)

def walkSectionChild (w : List Place) : SectionChild → Walk
  | .paragraph p => walkParagraph w p
  | .table t => walkTable w t
  | .commentStart i c => (w, .comment i c) :: walkComment (.comment :: w) c
  | .sdt s => walkSdt w s
  | .toc t => walkToc w t
  | .bookmarkStart _ _ | .bookmarkEnd _ | .commentEnd _ => []

def walkSection (w : List Place) (s : Section) : Walk :=
  s.children.flatMap (walkSectionChild (.section :: w)) ++ walkSectionProperty (.section :: w) s.property

def walkDocumentChild (w : List Place) : DocumentChild → Walk
  | .paragraph p => walkParagraph w p
  | .table t => walkTable w t
  | .commentStart i c => (w, .comment i c) :: walkComment (.comment :: w) c
  | .sdt s => walkSdt w s
  | .toc t => walkToc w t
  | .section s => walkSection w s
  | .bookmarkStart _ _ | .bookmarkEnd _ | .commentEnd _ => []

def walkDocument (d : Document) : Walk :=
  d.children.flatMap (walkDocumentChild [.document]) ++
    walkSectionProperty [.document] d.sectionProperty

/-- The items whose containers satisfy a condition. -/
def Walk.within (keep : List Place → Bool) (l : Walk) : List Item :=
  (l.filter (fun x => keep x.1)).map Prod.snd

/-- The id of a paragraph item. -/
def Item.paraId? : Item → Option Str
  | .paragraph p => some p.id
  | _ => none

end Docx.Spec
