import Verif.Model.Js
import Verif.Spec.Anchors

/-!
# Specification: what a JavaScript program put into a document

`jsContent` lists, in order, the texts, tabs, breaks, pictures and entries for a table of contents that a program gave
to the runs of a document, and `jsComments` the comments. `Item.shown` says what there is of this in a document of the
Rust library.
-/

namespace Docx.Spec

open Docx Docx.Xml

/-- A piece of content. -/
inductive Shown where
  | text (s : Str)
  | deletedText (s : Str)
  | tab
  | positionalTab (t : PositionalTab)
  | brk (t : BreakType)
  | carriageReturn
  | picture (bytes : List UInt8) (size : Nat × Nat) (floating : Bool) (rotation : Nat)
  | entry (text : Str) (omitsPageNumber : Bool) (level : Option Nat) (identifier : Option Str)
deriving DecidableEq

/-- What a reader sees of an item. -/
def Item.shown : Item → List Shown
  | .runChild (.text t) => (decodeText t).toList.map .text
  | .runChild (.deleteText t) => (decodeText t).toList.map .deletedText
  | .runChild .tab => [.tab]
  | .runChild (.ptab t) => [.positionalTab t]
  | .runChild (.brk t) => [.brk t]
  | .runChild .carriageReturn => [.carriageReturn]
  | .runChild (.picture p) => [.picture p.image p.size (decide (p.positionType = .anchor)) p.rot]
  | .runChild (.instrText (.tc i)) =>
    (decodeText i.text).toList.map fun t => .entry t i.omitsPageNumber i.level i.itemTypeIdentifier
  | _ => []

/-- A text without its line ends. -/
def oneLine (s : Str) : Str := s.filter fun c => c ≠ '\n' && c ≠ '\r'

variable (lib : ImageLib)

/-- What was put into a run with one call. -/
def JsRunChild.content : JsRunChild → List Shown
  | .text s => [.text (oneLine s)]
  | .deleteText s => [.deletedText (oneLine s)]
  | .tab => [.tab]
  | .carriageReturn => [.carriageReturn]
  | .brk t => if t = .unsupported then [] else [.brk t]
  | .image i => [.picture (lib i.data).1 (i.size.getD (lib i.data).2) i.floating i.rot]
  | .positionalTab t => [.positionalTab t]
  | .tc t o l i => [.entry (t.filter (· ≠ '\r')) o l i]

/-- What was put into a run. -/
def JsRun.content (r : JsRun) : List Shown := r.children.flatMap (JsRunChild.content lib)

/-- What was put into a link: it has methods for runs, insertions, deletions, bookmarks and comments only. -/
def jsLinkContent : List JsParagraphChild → List Shown
  | [] => []
  | .run r :: cs => JsRun.content lib r ++ jsLinkContent cs
  | .insert r _ _ :: cs => JsRun.content lib r ++ jsLinkContent cs
  | .delete r _ _ :: cs => JsRun.content lib r ++ jsLinkContent cs
  | _ :: cs => jsLinkContent cs

/-- What was put into the text of a paragraph, comments aside. -/
def jsChildContent : JsParagraphChild → List Shown
  | .run r => JsRun.content lib r
  | .insert r _ _ => JsRun.content lib r
  | .delete r _ _ => JsRun.content lib r
  | .hyperlink _ _ cs => jsLinkContent lib cs
  | _ => []

/-- What was put into the text of a paragraph, comments aside. -/
def JsParagraph.content (p : JsParagraph) : List Shown := p.children.flatMap (jsChildContent lib)

/-- What is in a table of contents given as the object of the Rust library. -/
def tocContent (w : List Place) (t : Toc) : List Shown := (Walk.within inPart (walkToc w t)).flatMap Item.shown

mutual

/-- What was put into a cell. -/
def jsCellsContent (w : List Place) : List JsCellChild → List Shown
  | [] => []
  | .paragraph p :: cs => JsParagraph.content lib p ++ jsCellsContent w cs
  | .table t :: cs => jsTableContent w t ++ jsCellsContent w cs
  | .toc t :: cs => tocContent w t ++ jsCellsContent w cs

/-- What was put into the cells of a row. -/
def jsRowContent (w : List Place) : List JsCell → List Shown
  | [] => []
  | ⟨cs, _, _⟩ :: r => jsCellsContent (.cell :: w) cs ++ jsRowContent w r

/-- What was put into the rows of a table. -/
def jsRowsContent (w : List Place) : List JsRow → List Shown
  | [] => []
  | ⟨cs, _, _⟩ :: r => jsRowContent w cs ++ jsRowsContent w r

/-- What was put into a table: row by row, cell by cell. -/
def jsTableContent (w : List Place) : JsTable → List Shown
  | ⟨rs, _, _, _⟩ => jsRowsContent w rs

end

/-- What was put into the body. -/
def JsChild.content : JsChild → List Shown
  | .paragraph p => JsParagraph.content lib p
  | .table t => jsTableContent lib [.document] t
  | .toc t => tocContent [.document] t
  | _ => []

/-- What was put into a document, in order. -/
def JsDocx.content (d : JsDocx) : List Shown := d.children.flatMap (JsChild.content lib)

/-- A comment as a program gave it. -/
structure GivenComment where
  id : Nat
  author : Option Str
  date : Option Str
  parent : Option Nat
  content : List (List Shown)
deriving DecidableEq

mutual

/-- The comments put into a paragraph, each before those in its text. -/
def jsChildrenComments : List JsParagraphChild → List GivenComment
  | [] => []
  | .comment c :: cs => jsCommentComments c ++ jsChildrenComments cs
  | .hyperlink _ _ l :: cs => jsLinkComments l ++ jsChildrenComments cs
  | _ :: cs => jsChildrenComments cs

/-- The comments put into a link. -/
def jsLinkComments : List JsParagraphChild → List GivenComment
  | [] => []
  | .comment c :: cs => jsCommentComments c ++ jsLinkComments cs
  | _ :: cs => jsLinkComments cs

/-- A comment and those in its text. -/
def jsCommentComments : JsComment → List GivenComment
  | ⟨id, author, date, parent, ps⟩ =>
    ⟨id, author, date, parent, ps.map (JsParagraph.content lib)⟩ :: jsParagraphsComments ps

/-- The comments in paragraphs. -/
def jsParagraphsComments : List JsParagraph → List GivenComment
  | [] => []
  | ⟨cs, _, _⟩ :: ps => jsChildrenComments cs ++ jsParagraphsComments ps

end

mutual

/-- The comments in a cell. -/
def jsCellsComments : List JsCellChild → List GivenComment
  | [] => []
  | .paragraph ⟨ps, _, _⟩ :: cs => jsChildrenComments lib ps ++ jsCellsComments cs
  | .table t :: cs => jsTableComments t ++ jsCellsComments cs
  | .toc _ :: cs => jsCellsComments cs

/-- The comments in a row. -/
def jsRowComments : List JsCell → List GivenComment
  | [] => []
  | ⟨cs, _, _⟩ :: r => jsCellsComments cs ++ jsRowComments r

/-- The comments in the rows of a table. -/
def jsRowsComments : List JsRow → List GivenComment
  | [] => []
  | ⟨cs, _, _⟩ :: r => jsRowComments cs ++ jsRowsComments r

/-- The comments in a table. -/
def jsTableComments : JsTable → List GivenComment
  | ⟨rs, _, _, _⟩ => jsRowsComments rs

end

/-- The comments put into a document, in order; those in tables of contents are not counted. -/
def jsComments (d : JsDocx) : List GivenComment :=
  d.children.flatMap fun
    | .paragraph p => jsChildrenComments lib p.children
    | .table t => jsTableComments lib t
    | _ => []

/-- What of a comment of the Rust library a program can tell: the paragraphs of its text, each with its content. -/
def commentSeen (c : Comment) : Nat × Str × Str × Option Nat × List (List Shown) :=
  (c.id, c.author, c.date, c.parent,
    c.children.map fun b => (Walk.within inPart (walkBlock [.comments] b)).flatMap Item.shown)

/-- The comment a program should find for one it gave: without an author `unnamed`, without a date the start of 1970. -/
def GivenComment.expected (g : GivenComment) : Nat × Str × Str × Option Nat × List (List Shown) :=
  (g.id, g.author.getD c!"unnamed", g.date.getD c!"1970-01-01T00:00:00Z", g.parent, g.content)

/-- The comments in a piece of a document, in order, not counting those inside tables of contents. -/
def commentsIn (l : Walk) : List Comment := l.filterMap fun
  | (w, .comment _ c) => if Place.tocBefore ∈ w ∨ Place.tocAfter ∈ w then none else some c
  | _ => none

end Docx.Spec
