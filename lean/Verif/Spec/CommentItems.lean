import Verif.Spec.BodyItems

/-!
# Specification: comments as the caller thinks of them

A comment has an id, an author, a date, the comment it answers and paragraphs. `commentOf` puts it together through the building
interface, `seenComment` says what is in a comment. Nothing here refers to the writer or the reader.
-/

namespace Docx.Spec

/-- A comment: each paragraph has an id, formatting and parts. -/
structure CommentItem where
  id : Nat
  author : Str
  date : Str
  parent : Option Nat
  paragraphs : List (Str × ParagraphProperty × List ParagraphPart)

/-- The comment, put together through the building interface. -/
def commentOf (c : CommentItem) : Comment :=
  let made := c.paragraphs.foldl (fun m p => m.addParagraph (paragraphOf p.1 p.2.1 p.2.2))
    (((Comment.new c.id).setAuthor c.author).setDate c.date)
  match c.parent with
  | none => made
  | some n => made.setParent n

/-- What is in a paragraph, if all its parts are known ones. -/
def seenBlock : Block → Option (Str × ParagraphProperty × List ParagraphPart)
  | .paragraph p => (allThere (p.children.map seenPart)).map fun parts => (p.id, p.property, parts)
  | .table _ => none

/-- What is in a comment, if it holds paragraphs of known parts only. -/
def seenComment (c : Comment) : Option CommentItem :=
  (allThere (c.children.map seenBlock)).map fun ps => ⟨c.id, c.author, c.date, c.parent, ps⟩

/-- A comment that can be written and read back: the id fits, author and date can be read in an attribute. -/
structure CommentItem.Kept (c : CommentItem) : Prop where
  id : c.id < 2 ^ 64
  author : Stored c.author
  date : PlainValue c.date
  paragraphs : ∀ p ∈ c.paragraphs, KeptItem (.paragraph p.1 p.2.1 p.2.2)

/-- What becomes of an author: it is taken from the attribute and escaped. -/
def afterAuthor (a : Str) : Str := escape ((decodeAttr a).getD [])

/-- What becomes of a comment, apart from the comment it answers, of which its part says nothing. -/
def afterComment (c : CommentItem) : CommentItem :=
  { c with author := afterAuthor c.author, parent := none,
           paragraphs := c.paragraphs.map fun p => (p.1, p.2.1, p.2.2.map ParagraphPart.after) }

/-- The ids of the paragraphs left out. -/
def CommentItem.dropIds (c : CommentItem) : CommentItem := { c with paragraphs := c.paragraphs.map fun p => ([], p.2) }

/-- The comment that `c` answers, if there is one with this id and a paragraph. -/
def answered (all : List CommentItem) (c : CommentItem) : Option Nat :=
  c.parent.bind fun n => if all.any fun p => decide (p.id = n) && !p.paragraphs.isEmpty then some n else none

/-- What a reader finds of the comments of a body: each as often as it has paragraphs, with the comment it answers. -/
def afterComments (all : List CommentItem) : List CommentItem :=
  all.flatMap fun c => List.replicate c.paragraphs.length { afterComment c with parent := answered all c }

end Docx.Spec
