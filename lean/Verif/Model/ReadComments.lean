import Verif.Model.ReadParts
import Verif.Model.Docx

/-!
# Readers of `word/comments.xml` and `word/commentsExtended.xml`, and the threads they describe
-/

namespace Docx

open Docx.Xml

/-- The loop of `<Comment as ElementReader>::read`: paragraphs are added, at any depth; tables are walked through. It does not stop at
the end of the document. reader/comment.rs:20-42. -/
def commentLoop (x : ReadEnv) (R : Readers) : Loop Comment where
  start c q as es :=
    match elementOf q.loc with
    | .paragraph => (readParagraph x R as es).map c.addParagraph
    | _ => .ok c es
  close := closesAt .comment

/-- The comment made from the attributes: the author is escaped (again). reader/comment.rs:12-19. -/
def commentOfAttrs (id : Nat) (as : Attrs) : Comment :=
  { id := id
    author := match attrNamed as c!"author" with
      | some a => escape a
      | none => c!"unnamed"
    date := match attrNamed as c!"date" with
      | some a => a
      | none => c!"1970-01-01T00:00:00Z" }

/-- `<Comment as ElementReader>::read`. A missing id is a panic. reader/comment.rs:7-44. -/
def readComment (x : ReadEnv) (R : Readers) (as : Attrs) (es : List REvent) : Read Comment :=
  match attrNamed as c!"id" with
  | none => .panic
  | some v => (orErr (usizeFromStr v) es).bind fun id es => (commentLoop x R).run R.fuel (commentOfAttrs id as) es

/-- The loop of `<Comments as FromXML>::from_xml`. reader/comments.rs:10-36. -/
def commentsLoop (x : ReadEnv) (R : Readers) : Loop (List Comment) where
  start l q as es :=
    match elementOf q.loc with
    | .comment => (readComment x R as es).map fun c => l ++ [c]
    | _ => .ok l es
  close := closesAt .comments
  atEnd := true

/-- `<Comments as FromXML>::from_xml` of a text, in at most `d` steps per loop and nesting. reader/comments.rs:6-38. -/
def readComments (x : ReadEnv) (d : Nat) (text : Str) : Read (List Comment) :=
  (commentsLoop x (readers x d)).run d [] (readEvents text)

/-- `<CommentExtended as ElementReader>::read`: a missing paragraph id is a panic (`none`). reader/comment_extended.rs:5-23. -/
def readCommentExtended (as : Attrs) : Option CommentExtended :=
  match attrNamed as c!"paraId" with
  | none => none
  | some p => some
    { paragraphId := p
      done := match attrNamed as c!"done" with
        | some v => !isFalse v
        | none => false
      parentParagraphId := attrNamed as c!"paraIdParent" }

/-- A record for a paragraph that has one already takes its place; another is put at the end.
reader/comments_extended.rs:20-29. -/
def putRecord (r : CommentExtended) : List CommentExtended → List CommentExtended
  | [] => [r]
  | a :: l => if a.paragraphId = r.paragraphId then r :: l else a :: putRecord r l

/-- The loop of `<CommentsExtended as FromXML>::from_xml`. reader/comments_extended.rs:10-50. -/
def commentsExtendedLoop : Loop (List CommentExtended) where
  start l q as es :=
    match elementOf q.loc with
    | .commentExtended =>
      match readCommentExtended as with
      | some r => .ok (putRecord r l) es
      | none => .panic
    | _ => .ok l es
  close := closesAt .commentsExtended
  atEnd := true

/-- `<CommentsExtended as FromXML>::from_xml` of a text, in at most `d` steps. reader/comments_extended.rs:6-52. -/
def readCommentsExtended (d : Nat) (text : Str) : Read (List CommentExtended) :=
  commentsExtendedLoop.run d [] (readEvents text)

/-! ## Threads -/

/-- `comment_id_by_paragraph`. reader/read_docx.rs:178-185. -/
def commentByParagraph (cs : List Comment) : List (Str × Nat) :=
  cs.foldl (fun m c => c.paragraphIds.foldl (fun m i => hashInsert i c.id m) m) []

/-- `parent_paragraph_by_paragraph`. reader/read_docx.rs:187-195. -/
def parentByParagraph (rs : List CommentExtended) : List (Str × Str) :=
  rs.foldl (fun m r => match r.parentParagraphId with
    | some p => hashInsert r.paragraphId p m
    | none => m) []

/-- The parent found through the first of the paragraphs that leads to a comment. reader/read_docx.rs:198-211. -/
def parentOf (ids : List (Str × Nat)) (parents : List (Str × Str)) : List Str → Option Nat
  | [] => none
  | i :: l =>
    match parents.lookup i with
    | none => parentOf ids parents l
    | some p =>
      match ids.lookup p with
      | some n => some n
      | none => parentOf ids parents l

/-- The comments with their parents. reader/read_docx.rs:176-214. -/
def threads (cs : List Comment) (rs : List CommentExtended) : List Comment :=
  if cs.isEmpty || rs.isEmpty then cs
  else
    cs.map fun c => { c with parent := parentOf (commentByParagraph cs) (parentByParagraph rs) c.paragraphIds }

end Docx
