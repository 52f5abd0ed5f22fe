import Verif.Model.Docx
import Verif.Spec.Strings
import Verif.Spec.Dependencies
import Verif.Spec.ParaIds
import Verif.Spec.BlankIds
import Verif.Spec.Reading

/-!
# Strings of a whole file, comments and their records
-/

namespace Docx.Spec

open Docx Docx.Xml

/-- All strings a file holds for its main document, headers, footers, comments and footnotes are fit to be copied into XML. -/
structure Copied (d : DocxFile) : Prop where
  body : ∀ s ∈ d.document.strings, Stored s
  ids : ∀ i ∈ bodyIds (walkStory ⟨d.document, d.comments, d.footnotes⟩), Stored i
  headers : ∀ x ∈ headersOf d.document, ∀ s ∈ x.strings, Stored s
  footers : ∀ x ∈ footersOf d.document, ∀ s ∈ x.strings, Stored s
  comments : ∀ c ∈ d.comments ++ bodyComments d.document, ∀ s ∈ c.strings, Stored s
  footnotes : ∀ f ∈ d.footnotes ++ partFootnotes (walkDocument d.document), ∀ s ∈ f.strings, Stored s
  records : ∀ r ∈ d.commentsExtended, Stored r.paragraphId ∧ ∀ i, r.parentParagraphId = some i → Stored i

/-- The paragraphs directly in a comment. -/
def directParagraphs (c : Comment) : List Paragraph := c.children.filterMap fun | .paragraph p => some p | .table _ => none

/-- What a reader finds in an element `w15:commentEx`: the paragraph and the paragraph of the parent. -/
structure CommentRecord where
  paragraph : Option Str
  parent : Option Str
deriving DecidableEq

/-- The value of an attribute among those read. -/
def valueOf (q : QName) (as : List (QName × Str)) : Option Str := (as.find? fun x => decide (x.1 = q)).map Prod.snd

/-- The records of a `word/commentsExtended.xml`, as read. -/
def readRecords (l : List REvent) : List CommentRecord :=
  (eventStarts l).filterMap fun x =>
    if x.1 = ⟨some c!"w15", c!"commentEx"⟩ then
      some ⟨valueOf ⟨some c!"w15", c!"paraId"⟩ x.2, valueOf ⟨some c!"w15", c!"paraIdParent"⟩ x.2⟩
    else none

/-- The paragraph id of the last paragraph of a comment, as a reader finds it. -/
def lastId (c : Comment) : Option Str := (directParagraphs c).getLast?.bind fun p => decodeAttr p.id

/-- The record for a comment: its last paragraph and, if it is a reply, the last paragraph of the comment it replies to. A reply to a
comment that is not there has none. -/
def recordFor (all : List Comment) (c : Comment) : Option CommentRecord :=
  match c.parent with
  | none => some ⟨lastId c, none⟩
  | some n => (all.find? fun p => decide (p.id = n)).map fun p => ⟨lastId c, lastId p⟩

/-- The records that are written: one for every paragraph of every comment. A reply names the last paragraph of the last comment with
its parent's id that has one. -/
def recordsFor (all : List Comment) : List CommentRecord :=
  all.flatMap fun c => (directParagraphs c).flatMap fun p =>
    match c.parent with
    | none => [⟨decodeAttr p.id, none⟩]
    | some n => ((all.filter fun q => decide (q.id = n)).flatMap directParagraphs).getLast?.toList.map fun q => ⟨decodeAttr p.id, decodeAttr q.id⟩

end Docx.Spec
