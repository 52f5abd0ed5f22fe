import Verif.Spec.Walk
import Verif.Spec.XmlText
import Verif.Spec.Pictures
import Verif.Spec.Writable

/-!
# Specification: what single items of a document should leave in the written part
-/

namespace Docx.Spec

/-- The items of `word/document.xml` itself: not those in comments, footnotes, headers, footers and text boxes. -/
def bodyItems (d : Document) : List Item := (walkDocument d).within inPart

/-- The items of a header part itself. -/
def headerPartItems (h : Header) : List Item := (walkHeader [.header] h).within fun w => !w.any elsewhere
/-- The items of a footer part itself. -/
def footerPartItems (h : Header) : List Item := (walkHeader [.footer] h).within fun w => !w.any elsewhere
/-- The items of the comments part. -/
def commentPartItems (cs : List Comment) : List Item :=
  Walk.within (l := cs.flatMap (walkComment [.comments])) fun w => !w.any elsewhere
/-- The items of the footnotes part. -/
def footnotePartItems (fs : List Footnote) : List Item :=
  Walk.within (l := fs.flatMap fun f => walkParagraphs [.footnotes] f.content) fun w => !w.any elsewhere

/-- The text of a piece of run content, as a reader sees it. -/
def Item.text : Item → List Str
  | .runChild (.text t) => (decodeText t).toList
  | _ => []

/-- The text of a piece of deleted run content, as a reader sees it. -/
def Item.deletedText : Item → List Str
  | .runChild (.deleteText t) => (decodeText t).toList
  | _ => []

/-- The relationship id of a picture. -/
def Item.pictureId : Item → List Str
  | .picture p => (decodeAttr p.id).toList
  | _ => []

/-- The id of a footnote reference, in decimal. -/
def Item.footnoteId : Item → List Str
  | .footnote i _ => [dec i]
  | _ => []

/-- The id a comment range starts with, in decimal. -/
def Item.commentId : Item → List Str
  | .comment i _ => [dec i]
  | _ => []

/-- The relationship id of an external hyperlink. -/
def Item.linkId : Item → List Str
  | .hyperlink ⟨.external rid _, _, _⟩ => (decodeAttr rid).toList
  | _ => []

/-- The id of a paragraph. -/
def Item.paragraphId : Item → List Str
  | .paragraph p => (decodeAttr p.id).toList
  | _ => []

end Docx.Spec
