import Verif.Spec.Walk
import Verif.Model.ParaIds

/-!
# Specification for the paragraph id properties (C09, C10)
-/

namespace Docx.Spec

/-- Every item of the document, of the comments part and of the footnotes part. -/
def walkStory (x : Story) : Walk :=
  walkDocument x.document ++ x.comments.flatMap (walkComment [.comments]) ++
    x.footnotes.flatMap (fun f => walkParagraphs [.footnotes] f.content)

/-- Not inside the text of a footnote that is still attached to its reference, nor in a text box. -/
def inBody (w : List Place) : Bool := decide (Place.footnote ∉ w) && decide (Place.textBox ∉ w)

/-- The ids of the paragraphs in the body, headers, footers, comments and footnotes parts. -/
def bodyIds (l : Walk) : List Str := (l.within inBody).filterMap Item.paraId?

/-- The ids of all paragraphs, wherever they are. -/
def allIds (l : Walk) : List Str := (l.within (fun _ => true)).filterMap Item.paraId?

end Docx.Spec
