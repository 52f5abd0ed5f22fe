import Verif.Spec.Pictures
import Verif.Model.Api

/-!
# Specification: the comments and external links a package is made to know about
-/

namespace Docx.Spec

/-- A place of the body: a paragraph, table cell or table of contents, not in a section, a structured data tag (unless
that is directly in a table cell), a tracked insertion, or a part of its own. -/
def searched : List Place → Bool
  | [] => true
  | .sdt :: .cell :: w => searched w
  | .paragraph :: w | .cell :: w | .tocBefore :: w | .tocAfter :: w | .document :: w => searched w
  | _ => false

/-- The external link of a hyperlink: relationship id and address, as stored. -/
def Item.external? : Item → Option (Str × Str)
  | .hyperlink ⟨.external rid path, _, _⟩ => some (rid, path)
  | _ => none

/-- The comment that starts here. -/
def Item.comment? : Item → Option Comment
  | .comment _ c => some c
  | _ => none

/-- Directly in a paragraph, or in a hyperlink directly in a paragraph. -/
def inText : List Place → Bool
  | .paragraph :: w => searched w
  | .hyperlink :: .paragraph :: w => searched w
  | _ => false

/-- The external links of the body, in document order. -/
def bodyLinks (d : Document) : List (Str × Str) := ((walkDocument d).within searched).filterMap Item.external?

/-- The comments that start in the text of the body, in document order. -/
def bodyComments (d : Document) : List Comment := ((walkDocument d).within inText).filterMap Item.comment?

/-- The pictures and external links of the body carry ids and addresses as their constructors make them. -/
structure Made (d : Document) : Prop where
  pictures : ∀ p ∈ partPictures (walkDocument d), ∃ n, p.id = createPicRid n
  links : ∀ x ∈ bodyLinks d, ∃ n url, (Hyperlink.new n url .external).link = .external x.1 x.2

end Docx.Spec
