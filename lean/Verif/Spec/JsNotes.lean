import Verif.Spec.JsMade

/-!
# Specification: content without footnotes
-/

namespace Docx.Spec

open Docx

/-- An item is not a footnote. -/
def NoFootnote : Item → Prop
  | .footnote _ _ => False
  | _ => True

/-- There are no footnotes before and after the entries of a table of contents. -/
def TocNoteless (t : Toc) : Prop := ∀ w, ∀ x ∈ walkToc w t, NoFootnote x.2

end Docx.Spec
