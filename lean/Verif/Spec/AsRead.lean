import Verif.Spec.Walk

/-!
# What reading never gives

What a reader makes of the things in a document. A link outside has an id, but no address; a picture has an id, but no bytes. There are no
tables of contents, no footnotes, no comment ranges inside runs, and no instructions of fields in a form other than their text.
-/

namespace Docx.Spec

/-- The item is as a reader makes it. -/
def Item.AsRead : Item → Prop
  | .hyperlink h => ∀ id path, h.link = .external id path → path = []
  | .picture p => p.image = []
  | .toc _ => False
  | .footnote _ _ => False
  | .runChild (.instrText _) => False
  | .runChild (.deleteInstrText _) => False
  | .runChild (.footnoteReference _ _ _) => False
  | .runChild (.commentStart _ _) => False
  | .runChild (.commentEnd _) => False
  | .runChild (.shading _) => False
  | _ => True

end Docx.Spec
