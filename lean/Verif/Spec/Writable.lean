import Verif.Spec.Walk

/-!
# Specification: content the writer does not support

The library reads text boxes and shapes and keeps `HYPERLINK` field instructions, but cannot write
them.
-/

namespace Docx.Spec

/-- Run content that cannot be written. -/
def Item.unwritable : Item → Bool
  | .runChild (.textBox _) => true
  | .runChild .emptyDrawing => true
  | .runChild (.shape _) => true
  | .runChild (.instrText (.hyperlink _)) => true
  | .runChild (.deleteInstrText (.hyperlink _)) => true
  | _ => false

/-- Containers whose content is not written where it stands: comments and footnotes have their own
parts, a text box is not written at all. -/
def elsewhere : Place → Bool
  | .comment | .footnote | .textBox => true
  | _ => false

/-- As `elsewhere`, in the main document part, where the header and footer bodies of the sections go to
their own parts too. -/
def elsewhereBody : Place → Bool
  | .comment | .footnote | .textBox | .header | .footer => true
  | _ => false

/-- Nothing that would have to be written here is unwritable. -/
def supported (away : Place → Bool) (l : Walk) : Bool :=
  (l.within fun w => !w.any away).all fun i => !i.unwritable

end Docx.Spec
