import Verif.Spec.Walk

/-! # Specification: where comments start -/

namespace Docx.Spec

/-- Directly in a paragraph of the body or of a cell of a table of the body. -/
def inParagraphs : List Place → Bool
  | .paragraph :: w => w.all fun p => decide (p = .cell ∨ p = .document)
  | _ => false

end Docx.Spec
