import Verif.Model.Docx
import Verif.Spec.Writable

/-!
# Specification: documents without content the writer does not support
-/

namespace Docx.Spec

/-- Nothing in the document, its headers and footers, its comments and its footnotes is unsupported. -/
structure Writable (d : DocxFile) : Prop where
  document : ∀ x ∈ walkDocument d.document, x.2.unwritable = false
  comments : ∀ c ∈ d.comments, ∀ x ∈ walkComment [.comments] c, x.2.unwritable = false
  footnotes : ∀ f ∈ d.footnotes, ∀ x ∈ walkParagraphs [.footnotes] f.content, x.2.unwritable = false

end Docx.Spec
