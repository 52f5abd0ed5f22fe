import Verif.Model.Docx
import Verif.Spec.Generated

/-!
# Specification: two packages that differ only in generated ids
-/

namespace Docx

open Docx.Spec

/-- The parts whose text holds generated ids. -/
def holdsContent (name : Str) : Prop :=
  name ∈ [c!"word/document.xml", c!"word/styles.xml", c!"word/comments.xml", c!"word/numbering.xml", c!"word/footnotes.xml"] ∨
    c!"word/header" <+: name ∨ c!"word/footer" <+: name

/-- Two archive entries with the same name and contents, except for generated ids in the parts that hold content. -/
def SameEntry (e e' : Entry) : Prop :=
  e = e' ∨ (holdsContent e.name ∧ e'.name = e.name ∧
    ∃ s t, e.content = .text s ∧ e'.content = .text t ∧ SameButIds s t)

/-- Writing the part draws no ids: it gives the same text whatever the generators hold, and leaves them alone. -/
def Part.WritesNoIds (p : Part) : Prop := ∀ g s g', p g = some (.ok s, g') → ∀ h, p h = some (.ok s, h)

end Docx
