import Verif.Spec.Copied
import Verif.Spec.PackageXml
import Verif.Spec.ReadEnds

/-!
# Files all of whose strings can be copied into XML
-/

namespace Docx.Spec

open Docx Docx.Xml

/-- All strings a file holds, for every part, are fit to be copied into XML, and its custom items are well-formed. -/
structure AllCopied (d : DocxFile) : Prop extends Copied d where
  styles : ∀ s ∈ d.styles.strings, Stored s
  numberings : ∀ s ∈ d.numberings.strings, Stored s
  settings : ∀ s ∈ d.settings.strings, Stored s
  core : ∀ s ∈ d.core.strings, Stored s
  custom : ∀ v ∈ d.custom, Stored v.1 ∧ Stored v.2
  webExtensions : ∀ e ∈ d.webExtensions, ∀ s ∈ e.strings, Stored s
  itemIds : ∀ i ∈ d.customItemProps, Stored i
  items : ∀ x ∈ d.customItems, WellFormed (formatAll x)

end Docx.Spec
