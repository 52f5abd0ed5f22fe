import Verif.Model.XmlWriter
import Verif.Spec.XmlTree

/-! # Tags as events of the modelled writer -/

namespace Docx.Xml

open Docx Docx.Spec

/-- The writer event of a tag. -/
def tagEvent : Tag → Event
  | .opn n as => open_ n as
  | .cls => .«end»
  | .txt s => .chars s

end Docx.Xml
