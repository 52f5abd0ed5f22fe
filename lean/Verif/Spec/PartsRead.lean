import Verif.Spec.Kept
import Verif.Model.PackageParts
import Verif.Model.Docx

/-!
# What is expected to be read from the settings, the headers and the custom properties of a file
-/

namespace Docx.Spec

/-- Settings whose texts need no escaping and whose tab stop is a number of an `f32`. -/
structure Settings.Kept (s : Settings) : Prop where
  tab : s.defaultTabStop ≤ 2 ^ 24
  id : ∀ i, s.docId = some i → PlainValue i
  vars : ∀ v ∈ s.docVars, PlainValue v.1 ∧ PlainValue v.2

/-- A text without braces. -/
def unbraced (s : Str) : Str := s.filter fun c => c ≠ '{' ∧ c ≠ '}'

/-- What comes back of settings: not the zoom, not braces in the id, not a spacing that is `unsupported`. -/
def afterSettings (s : Settings) : Settings :=
  { s with
    zoom := 100
    docId := s.docId.map unbraced
    characterSpacingControl := if s.characterSpacingControl = some .unsupported then none else s.characterSpacingControl }

/-- The custom property a call sets. -/
def propertySet : Call → Option (Str × Str)
  | .customProperty name value => some (name, value)
  | _ => none

/-- The value last given to a custom property. -/
def lastProperty (cs : List Call) (name : Str) : Option Str :=
  (((cs.filterMap propertySet).filter fun p => decide (p.1 = name)).map Prod.snd).getLast?

/-- A text of nothing but spaces, tabs and line ends. -/
def blankText (t : Str) : Bool := t.all fun c => c = ' ' || c = '\t' || c = '\n' || c = '\r'

end Docx.Spec
