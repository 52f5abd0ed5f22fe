import Verif.Model.Docx

/-!
# Specification: custom items given to the builder
-/

namespace Docx.Spec

open Docx

/-- The ids and texts of the custom items added. -/
def givenItems (cs : List Call) : List (Str × Str) :=
  cs.filterMap fun | .addCustomItem i x => some (i, x) | _ => none

/-- For every custom item, the number of web extensions added before it. -/
def extensionsBefore : Nat → List Call → List Nat
  | _, [] => []
  | n, .webExtension _ :: cs => extensionsBefore (n + 1) cs
  | n, .addCustomItem _ _ :: cs => n :: extensionsBefore n cs
  | n, _ :: cs => extensionsBefore n cs

end Docx.Spec
