import Verif.Spec.Anchors

/-!
# Specification: balanced fields

A complex field is `begin`, optionally `separate`, `end`; fields nest.
-/

namespace Docx.Spec

open Docx

/-- The open fields after one field character, innermost first; `true` when the separator was seen. -/
def fieldStep (opened : List Bool) (s : Str) : Option (List Bool) :=
  if s = c!"begin" then some (false :: opened)
  else if s = c!"separate" then
    match opened with
    | false :: r => some (true :: r)
    | _ => none
  else if s = c!"end" then
    match opened with
    | _ :: r => some r
    | [] => none
  else none

/-- The open fields after a sequence of field characters. -/
def fieldRun : List Bool → List Str → Option (List Bool)
  | opened, [] => some opened
  | opened, s :: l => (fieldStep opened s).bind fun o => fieldRun o l

/-- Every field is ended, none is ended twice, and each has at most one separator. -/
def Balanced (l : List Str) : Prop := fieldRun [] l = some []
instance (l : List Str) : Decidable (Balanced l) := by unfold Balanced; infer_instance

/-- The field characters the user put into runs. -/
def Item.fieldType : Item → List Str
  | .runChild (.fieldChar t _) => [t.toStr]
  | _ => []

/-- A table of contents without entries whose first element after it is a table. -/
def tableFirst (t : Toc) : Bool :=
  t.items.isEmpty && (match t.after with | .table _ :: _ => true | _ => false)

end Docx.Spec
