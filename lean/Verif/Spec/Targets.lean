import Verif.Spec.References
import Verif.Model.ReadRels

/-!
# Specification: what looking up relationships should give
-/

namespace Docx.Spec

open Docx Docx.Xml

/-- The place a relationship of a part in the folder leads to. The target of a hyperlink is not a part of the package. -/
def placeOf (folder : Str) (r : Relation) : Str :=
  if r.type = c!"http://schemas.openxmlformats.org/officeDocument/2006/relationships/hyperlink" then r.target
  else folder ++ c!"/" ++ r.target

/-- Asking for a type gives exactly the relationships with that type, each with its id, its place and its mode, in the order of
their ids. -/
structure Finds (m : ReadRels) (folder : Str) (rs : List Relation) : Prop where
  mem : ∀ ty t, (∃ ts, m.targets ty = some ts ∧ t ∈ ts) ↔ ∃ r ∈ rs, r.type = ty ∧ t = ⟨r.id, placeOf folder r, r.mode⟩
  order : ∀ ty ts, m.targets ty = some ts → ts.Pairwise fun a b => compareStr a.rid b.rid = .lt

/-- The relationships of a part are read as they stand in its relationship file, given enough steps. -/
def ReadsRelations (es : List Entry) (part folder : Str) (rs : List Relation) : Prop :=
  ∃ m k, (∀ n, k ≤ n → readPartRels n es part = .ok m) ∧ Finds m folder rs

end Docx.Spec
