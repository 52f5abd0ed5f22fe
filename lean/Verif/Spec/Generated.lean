import Verif.Spec.XmlTree

/-!
# Specification: two trees that differ only in generated ids

While a part is written, tracked changes take the next revision id and paragraphs made by the writer take the
next paragraph id. `withoutIds` is a tree without these attributes.
-/

namespace Docx.Spec

open Docx

/-- The attribute of an element that holds a number drawn while writing. -/
def generatedAttr (element : Str) : Option Str :=
  if element = c!"w:p" then some c!"w14:paraId"
  else if element ∈ [c!"w:ins", c!"w:del", c!"w:moveFrom", c!"w:moveTo", c!"w:pPrChange"] then some c!"w:id"
  else none

mutual
/-- A node without generated ids. -/
def Node.withoutIds : Node → Node
  | .elem name attrs children => .elem name (attrs.filter fun a => generatedAttr name ≠ some a.1) (withoutIds children)
  | .text s => .text s
/-- Nodes without generated ids. -/
def withoutIds : List Node → List Node
  | [] => []
  | n :: ns => n.withoutIds :: withoutIds ns
end

/-- Two XML texts with the same prolog whose element trees differ at most in generated ids. -/
def SameButIds (s t : Str) : Prop :=
  ∃ prolog f f', s = prolog ++ printForest f ∧ t = prolog ++ printForest f' ∧ withoutIds f = withoutIds f'

end Docx.Spec
