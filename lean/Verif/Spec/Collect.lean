import Verif.Spec.XmlTree

/-!
# Specification: picking things out of an element tree
-/

namespace Docx.Spec

open Docx

mutual
/-- What `own` finds in the elements of a tree, in document order. -/
def Node.collect {α : Type} (own : Str → List (Str × Str) → List Node → List α) : Node → List α
  | .elem n as cs => own n as cs ++ collectForest own cs
  | .text _ => []
/-- As `Node.collect`, for a sequence of nodes. -/
def collectForest {α : Type} (own : Str → List (Str × Str) → List Node → List α) : List Node → List α
  | [] => []
  | x :: f => x.collect own ++ collectForest own f
end

end Docx.Spec
