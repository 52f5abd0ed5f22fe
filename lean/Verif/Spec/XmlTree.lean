import Verif.Model.Base

/-!
# Specification: element trees, their tags and their canonical text

Independent of the writer: plain recursive definitions.
-/

namespace Docx.Spec

open Docx

/-- An XML element or a piece of character data. Attribute values and text are in the form in
which they stand in the file (escaped). -/
inductive Node where
  | elem (name : Str) (attrs : List (Str × Str)) (children : List Node)
  | text (s : Str)

/-- The sequence of tags of a document, as a client of an event writer sends them. -/
inductive Tag where
  | opn (name : Str) (attrs : List (Str × Str))
  | cls
  | txt (s : Str)
deriving DecidableEq, Repr

/-- ` name="value"` for each attribute. -/
def printAttrs (attrs : List (Str × Str)) : Str :=
  attrs.flatMap fun a => ' ' :: a.1 ++ c!"=\"" ++ a.2 ++ ['"']

mutual
/-- Canonical text of a node: an element without children is self-closing. -/
def Node.print : Node → Str
  | .elem name attrs [] => '<' :: name ++ printAttrs attrs ++ c!" />"
  | .elem name attrs (c :: cs) =>
    '<' :: name ++ printAttrs attrs ++ ['>'] ++ (c.print ++ printForest cs) ++ c!"</" ++ name ++ ['>']
  | .text s => s
/-- Canonical text of a sequence of nodes. -/
def printForest : List Node → Str
  | [] => []
  | n :: ns => n.print ++ printForest ns
end

mutual
/-- The tags of a node in document order. -/
def Node.tags : Node → List Tag
  | .elem name attrs cs => .opn name attrs :: (tagsForest cs ++ [.cls])
  | .text s => [.txt s]
/-- The tags of a sequence of nodes. -/
def tagsForest : List Node → List Tag
  | [] => []
  | n :: ns => n.tags ++ tagsForest ns
end

/-- Number of elements opened by a sequence of tags. -/
def opens (ts : List Tag) : Nat := (ts.filter fun | .opn _ _ => true | _ => false).length

/-- Number of elements closed by a sequence of tags. -/
def closes (ts : List Tag) : Nat := (ts.filter fun | .cls => true | _ => false).length

/-- No prefix closes more than it opens. -/
def NeverUnderflows (ts : List Tag) : Prop := ∀ k, closes (ts.take k) ≤ opens (ts.take k)

end Docx.Spec
