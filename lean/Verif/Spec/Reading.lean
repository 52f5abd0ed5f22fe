import Verif.Spec.XmlRead
import Verif.Spec.Collect

/-!
# Specification: what a reader finds in a part

Everything here is about the events the XML reader reports for the text of a part.
-/

namespace Docx.Spec

open Docx Docx.Xml

/-- The character data up to an end tag, when nothing else comes before it. -/
def closedText : List REvent → Option Str
  | .chars t :: r => (closedText r).map (t ++ ·)
  | .whitespace t :: r => (closedText r).map (t ++ ·)
  | .«end» _ :: _ => some []
  | _ => none

/-- The text of every element named `q` that holds only text, in document order. -/
def eventTexts (q : QName) : List REvent → List Str
  | [] => []
  | .start n _ :: r => (if n = q then (closedText r).toList else []) ++ eventTexts q r
  | _ :: r => eventTexts q r

/-- The values of attribute `a` of all elements named `q`, in document order. -/
def eventAttrs (q a : QName) : List REvent → List Str
  | [] => []
  | .start n as :: r =>
    (if n = q then (as.filter fun x => decide (x.1 = a)).map Prod.snd else []) ++ eventAttrs q a r
  | _ :: r => eventAttrs q a r

/-- The names and attributes of all elements, in document order. -/
def eventStarts : List REvent → List (QName × List (QName × Str))
  | [] => []
  | .start n as :: r => (n, as) :: eventStarts r
  | _ :: r => eventStarts r

/-- The names of the elements directly inside an element, from the events after its start tag. `depth` of the
elements inside it are open. -/
def childNames : Nat → List REvent → List QName
  | _, [] => []
  | depth, .start n _ :: r => (if depth = 0 then [n] else []) ++ childNames (depth + 1) r
  | depth, .«end» _ :: r => if depth = 0 then [] else childNames (depth - 1) r
  | depth, _ :: r => childNames depth r

/-- For every element named `q`, in document order, the names of the elements directly inside it. -/
def eventChildren (q : QName) : List REvent → List (List QName)
  | [] => []
  | .start n _ :: r => (if n = q then [childNames 0 r] else []) ++ eventChildren q r
  | _ :: r => eventChildren q r

/-! The same things in an element tree. -/

/-- The decoded text of nodes that are all text. -/
def plainText : List Node → Option Str
  | [] => some []
  | .text s :: f =>
    match decodeText s, plainText f with
    | some d, some t => some (d ++ t)
    | _, _ => none
  | .elem .. :: _ => none

/-- The text of an element with the given name. -/
def textIn (name : Str) : Str → List (Str × Str) → List Node → List Str :=
  fun n _ cs => if n = name then (plainText cs).toList else []

/-- The decoded value of an attribute of an element with the given name. -/
def attrIn (name attr : Str) : Str → List (Str × Str) → List Node → List Str :=
  fun n as _ => if n = name then (as.filter fun a => decide (a.1 = attr)).filterMap fun a => decodeAttr a.2 else []

/-- The names of the elements of a sequence of nodes. -/
def topNames : List Node → List Str
  | [] => []
  | .elem n _ _ :: f => n :: topNames f
  | .text _ :: f => topNames f

/-- The names of the elements directly inside an element with the given name. -/
def childrenIn (name : Str) : Str → List (Str × Str) → List Node → List (List Str) :=
  fun n _ cs => if n = name then [topNames cs] else []

end Docx.Spec
