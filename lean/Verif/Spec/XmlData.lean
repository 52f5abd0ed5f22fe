import Verif.Model.XmlJson
import Verif.Spec.XmlRead

/-!
# Specification: what a reader must find in a printed XML value

Nothing here refers to the printer or to the parser of `xml_json/mod.rs`.
-/

namespace Docx.Spec

open Docx Docx.Xml

mutual
/-- The tags of an XML value. -/
def dataTags : XmlData → List Tag
  | .mk name as data children => .opn name as :: ((data.map Tag.txt).toList ++ dataTagsAll children ++ [.cls])
def dataTagsAll : List XmlData → List Tag
  | [] => []
  | x :: xs => dataTags x ++ dataTagsAll xs
end

/-- White space in the sense of XML. -/
def xmlSpace (c : Char) : Prop := c = ' ' ∨ c = '\t' ∨ c = '\n' ∨ c = '\r'

instance (c : Char) : Decidable (xmlSpace c) := by unfold xmlSpace; infer_instance

/-- The text that a reader reports for `some` stored text: nothing when it is only white space, otherwise the decoded text without white
space (in the sense of Unicode) around it. -/
def readText (data : Option Str) : Option Str :=
  match data.bind decodeText with
  | none => none
  | some d => if ∀ c ∈ d, xmlSpace c then none else some (trimStr d)

mutual
/-- What a reader finds in a printed XML value: references in attribute values and in text are decoded, and text is trimmed. -/
def readData : XmlData → XmlData
  | .mk name as data children =>
    .mk name (as.map fun a => (a.1, (decodeAttr a.2).getD [])) (readText data) (readDataAll children)
def readDataAll : List XmlData → List XmlData
  | [] => []
  | x :: xs => readData x :: readDataAll xs
end

/-- A name of an element or attribute: non-empty, no delimiters, and not ending in a colon. -/
def DataName (n : Str) : Prop := NameOk n ∧ n.getLast? ≠ some ':'

instance (n : Str) : Decidable (DataName n) := by unfold DataName NameOk; infer_instance

mutual
/-- A value whose printed form is XML: names are names, attribute values and texts are XML attribute values and character data. -/
def XmlOk : XmlData → Prop
  | .mk name as data children =>
    DataName name ∧ (∀ a ∈ as, DataName a.1 ∧ (decodeAttr a.2).isSome) ∧ (∀ d ∈ data, (decodeText d).isSome ∧ '\r' ∉ d) ∧
      XmlOkAll children
def XmlOkAll : List XmlData → Prop
  | [] => True
  | x :: xs => XmlOk x ∧ XmlOkAll xs
end

/-- A text that is not empty, has no `&`, `<` or carriage return, and no white space around it. -/
def PlainText (d : Str) : Prop := d ≠ [] ∧ (∀ c ∈ d, c ∉ ['&', '<', '\r']) ∧ trimStr d = d

instance (d : Str) : Decidable (PlainText d) := by unfold PlainText; infer_instance

mutual
/-- A value whose strings have nothing that XML treats specially: no `&`, `<`, `"` or line break, and texts are not empty and have no white
space around them. -/
def PlainData : XmlData → Prop
  | .mk name as data children =>
    DataName name ∧ (∀ a ∈ as, DataName a.1 ∧ ∀ c ∈ a.2, c ∉ ['&', '<', '"', '\t', '\n', '\r']) ∧
      (∀ d ∈ data, PlainText d) ∧ PlainDataAll children
def PlainDataAll : List XmlData → Prop
  | [] => True
  | x :: xs => PlainData x ∧ PlainDataAll xs
end

/-- Are the elements of an event stream properly nested, with every end tag naming the element it ends, every element ended and no text
outside all elements? The first argument is the list of names of the open elements. -/
def nested : List Str → List REvent → Bool
  | [], [] => true
  | _ :: _, [] => false
  | open_, .start name _ :: es => nested (formatName name :: open_) es
  | [], .chars _ :: _ => false
  | n :: open_, .chars _ :: es => nested (n :: open_) es
  | [], .«end» _ :: _ => false
  | n :: open_, .«end» name :: es => decide (n = formatName name) && nested open_ es
  | open_, .whitespace _ :: es => nested open_ es
  | open_, .endDocument :: es => nested open_ es
  | open_, .error :: es => nested open_ es

end Docx.Spec
