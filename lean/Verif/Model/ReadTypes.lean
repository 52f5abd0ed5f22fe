import Verif.Model.PackageParts
import Verif.Model.XmlParser

/-!
# Reading content types (`ContentTypes::from_xml`)
-/

namespace Docx

open Docx.Xml

/-- The loop of `from_xml`. content_types.rs:179-203. The arguments are the events, the depth and the table so far. `none` is the panic
of `attributes[0]` or `attributes[1]` on an element with fewer attributes. An `Err` ends the stream (xml_parser.rs:225-228). -/
def readTypes : List REvent → Int → List (Str × Str) → Option (List (Str × Str))
  | [], _, t => some t
  | .start _ as :: es, depth, t =>
    if depth = 1 then
      match as with
      | a :: b :: _ => readTypes es (depth + 1) (insertType b.2 a.2 t)
      | _ => none
    else readTypes es (depth + 1) t
  | .«end» _ :: es, depth, t => readTypes es (depth - 1) t
  | .chars _ :: es, depth, t => readTypes es depth t
  | .whitespace _ :: es, depth, t => readTypes es depth t
  | .endDocument :: es, depth, t => readTypes es depth t
  | .error :: es, depth, t => readTypes es depth t

/-- The `types` of `ContentTypes::from_xml` on a text. content_types.rs:179-203. -/
def contentTypesFromXml (s : Str) : Option (List (Str × Str)) := readTypes (readEvents s) 0 []

end Docx
