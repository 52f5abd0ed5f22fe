import Verif.Model.XmlParser

/-!
# Custom XML documents (`docx-core/src/xml_json/mod.rs`)

`XmlEvent::StartElement` always carries the empty namespace (reader/xml_parser.rs:198-209), so the test
`namespace == current_namespace` (124) is always true; the model leaves the namespace out.
-/

namespace Docx

open Docx.Xml

/-- `XmlData`. xml_json/mod.rs:45-54. -/
inductive XmlData where
  | mk (name : Str) (attributes : List (Str × Str)) (data : Option Str) (children : List XmlData)

/-- The attributes in `format`: no escaping. xml_json/mod.rs:61-63. -/
def formatAttributes (as : List (Str × Str)) : Str :=
  as.flatMap fun a => ' ' :: a.1 ++ c!"=\"" ++ a.2 ++ ['"']

mutual
/-- `XmlData::format`. xml_json/mod.rs:58-76. -/
def XmlData.format : XmlData → Str
  | .mk name as data children =>
    '<' :: name ++ formatAttributes as ++ ['>'] ++ data.getD [] ++ formatAll children ++ c!"</" ++ name ++ ['>']
/-- The loops over children and over a document's elements. xml_json/mod.rs:25-32,71-73. -/
def formatAll : List XmlData → Str
  | [] => []
  | x :: xs => x.format ++ formatAll xs
end

/-- `fmt_name`. xml_json/mod.rs:90-96,116-122,179-185. -/
def formatName (q : QName) : Str :=
  match q.pfx with
  | some p => if q.loc = [] then p else p ++ [':'] ++ q.loc
  | none => q.loc

/-- `char::is_whitespace` (Unicode `White_Space`), used by `str::trim`. xml_json/mod.rs:170. -/
def isUnicodeSpace (c : Char) : Bool :=
  let n := c.toNat
  (9 ≤ n && n ≤ 13) || n == 0x20 || n == 0x85 || n == 0xA0 || n == 0x1680 || (0x2000 ≤ n && n ≤ 0x200A) ||
    n == 0x2028 || n == 0x2029 || n == 0x202F || n == 0x205F || n == 0x3000

/-- `str::trim`. -/
def trimStr (s : Str) : Str := ((s.dropWhile isUnicodeSpace).reverse.dropWhile isUnicodeSpace).reverse

/-- Why `parse` stops: an `Err` of the source, or the bound of the model (`Lemmas/XmlJson.lean` shows the
bound is never reached). -/
inductive ParseFail where
  | invalid
  | fuel
deriving DecidableEq

/-- `map_owned_attributes`. xml_json/mod.rs:86-100. -/
def ownedAttributes (as : List (QName × Str)) : List (Str × Str) := as.map fun a => (formatName a.1, a.2)

/-- `parse` with `trim = true`. xml_json/mod.rs:102-207. The event vector is reversed and popped from the end, so
the model takes events from the front. The first argument bounds the depth of the recursion. -/
def parseData : Nat → List REvent → Option XmlData → List XmlData → Except ParseFail (List XmlData × List REvent)
  | 0, _, _, _ => .error .fuel
  | _ + 1, [], none, acc => .ok (acc, [])
  | _ + 1, [], some _, _ => .error .invalid
  | n + 1, .start name as :: es, current, acc =>
    match parseData n es (some (.mk (formatName name) (ownedAttributes as) none [])) [] with
    | .error e => .error e
    | .ok (inner, rest) =>
      match current with
      | some (.mk nm at' d cs) => parseData n rest (some (.mk nm at' d (cs ++ inner))) acc
      | none => parseData n rest none (acc ++ inner)
  | n + 1, .chars s :: es, some (.mk nm at' _ cs), acc => parseData n es (some (.mk nm at' (some (trimStr s)) cs)) acc
  | _ + 1, .chars _ :: _, none, _ => .error .invalid
  | _ + 1, .«end» name :: es, some (.mk nm at' d cs), acc =>
    if nm = formatName name then .ok (acc ++ [.mk nm at' d cs], es) else .error .invalid
  | _ + 1, .«end» _ :: _, none, _ => .error .invalid
  | n + 1, .whitespace _ :: es, current, acc => parseData n es current acc
  | n + 1, .endDocument :: es, current, acc => parseData n es current acc
  | n + 1, .error :: es, current, acc => parseData n es current acc

/-- `XmlDocument::from_str`. xml_json/mod.rs:210-221,238-240. `none` is the panic of `x.unwrap()` on an error event
of the reader. -/
def xmlDocumentFromStr (s : Str) : Option (Except ParseFail (List XmlData)) :=
  let es := readEvents s
  if es.any (fun e => decide (e = .error)) then none
  else some ((parseData (es.length + 1) es none []).map Prod.fst)

end Docx
