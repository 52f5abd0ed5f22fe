import Verif.Model.XmlJson

/-!
# Reading a flat OPC file: the parts of a package kept in one XML text

Model of the part extraction in `docx-core/src/reader/read_xml.rs`. The code works on byte offsets
with `str::find`; all the searched patterns are ASCII, so a position right after a match is a
character boundary and cutting lists of characters gives the same pieces. The one place where an
offset is not right after a match is modelled by `skipByte`, which panics inside a longer character.
-/

namespace Docx.FlatOpc

/-- `s.find(pat)` and then `(&s[..i], &s[i + pat.len()..])`: the text before the first occurrence of
a non-empty pattern and the text after it. -/
def cut (pat : Str) : Str → Option (Str × Str)
  | [] => none
  | c :: s =>
    if pat.isPrefixOf (c :: s) then some ([], (c :: s).drop pat.length)
    else (cut pat s).map fun r => (c :: r.1, r.2)

/-- `str::replace(pat, by)`: non-overlapping occurrences from the left; `skip` counts the characters
of the occurrence being replaced that are still to be passed over. -/
def replaceAux (pat new : Str) : Nat → Str → Str
  | _, [] => []
  | n + 1, _ :: s => replaceAux pat new n s
  | 0, c :: s =>
    if pat.isPrefixOf (c :: s) then new ++ replaceAux pat new (pat.length - 1) s
    else c :: replaceAux pat new 0 s

/-- `str::replace` with a non-empty pattern. -/
def replaceStr (pat new s : Str) : Str := replaceAux pat new 0 s

/-- `decode_html_entities`. reader/read_xml.rs:196-212 -/
def decodeHtmlEntities (text : Str) : Str :=
  let text := replaceStr c!"\"\"" c!"\"" text
  replaceStr c!"&#62;" c!">" (replaceStr c!"&#60;" c!"<" (replaceStr c!"&#38;" c!"&"
    (replaceStr c!"&#34;" c!"\"" (replaceStr c!"&#39;" c!"'" (replaceStr c!"&apos;" c!"'"
    (replaceStr c!"&gt;" c!">" (replaceStr c!"&lt;" c!"<" (replaceStr c!"&amp;" c!"&"
    (replaceStr c!"&quot;" c!"\"" text)))))))))

/-- `&s[1..]`: one byte is skipped, which panics at the end of the text or inside a character of more
than one byte. Used for the offsets 12 and 19, one more than the length of the pattern
(reader/read_xml.rs:231, 258). -/
def skipByte : Str → Option Str
  | [] => none
  | c :: s => if c.toNat < 128 then some s else none

/-- What looking for one attribute of a part gives: a panic, no value (the part is skipped), or the
value. -/
inductive Found where
  | panic
  | missing
  | value (s : Str)
deriving DecidableEq, Repr

/-- The name and the content type are looked for in the same way: first `key=""`, then `key="`.
reader/read_xml.rs:228-253 and 255-280 -/
def attributeOf (key partXml : Str) : Found :=
  match cut (key ++ c!"=\"\"") partXml with
  | some (_, after) =>
    match skipByte after with
    | none => .panic
    | some rest =>
      match cut c!"\"\"" rest with
      | some (v, _) => .value (decodeHtmlEntities v)
      | none => .missing
  | none =>
    match cut (key ++ c!"=\"") partXml with
    | some (_, rest) =>
      match cut c!"\"" rest with
      | some (v, _) => .value v
      | none => .missing
    | none => .missing

/-- The content of a part: what is in `pkg:xmlData`, or what is in `pkg:binaryData` without the
white space around it. reader/read_xml.rs:282-308 -/
def partData (partXml : Str) : Option Str :=
  match cut c!"<pkg:xmlData>" partXml with
  | some (_, rest) => (cut c!"</pkg:xmlData>" rest).map Prod.fst
  | none =>
    match cut c!"<pkg:binaryData>" partXml with
    | some (_, rest) => (cut c!"</pkg:binaryData>" rest).map fun r => trimStr r.1
    | none => none

/-- `XmlPackagePart`. reader/read_xml.rs:188-194 -/
structure Part where
  name : Str
  contentType : Str
  data : Str
deriving DecidableEq, Repr

/-- One round of the loop for the text of one part: a panic (`none`), a part that is skipped, or a
part. reader/read_xml.rs:228-316 -/
def readPart (partXml : Str) : Option (List Part) :=
  match attributeOf c!"pkg:name" partXml with
  | .panic => none
  | .missing => some []
  | .value name =>
    match attributeOf c!"pkg:contentType" partXml with
    | .panic => none
    | .missing => some []
    | .value contentType =>
      match partData partXml with
      | none => some []
      | some data => some [⟨name, contentType, data⟩]

/-- The loop of `extract_xml_package_parts`; `fuel` bounds the rounds, each of which passes over at
least one character. `none`: the code panics. reader/read_xml.rs:218-321 -/
def extractLoop : Nat → Str → Option (List Part)
  | 0, _ => some []
  | fuel + 1, text =>
    match cut c!"<pkg:part" text with
    | none => some []
    | some (_, after) =>
      match cut c!"</pkg:part>" (c!"<pkg:part" ++ after) with
      | some (inner, rest) =>
        match readPart (inner ++ c!"</pkg:part>") with
        | none => none
        | some ps => (extractLoop fuel rest).map (ps ++ ·)
      | none => extractLoop fuel (c!"pkg:part" ++ after)

/-- `extract_xml_package_parts`. reader/read_xml.rs:214-324 -/
def extractParts (text : Str) : Option (List Part) := extractLoop (text.length + 1) text

end Docx.FlatOpc
