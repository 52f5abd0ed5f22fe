import Verif.Model.FlatOpc
import Verif.Model.ReadDocx

/-!
# Reading a flat OPC file (`reader/read_xml.rs`)

`extractParts` (Model/FlatOpc.lean) finds the parts; here is what `read_xml` makes of them. The map from names to contents is the list of
the parts, the last one with a name counts. `base64::engine::general_purpose::STANDARD.decode` is an external function and an argument.
-/

namespace Docx.FlatOpc

open Docx.Xml

/-- `part_map.get(name)`. reader/read_xml.rs:334-337. -/
def contentOf (ps : List Part) (name : Str) : Option Str := ((ps.filter fun p => p.name = name).getLast?).map (·.data)

/-- `if let Some(data) = … { if let Ok(value) = from_xml(data) { value } }`, with the value that stays otherwise. -/
def readIfThere {α : Type} (content : Option Str) (default : α) (read : Str → Got α) : Got α :=
  match content with
  | none => .ok default
  | some s => (read s).orElse default

/-- `document_path.replace("document.xml", "")`. reader/read_xml.rs:15,41,64,77,135. -/
def folderOf (path : Str) : Str := replaceStr c!"document.xml" [] path

/-- The same with `.trim_end_matches('/')`. reader/read_xml.rs:134-137,388-391,440-443,464-467,502-505,516-519. -/
def baseOf (path : Str) : Str := ((folderOf path).reverse.dropWhile (· = '/')).reverse

/-- The path of a header, a footer and the comments: the folder, a slash, and the target. reader/read_xml.rs:15,41,64,77. -/
def partPath (path target : Str) : Str := folderOf path ++ c!"/" ++ target

/-- The path of the other parts. reader/read_xml.rs:138,392,444,468,506,520. -/
def basePath (path target : Str) : Str := baseOf path ++ c!"/" ++ target

/-- The path with a slash in front, unless there is one. reader/read_xml.rs:395-399,447-451,471-475. -/
def withSlash (p : Str) : Str := if c!"/".isPrefixOf p then p else c!"/" ++ p

/-- `part_map.get(&path).or_else(|| part_map.get(&direct))`. reader/read_xml.rs:401-403,453-455,477-479. -/
def contentAt (ps : List Part) (p : Str) : Option Str := (contentOf ps p).or (contentOf ps (withSlash p))

/-- The target of the first relationship of a type. -/
def targetOf (rels : Rels) (ty : Str) : Option Str := (rels.findTarget ty).map fun t => t.2.2

/-- The relationships of the package. reader/read_xml.rs:346-353. -/
def mainRels (n : Nat) (ps : List Part) : Got Rels :=
  (Got.ofOption ((contentOf ps c!"_rels/.rels").or (contentOf ps c!"/_rels/.rels"))).bind fun s => (readPackageRels n s).got

/-- The relationships of the main document. reader/read_xml.rs:376-383. -/
def partRels (n : Nat) (ps : List Part) (path : Str) : Got Rels :=
  let p := replaceStr c!"document.xml" c!"_rels/document.xml.rels" path
  match (contentOf ps p).or (contentOf ps (c!"/" ++ p)) with
  | none => .ok ⟨[]⟩
  | some s => (readPackageRels n s).got

/-- `read_headers_from_xml`, `read_footers_from_xml`. reader/read_xml.rs:5-55. The parts have no relationships of their own. -/
def readSideParts (x : ReadEnv) (n : Nat) (ps : List Part) (path kind : Str) : List (Str × Str × Str) → Got (List (Str × Header × ReadRels))
  | [] => .ok []
  | t :: ts =>
    if t.1 = officeType kind then
      match contentOf ps (partPath path t.2.2) with
      | none => readSideParts x n ps path kind ts
      | some s =>
        match (readHeader x n s).got with
        | .ok h => (readSideParts x n ps path kind ts).bind fun l => .ok ((t.2.1, h, []) :: l)
        | .err => readSideParts x n ps path kind ts
        | .panic => .panic
        | .running => .running
    else readSideParts x n ps path kind ts

/-- The extended comments. reader/read_xml.rs:62-73. -/
def readRecords (n : Nat) (ps : List Part) (path : Str) (m : Rels) : Got (List CommentExtended) :=
  readIfThere ((targetOf m c!"http://schemas.microsoft.com/office/2011/relationships/commentsExtended").bind fun t =>
    contentOf ps (partPath path t)) [] fun s => (readCommentsExtended n s).got

/-- The comments, with their parents. reader/read_xml.rs:75-123. -/
def readNotes (x : ReadEnv) (n : Nat) (ps : List Part) (path : Str) (m : Rels) (records : List CommentExtended) : Got (List Comment) :=
  readIfThere ((targetOf m (officeType c!"comments")).bind fun t => contentOf ps (partPath path t)) [] fun s =>
    ((readComments x n s).got).bind fun cs => .ok (threads cs records)

/-- The text of the main document. reader/read_xml.rs:420-434. -/
def documentText (ps : List Part) (path : Str) : Option Str :=
  match (contentOf ps path).or (contentOf ps (c!"/" ++ path)) with
  | some s => some s
  | none => if c!"/".isPrefixOf path then contentOf ps (path.drop 1) else none

/-- The numberings: of the relationship, or else the first of two fixed paths that can be read. reader/read_xml.rs:463-498. -/
def readLists (x : ReadEnv) (n : Nat) (ps : List Part) (path : Str) (m : Rels) (default : Numberings) : Got Numberings :=
  match targetOf m (officeType c!"numbering") with
  | some t => readIfThere (contentAt ps (basePath path t)) default fun s => (readNumberings x n s).got
  | none =>
    let second := readIfThere (contentOf ps c!"word/numbering.xml") default fun s => (readNumberings x n s).got
    match contentOf ps c!"/word/numbering.xml" with
    | none => second
    | some s =>
      match (readNumberings x n s).got with
      | .err => second
      | o => o

/-- The text of a picture: the first of three paths that is there. reader/read_xml.rs:141-148. -/
def pictureText (ps : List Part) (path target : Str) : Option Str :=
  let p := basePath path target
  let bare := p.dropWhile (· = '/')
  ((contentOf ps p).or (contentOf ps (c!"/" ++ bare))).or (contentOf ps bare)

/-- The bytes of a picture: base 64 without white space, or the bytes of the text. reader/read_xml.rs:149-163. -/
def pictureBytes (base64 : Str → Option Bytes) (s : Str) : Bytes :=
  match base64 (s.filter fun c => !isUnicodeSpace c) with
  | some b => b
  | none => (String.ofList s).toUTF8.data.toList

/-- `add_images_from_xml`: previews are always made. reader/read_xml.rs:128-174,619-629. -/
def addPictures (e : FileEnv) (base64 : Str → Option Bytes) (ps : List Part) (path : Str) : List (Str × Str × Str) → ReadFile → Got ReadFile
  | [], r => .ok r
  | t :: ts, r =>
    if t.1 = officeType c!"image" then
      match pictureText ps path t.2.2 with
      | none => addPictures e base64 ps path ts r
      | some s => (r.addImage { e with previews := true } t.2.1 t.2.2 (pictureBytes base64 s)).bind (addPictures e base64 ps path ts)
    else addPictures e base64 ps path ts r

/-- The hyperlink: of the first relationship of the type, and the id that is noted is its first component, the type.
reader/read_xml.rs:631-635. -/
def withFirstLink (m : Rels) (r : ReadFile) : ReadFile :=
  match m.findTarget (officeType c!"hyperlink") with
  | none => r
  | some t => { r with hyperlinks := r.hyperlinks ++ [(t.1, t.2.2, c!"External")] }

/-- Everything behind the relationships of the main document. reader/read_xml.rs:385-638. `add_header_footer_images` does nothing
(reader/read_xml.rs:176-186), as `assignParts` does without relationships of the headers and footers. -/
def readXmlFrom (e : FileEnv) (base64 : Str → Option Bytes) (n : Nat) (ps : List Part) (path : Str) (custom : List (Str × Str)) (m : Rels) :
    Got ReadFile :=
  (readIfThere ((targetOf m (officeType c!"theme")).bind fun t => contentAt ps (basePath path t)) []
    fun s => ((readTheme n s).got).bind fun f => .ok [f]).bind fun themes =>
  (readSideParts e.x n ps path c!"header" m.rels).bind fun headers =>
  (readSideParts e.x n ps path c!"footer" m.rels).bind fun footers =>
  (readRecords n ps path m).bind fun records =>
  (readNotes e.x n ps path m records).bind fun comments =>
  (Got.ofOption (documentText ps path)).bind fun s =>
  ((readDocument e.x n s).got).bind fun document =>
  let file := { DocxFile.new with custom := custom }.setDocument document
  (readIfThere ((targetOf m (officeType c!"styles")).bind fun t => contentAt ps (basePath path t)) file.styles
    fun s => (readStyles e.x n s).got).bind fun styles =>
  (readLists e.x n ps path m file.numberings).bind fun numberings =>
  (readIfThere ((targetOf m (officeType c!"settings")).bind fun t => contentOf ps (basePath path t)) file.settings
    fun s => (readSettings e.x n s).got).bind fun settings =>
  (readIfThere ((targetOf m (officeType c!"webSettings")).bind fun t => contentOf ps (basePath path t)) []
    fun s => (readWebSettings e.x n s).got).bind fun webSettings =>
  (assignParts e [] headers footers
    { file := { file with styles := styles, numberings := numberings, settings := settings }, themes := themes
      webSettings := webSettings }).bind fun r =>
  (addPictures e base64 ps path m.rels (r.withComments comments records)).bind fun r => .ok (withFirstLink m r)

/-- What `read_xml` makes of the parts. reader/read_xml.rs:339-638. The content types are read and thrown away; their reader panics on a
declaration without attributes it needs. -/
def readParts (e : FileEnv) (base64 : Str → Option Bytes) (n : Nat) (ps : List Part) : Got ReadFile :=
  match (contentOf ps c!"[Content_Types].xml").map contentTypesFromXml with
  | some none => .panic
  | _ =>
    (mainRels n ps).bind fun rels =>
    (readIfThere ((targetOf rels (officeType c!"custom-properties")).bind (contentOf ps)) []
      fun s => (readCustomProps e.x n s).got).bind fun custom =>
    (partRels n ps (documentPath rels)).bind fun m => readXmlFrom e base64 n ps (documentPath rels) custom m

/-- `read_xml`, in at most `n` steps per loop and nesting. reader/read_xml.rs:326-638. -/
def readXml (e : FileEnv) (base64 : Str → Option Bytes) (n : Nat) (text : Str) : Got ReadFile :=
  match extractParts text with
  | none => .panic
  | some ps => readParts e base64 n ps

end Docx.FlatOpc
