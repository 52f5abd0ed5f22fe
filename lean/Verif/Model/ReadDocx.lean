import Verif.Model.ReadMore
import Verif.Model.ReadRels
import Verif.Model.ReadTypes
import Verif.Model.ReadWeb
import Verif.Model.StoreComments
import Verif.Model.Pictures

/-!
# Reading a file (`reader/read_docx.rs`)

The archive is given by its entries; `ZipArchive::new` is not modelled.
-/

namespace Docx

open Docx.Xml

/-- What `read_docx` gives: a `Docx` with the fields only the reader fills. documents/mod.rs:145-177. -/
structure ReadFile where
  file : DocxFile := .new
  themes : List FontScheme := []
  webSettings : List Div := []
  images : List ImageEntry := []
  hyperlinks : List (Str × Str × Str) := []

/-- What the reader of files takes from outside: the readers' environment, the option `generate_image_previews`, and decoding a
picture and writing it as PNG. reader/read_docx.rs:68-93, documents/mod.rs:337-346. -/
structure FileEnv where
  x : ReadEnv
  previews : Bool := true
  decode : Bytes → Option Bytes

/-- The type names. reader/namespace.rs:1-26. -/
def officeType (name : Str) : Str := c!"http://schemas.openxmlformats.org/officeDocument/2006/relationships/" ++ name

/-- The bytes of an entry. -/
def Content.toBytes : Content → Bytes
  | .directory => []
  | .text s => (String.ofList s).toUTF8.data.toList
  | .bytes b => b

/-- `Docx::add_image_with_options`. documents/mod.rs:310-349. -/
def ReadFile.addImage (e : FileEnv) (r : ReadFile) (id path : Str) (b : Bytes) : Got ReadFile :=
  match addImageWithOptions e.decode r.images id path b e.previews with
  | none => .panic
  | some images => .ok { r with images := images }

/-- The loop of `add_images`. reader/read_docx.rs:410-421. -/
def addImagesFrom (e : FileEnv) (es : List Entry) : List Target → ReadFile → Got ReadFile
  | [], r => .ok r
  | t :: ts, r =>
    match readZip es t.path with
    | none => addImagesFrom e es ts r
    | some c => (r.addImage e t.rid t.path c.toBytes).bind (addImagesFrom e es ts)

/-- `add_images` with the targets of the picture type. reader/read_docx.rs:403-423. -/
def addImages (e : FileEnv) (es : List Entry) (m : ReadRels) (r : ReadFile) : Got ReadFile :=
  addImagesFrom e es ((m.targets (officeType c!"image")).getD []) r

/-- The loop of `read_headers` and `read_footers`: a part that is not there or cannot be read is left out; relationships that cannot be
read are taken to be none. reader/read_docx.rs:12-25,34-47. Simplification: the map is kept as a list, in the order of the targets. -/
def readPartsFrom (x : ReadEnv) (n : Nat) (es : List Entry) : List Target → Got (List (Str × Header × ReadRels))
  | [] => .ok []
  | t :: ts =>
    match readText es t.path with
    | none => readPartsFrom x n es ts
    | some s =>
      match (readHeader x n s).got with
      | .ok h => ((readPartRels n es t.path).orElse []).bind fun rels =>
          (readPartsFrom x n es ts).bind fun l => .ok ((t.rid, h, rels) :: l)
      | .err => readPartsFrom x n es ts
      | .panic => .panic
      | .running => .running

/-- `read_headers`, `read_footers`. reader/read_docx.rs:7-49. -/
def readPartsOf (x : ReadEnv) (n : Nat) (es : List Entry) (m : ReadRels) (kind : Str) : Got (List (Str × Header × ReadRels)) :=
  readPartsFrom x n es ((m.targets (officeType kind)).getD [])

/-- `HashMap::get` on what was collected: the last one with the key. -/
def partWith (l : List (Str × Header × ReadRels)) (id : Str) : Option (Header × ReadRels) :=
  ((l.filter fun e => e.1 = id).getLast?).map Prod.snd

/-- The loop of `read_themes`. reader/read_docx.rs:51-66. -/
def readThemesFrom (n : Nat) (es : List Entry) : List Target → Got (List FontScheme)
  | [] => .ok []
  | t :: ts =>
    match readText es t.path with
    | none => readThemesFrom n es ts
    | some s =>
      match (readTheme n s).got with
      | .ok f => (readThemesFrom n es ts).bind fun l => .ok (f :: l)
      | .err => readThemesFrom n es ts
      | .panic => .panic
      | .running => .running

/-- The first target of a type. -/
def firstTarget (m : ReadRels) (ty : Str) : Option Target := (m.targets ty).bind List.head?

/-- A part that may be missing: `if let Some(path) … if let Ok(data) = read_zip(…) { from_xml(…)? } else { default }`.
reader/read_docx.rs:145-224. -/
def readOptional {α : Type} (es : List Entry) (m : ReadRels) (ty : Str) (default : α) (read : Str → Got α) : Got α :=
  match (firstTarget m ty).bind fun t => readText es t.path with
  | none => .ok default
  | some s => read s

/-- A part that must be there if there is a relationship: `read_zip(…)?` and `from_xml(…)?`, put into the file by `put`.
reader/read_docx.rs:328-381. -/
def readNeeded {α : Type} (es : List Entry) (m : ReadRels) (ty : Str) (r : ReadFile) (read : Str → Got α) (put : ReadFile → α → ReadFile) :
    Got ReadFile :=
  match firstTarget m ty with
  | none => .ok r
  | some t => (Got.ofOption (readText es t.path)).bind fun s => (read s).bind fun a => .ok (put r a)

/-- A header read for a reference: put into the section property, counted, its pictures added. reader/read_docx.rs:232-273. -/
def assignHeader (e : FileEnv) (es : List Entry) (parts : List (Str × Header × ReadRels)) (reference : SectionBase → Option PartReference)
    (set : SectionProperty → Header → Str → SectionProperty) (r : ReadFile) : Got ReadFile :=
  match reference r.file.document.sectionProperty.base with
  | none => .ok r
  | some h =>
    match partWith parts h.id with
    | none => .ok r
    | some (header, rels) =>
      addImages e es rels { r with file :=
        { r.file.updProperty (fun p => set p header h.id) with
          documentRels := { r.file.documentRels with headerCount := r.file.documentRels.headerCount + 1 }
          contentType := r.file.contentType.addHeader } }

/-- The same for a footer. reader/read_docx.rs:275-319. -/
def assignFooter (e : FileEnv) (es : List Entry) (parts : List (Str × Header × ReadRels)) (reference : SectionBase → Option PartReference)
    (set : SectionProperty → Header → Str → SectionProperty) (r : ReadFile) : Got ReadFile :=
  match reference r.file.document.sectionProperty.base with
  | none => .ok r
  | some h =>
    match partWith parts h.id with
    | none => .ok r
    | some (footer, rels) =>
      addImages e es rels { r with file :=
        { r.file.updProperty (fun p => set p footer h.id) with
          documentRels := { r.file.documentRels with footerCount := r.file.documentRels.footerCount + 1 }
          contentType := r.file.contentType.addFooter } }

/-- `SectionProperty::first_header_without_title_pg`. elements/section_property.rs:99-103. -/
def SectionProperty.setFirstHeaderOnly (p : SectionProperty) (h : Header) (rid : Str) : SectionProperty :=
  { p with base := { p.base with firstHeaderReference := some ⟨c!"first", rid⟩ }, firstHeader := some (rid, h) }
/-- `SectionProperty::first_footer_without_title_pg`. elements/section_property.rs:124-128. -/
def SectionProperty.setFirstFooterOnly (p : SectionProperty) (h : Header) (rid : Str) : SectionProperty :=
  { p with base := { p.base with firstFooterReference := some ⟨c!"first", rid⟩ }, firstFooter := some (rid, h) }

/-- The six assignments. reader/read_docx.rs:232-319. -/
def assignParts (e : FileEnv) (es : List Entry) (headers footers : List (Str × Header × ReadRels)) (r : ReadFile) : Got ReadFile :=
  (assignHeader e es headers (·.headerReference) .setHeader r).bind fun r =>
  (assignHeader e es headers (·.firstHeaderReference) .setFirstHeaderOnly r).bind fun r =>
  (assignHeader e es headers (·.evenHeaderReference) .setEvenHeader r).bind fun r =>
  (assignFooter e es footers (·.footerReference) .setFooter r).bind fun r =>
  (assignFooter e es footers (·.firstFooterReference) .setFirstFooterOnly r).bind fun r =>
  assignFooter e es footers (·.evenFooterReference) .setEvenFooter r

/-- The comments put into the file. reader/read_docx.rs:321-326. -/
def ReadFile.withComments (r : ReadFile) (cs : List Comment) (rs : List CommentExtended) : ReadFile :=
  if cs.isEmpty then r
  else { r with file := { r.file.storeComments cs with comments := cs, commentsExtended := rs } }

/-- The hyperlinks of the document that have a mode. reader/read_docx.rs:386-398. -/
def ReadFile.withLinks (r : ReadFile) (m : ReadRels) : ReadFile :=
  { r with hyperlinks := r.hyperlinks ++ ((m.targets (officeType c!"hyperlink")).getD []).filterMap fun t =>
      t.mode.map fun mode => (t.rid, t.path, mode) }

/-- The custom properties; what cannot be read is left out. reader/read_docx.rs:129-136. -/
def readCustom (x : ReadEnv) (n : Nat) (es : List Entry) (rels : Rels) : Got (List (Str × Str)) :=
  match (rels.findTarget (officeType c!"custom-properties")).bind fun t => readText es t.2.2 with
  | none => .ok []
  | some s => ((readCustomProps x n s).got).orElse []

/-- The path of the main document. reader/read_docx.rs:117-127. -/
def documentPath (rels : Rels) : Str :=
  match rels.findTarget (officeType c!"officeDocument") with
  | some t => t.2.2
  | none => c!"word/document.xml"

/-- Everything behind the relationships of the main document. reader/read_docx.rs:138-401. -/
def readDocxFrom (e : FileEnv) (n : Nat) (es : List Entry) (path : Str) (custom : List (Str × Str)) (m : ReadRels) : Got ReadFile :=
  (readPartsOf e.x n es m c!"header").bind fun headers =>
  (readPartsOf e.x n es m c!"footer").bind fun footers =>
  (readThemesFrom n es ((m.targets (officeType c!"theme")).getD [])).bind fun themes =>
  (readOptional es m c!"http://schemas.microsoft.com/office/2011/relationships/commentsExtended" []
    fun s => (readCommentsExtended n s).got).bind fun records =>
  (readOptional es m (officeType c!"comments") [] fun s =>
    ((readComments e.x n s).got).bind fun cs => .ok (threads cs records)).bind fun comments =>
  (Got.ofOption (readText es path)).bind fun s =>
  ((readDocument e.x n s).got).bind fun document =>
  (assignParts e es headers footers
    { file := { DocxFile.new with custom := custom }.setDocument document, themes := themes }).bind fun r =>
  (readNeeded es m (officeType c!"styles") (r.withComments comments records) (fun s => (readStyles e.x n s).got)
    fun r a => { r with file := { r.file with styles := a } }).bind fun r =>
  (readNeeded es m (officeType c!"numbering") r (fun s => (readNumberings e.x n s).got)
    fun r a => { r with file := { r.file with numberings := a } }).bind fun r =>
  (readNeeded es m (officeType c!"settings") r (fun s => (readSettings e.x n s).got)
    fun r a => { r with file := { r.file with settings := a } }).bind fun r =>
  (readNeeded es m (officeType c!"webSettings") r (fun s => (readWebSettings e.x n s).got)
    fun r a => { r with webSettings := a }).bind fun r =>
  (addImages e es m r).bind fun r => .ok (r.withLinks m)

/-- `read_docx_with_options` on the entries of an archive, in at most `n` steps per loop and nesting. reader/read_docx.rs:95-401.
The content types are read and thrown away; their reader panics on a declaration without attributes it needs. -/
def readDocx (e : FileEnv) (n : Nat) (es : List Entry) : Got ReadFile :=
  (Got.ofOption (readText es c!"[Content_Types].xml")).bind fun s =>
  match contentTypesFromXml s with
  | none => .panic
  | some _ =>
    (Got.ofOption (readText es c!"_rels/.rels")).bind fun s =>
    ((readPackageRels n s).got).bind fun rels =>
    (readCustom e.x n es rels).bind fun custom =>
    (readPartRels n es (documentPath rels)).bind fun m => readDocxFrom e n es (documentPath rels) custom m

end Docx
