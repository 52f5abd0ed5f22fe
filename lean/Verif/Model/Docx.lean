import Verif.Model.PackageParts
import Verif.Model.AutoToc
import Verif.Model.Media
import Verif.Model.ParaIds
import Verif.Model.Api

/-!
# The document as a whole: builder methods, preparation, and the two ways to write the archive
(`documents/mod.rs`, `zipper/mod.rs`, `documents/xml_docx.rs`)

What the code takes from outside is in `Env`: the checksum of `crc32fast` and the order in which a `HashMap` is
iterated. The zip container itself is not modelled: an archive is the list of the entries sent to `ZipWriter`.
-/

namespace Docx

open Docx.Spec (Tag)
open Docx.Xml (Error)

/-- `Docx`. documents/mod.rs:145-177. `font_table`, `web_settings` hold nothing that is written from here;
`media`, `themes`, `images`, `hyperlinks` are filled by the reader only and never written. -/
structure DocxFile where
  contentType : ContentTypes := {}
  rels : Rels := {}
  documentRels : DocumentRels := {}
  core : CoreProps := {}
  custom : List (Str × Str) := []
  styles : Styles := {}
  document : Document := {}
  comments : List Comment := []
  numberings : Numberings := {}
  settings : Settings := {}
  commentsExtended : List CommentExtended := []
  taskpanes : Bool := false
  taskpanesRels : List (Str × Str × Str) := []
  webExtensions : List WebExtension := []
  customItems : List (List XmlData) := []
  customItemProps : List Str := []
  customItemRels : List Nat := []
  footnotes : List Footnote := []

/-- `Docx::new`. documents/mod.rs:205-253. -/
def DocxFile.new : DocxFile :=
  { contentType := ({} : ContentTypes).setDefault, rels := ({} : Rels).setDefault }

/-! ## Builder methods -/

/-- `document_rels.has_numberings = true` under a condition. documents/mod.rs:260,372-377 and the like. -/
def DocxFile.noteNumbering (d : DocxFile) (b : Bool) : DocxFile :=
  { d with documentRels := { d.documentRels with hasNumberings := d.documentRels.hasNumberings || b } }

/-- The flags `document` looks at: those of the paragraphs and tables at the top. documents/mod.rs:255-271. -/
def DocumentChild.flagged : DocumentChild → Bool
  | .paragraph p => p.hasNumbering
  | .table t => t.hasNumbering
  | _ => false

/-- `Docx::document`: the flags of the *old* document are looked at. documents/mod.rs:255-271. -/
def DocxFile.setDocument (d : DocxFile) (x : Document) : DocxFile :=
  { d.noteNumbering (d.document.children.any DocumentChild.flagged) with document := x }

/-- `Docx::add_paragraph`. documents/mod.rs:372-380. -/
def DocxFile.addParagraph (d : DocxFile) (p : Paragraph) : DocxFile :=
  { d.noteNumbering p.hasNumbering with document := d.document.addParagraph p }
/-- `Docx::add_table`. documents/mod.rs:494-502. -/
def DocxFile.addTable (d : DocxFile) (t : Table) : DocxFile :=
  { d.noteNumbering t.hasNumbering with document := d.document.addTable t }
/-- `Docx::add_structured_data_tag`. documents/mod.rs:469-477. -/
def DocxFile.addSdt (d : DocxFile) (s : Sdt) : DocxFile :=
  { d.noteNumbering s.hasNumbering with document := d.document.addSdt s }
/-- `Docx::add_table_of_contents`. documents/mod.rs:479-482. -/
def DocxFile.addToc (d : DocxFile) (t : Toc) : DocxFile := { d with document := d.document.addToc t }
/-- `Docx::add_bookmark_start`. documents/mod.rs:484-487. -/
def DocxFile.addBookmarkStart (d : DocxFile) (id : Nat) (name : Str) : DocxFile :=
  { d with document := d.document.addBookmarkStart id name }
/-- `Docx::add_bookmark_end`. documents/mod.rs:489-492. -/
def DocxFile.addBookmarkEnd (d : DocxFile) (id : Nat) : DocxFile := { d with document := d.document.addBookmarkEnd id }

/-- `SectionProperty::header`. elements/section_property.rs:85-89. -/
def SectionProperty.setHeader (p : SectionProperty) (h : Header) (rid : Str) : SectionProperty :=
  { p with base := { p.base with headerReference := some ⟨c!"default", rid⟩ }, header := some (rid, h) }
/-- `SectionProperty::first_header`. elements/section_property.rs:91-96. -/
def SectionProperty.setFirstHeader (p : SectionProperty) (h : Header) (rid : Str) : SectionProperty :=
  { p with base := { p.base with firstHeaderReference := some ⟨c!"first", rid⟩, titlePg := true }, firstHeader := some (rid, h) }
/-- `SectionProperty::even_header`. elements/section_property.rs:104-108. -/
def SectionProperty.setEvenHeader (p : SectionProperty) (h : Header) (rid : Str) : SectionProperty :=
  { p with base := { p.base with evenHeaderReference := some ⟨c!"even", rid⟩ }, evenHeader := some (rid, h) }
/-- `SectionProperty::footer`. elements/section_property.rs:110-114. -/
def SectionProperty.setFooter (p : SectionProperty) (h : Header) (rid : Str) : SectionProperty :=
  { p with base := { p.base with footerReference := some ⟨c!"default", rid⟩ }, footer := some (rid, h) }
/-- `SectionProperty::first_footer`. elements/section_property.rs:116-121. -/
def SectionProperty.setFirstFooter (p : SectionProperty) (h : Header) (rid : Str) : SectionProperty :=
  { p with base := { p.base with firstFooterReference := some ⟨c!"first", rid⟩, titlePg := true }, firstFooter := some (rid, h) }
/-- `SectionProperty::even_footer`. elements/section_property.rs:129-133. -/
def SectionProperty.setEvenFooter (p : SectionProperty) (h : Header) (rid : Str) : SectionProperty :=
  { p with base := { p.base with evenFooterReference := some ⟨c!"even", rid⟩ }, evenFooter := some (rid, h) }

/-- The bookkeeping for a new header part: numbering flag, count, content type. documents/mod.rs:391-403,504-516. -/
def DocxFile.countHeader (d : DocxFile) (h : Header) : DocxFile :=
  { d with
    documentRels := { d.documentRels with
      hasNumberings := d.documentRels.hasNumberings || h.hasNumbering
      headerCount := d.documentRels.headerCount + 1 }
    contentType := d.contentType.addHeader }
/-- The same for a footer. documents/mod.rs:412-424,547-559. -/
def DocxFile.countFooter (d : DocxFile) (h : Header) : DocxFile :=
  { d with
    documentRels := { d.documentRels with
      hasNumberings := d.documentRels.hasNumberings || h.hasNumbering
      footerCount := d.documentRels.footerCount + 1 }
    contentType := d.contentType.addFooter }

/-- The relationship id the next header gets. documents/mod.rs:394-395,508,512. -/
def DocxFile.nextHeaderRid (d : DocxFile) : Str := createHeaderRid (d.documentRels.headerCount + 1)
/-- The relationship id the next footer gets. documents/mod.rs:415-416,551,555. -/
def DocxFile.nextFooterRid (d : DocxFile) : Str := createFooterRid (d.documentRels.footerCount + 1)

/-- Change the section property of the document. documents/mod.rs:509-512. -/
def DocxFile.updProperty (d : DocxFile) (f : SectionProperty → SectionProperty) : DocxFile :=
  { d with document := { d.document with sectionProperty := f d.document.sectionProperty } }

/-- `Docx::header`. documents/mod.rs:504-516. -/
def DocxFile.setHeader (d : DocxFile) (h : Header) : DocxFile :=
  (d.countHeader h).updProperty (·.setHeader h d.nextHeaderRid)
/-- `Docx::first_header`. documents/mod.rs:518-530. -/
def DocxFile.setFirstHeader (d : DocxFile) (h : Header) : DocxFile :=
  (d.countHeader h).updProperty (·.setFirstHeader h d.nextHeaderRid)
/-- `settings.even_and_odd_headers()`. settings.rs:42-45. -/
def DocxFile.evenAndOdd (d : DocxFile) : DocxFile := { d with settings := { d.settings with evenAndOddHeaders := true } }
/-- `Docx::even_header`. documents/mod.rs:532-545. -/
def DocxFile.setEvenHeader (d : DocxFile) (h : Header) : DocxFile :=
  ((d.countHeader h).updProperty (·.setEvenHeader h d.nextHeaderRid)).evenAndOdd
/-- `Docx::footer`. documents/mod.rs:547-559. -/
def DocxFile.setFooter (d : DocxFile) (h : Header) : DocxFile :=
  (d.countFooter h).updProperty (·.setFooter h d.nextFooterRid)
/-- `Docx::first_footer`. documents/mod.rs:561-573. -/
def DocxFile.setFirstFooter (d : DocxFile) (h : Header) : DocxFile :=
  (d.countFooter h).updProperty (·.setFirstFooter h d.nextFooterRid)
/-- `Docx::even_footer`. documents/mod.rs:575-588. -/
def DocxFile.setEvenFooter (d : DocxFile) (h : Header) : DocxFile :=
  ((d.countFooter h).updProperty (·.setEvenFooter h d.nextFooterRid)).evenAndOdd

/-- `attach_section_header`. documents/mod.rs:386-404. -/
def attachHeader (h : Option Header) (attach : SectionProperty → Header → Str → SectionProperty)
    (s : DocxFile × SectionProperty) : DocxFile × SectionProperty :=
  match h with
  | none => s
  | some h => (s.1.countHeader h, attach s.2 h s.1.nextHeaderRid)
/-- `attach_section_footer`. documents/mod.rs:407-425. -/
def attachFooter (h : Option Header) (attach : SectionProperty → Header → Str → SectionProperty)
    (s : DocxFile × SectionProperty) : DocxFile × SectionProperty :=
  match h with
  | none => s
  | some h => (s.1.countFooter h, attach s.2 h s.1.nextFooterRid)

/-- The headers and footers of an added section, in this order. documents/mod.rs:441-463. -/
def DocxFile.attachParts (d : DocxFile) (s : Section) : DocxFile × SectionProperty :=
  attachFooter s.tempEvenFooter .setEvenFooter
    (attachFooter s.tempFirstFooter .setFirstFooter
      (attachFooter s.tempFooter .setFooter
        (attachHeader s.tempEvenHeader .setEvenHeader
          (attachHeader s.tempFirstHeader .setFirstHeader
            (attachHeader s.tempHeader .setHeader (d.noteNumbering s.hasNumbering, s.property))))))

/-- `Docx::add_section`. documents/mod.rs:432-467. -/
def DocxFile.addSection (d : DocxFile) (s : Section) : DocxFile :=
  let r := d.attachParts s
  { r.1 with
    document := r.1.document.addSection
      { s with property := r.2, tempHeader := none, tempFirstHeader := none, tempEvenHeader := none,
               tempFooter := none, tempFirstFooter := none, tempEvenFooter := none } }

/-- `Docx::taskpanes`. documents/mod.rs:670-675. -/
def DocxFile.addTaskpanes (d : DocxFile) : DocxFile :=
  { d with taskpanes := true, rels := d.rels.addTaskpanesRel, contentType := d.contentType.addTaskpanes }
/-- `Docx::web_extension`. documents/mod.rs:677-682. -/
def DocxFile.addWebExtension (d : DocxFile) (e : WebExtension) : DocxFile :=
  { d with
    webExtensions := d.webExtensions ++ [e]
    taskpanesRels := taskpanesRelsAdd d.taskpanesRels
    contentType := d.contentType.addWebExtensions }
/-- `Docx::add_custom_item` with the parsed XML. documents/mod.rs:684-693; document_rels.rs `add_custom_item`;
custom_item_rels.rs `add_item` on a new `CustomItemRels`. -/
def DocxFile.addCustomItem (d : DocxFile) (id : Str) (x : List XmlData) : DocxFile :=
  { d with
    contentType := d.contentType.addCustomXml
    customItemProps := d.customItemProps ++ [id]
    documentRels := { d.documentRels with customXmlCount := d.documentRels.customXmlCount + 1 }
    customItemRels := d.customItemRels ++ [1]
    customItems := d.customItems ++ [x] }

/-- Change the scalars of the section property. documents/document.rs:155-173,250-253. -/
def DocxFile.updBase (d : DocxFile) (f : SectionBase → SectionBase) : DocxFile :=
  d.updProperty fun p => { p with base := f p.base }

/-- The public builder methods of `Docx`. documents/mod.rs:255-296,362-698. -/
inductive Call where
  | document (x : Document)
  | styles (s : Styles)
  | addStyle (s : Style)
  | numberings (n : Numberings)
  | settings (s : Settings)
  | comments (c : List Comment)
  | commentsExtended (c : List CommentExtended)
  | addParagraph (p : Paragraph)
  | addSection (s : Section)
  | addSdt (s : Sdt)
  | addToc (t : Toc)
  | addBookmarkStart (id : Nat) (name : Str)
  | addBookmarkEnd (id : Nat)
  | addTable (t : Table)
  | header (h : Header)
  | firstHeader (h : Header)
  | evenHeader (h : Header)
  | footer (h : Header)
  | firstFooter (h : Header)
  | evenFooter (h : Header)
  | addAbstractNumbering (n : AbstractNumbering)
  | addNumbering (n : Numbering)
  | createdAt (s : Str)
  | updatedAt (s : Str)
  | customProperty (name item : Str)
  | docId (s : Str)
  | defaultTabStop (n : Nat)
  | addDocVar (name v : Str)
  | titlePg
  | pageSize (w h : Nat)
  | pageMargin (m : PageMargin)
  | pageOrient (o : PageOrientationType)
  | defaultSize (n : Nat)
  | defaultSpacing (n : Int)
  | defaultFonts (f : RunFonts)
  | defaultLineSpacing (s : LineSpacing)
  | taskpanes
  | webExtension (e : WebExtension)
  | addCustomItem (id xml : Str)
  | pageNumType (p : PageNumType)

/-- Run one builder method; `none` is the panic of `add_custom_item` on text that does not parse.
documents/mod.rs:255-296,362-698 and the methods of `Styles`, `Settings`, `Numberings`, `DocProps` they call. -/
def DocxFile.call (d : DocxFile) : Call → Option DocxFile
  | .document x => some (d.setDocument x)
  | .styles s => some { d with styles := s }
  | .addStyle s => some { d with styles := { d.styles with styles := d.styles.styles ++ [s] } }
  | .numberings n => some { d with numberings := n }
  | .settings s => some { d with settings := s }
  | .comments c => some { d with comments := c }
  | .commentsExtended c => some { d with commentsExtended := c }
  | .addParagraph p => some (d.addParagraph p)
  | .addSection s => some (d.addSection s)
  | .addSdt s => some (d.addSdt s)
  | .addToc t => some (d.addToc t)
  | .addBookmarkStart id name => some (d.addBookmarkStart id name)
  | .addBookmarkEnd id => some (d.addBookmarkEnd id)
  | .addTable t => some (d.addTable t)
  | .header h => some (d.setHeader h)
  | .firstHeader h => some (d.setFirstHeader h)
  | .evenHeader h => some (d.setEvenHeader h)
  | .footer h => some (d.setFooter h)
  | .firstFooter h => some (d.setFirstFooter h)
  | .evenFooter h => some (d.setEvenFooter h)
  | .addAbstractNumbering n =>
    some { d with numberings := { d.numberings with abstractNums := d.numberings.abstractNums ++ [n] } }
  | .addNumbering n => some { d with numberings := { d.numberings with numberings := d.numberings.numberings ++ [n] } }
  | .createdAt s => some { d with core := { d.core with created := some s } }
  | .updatedAt s => some { d with core := { d.core with modified := some s } }
  | .customProperty name item => some { d with custom := hashInsert name item d.custom }
  | .docId s => some { d with settings := { d.settings with docId := some s } }
  | .defaultTabStop n => some { d with settings := { d.settings with defaultTabStop := n } }
  | .addDocVar name v => some { d with settings := { d.settings with docVars := d.settings.docVars ++ [(name, v)] } }
  | .titlePg => some (d.updBase fun b => { b with titlePg := true })
  | .pageSize w h => some (d.updBase fun b => { b with pageSize := { w := w, h := h } })
  | .pageMargin m => some (d.updBase fun b => { b with pageMargin := m })
  | .pageOrient o => some (d.updBase fun b => { b with pageSize := { b.pageSize with orient := some o } })
  | .defaultSize n =>
    some { d with styles := { d.styles with docDefaults :=
      { d.styles.docDefaults with runProperty := d.styles.docDefaults.runProperty.setSize n } } }
  | .defaultSpacing n =>
    some { d with styles := { d.styles with docDefaults :=
      { d.styles.docDefaults with runProperty := d.styles.docDefaults.runProperty.setSpacing n } } }
  | .defaultFonts f =>
    some { d with styles := { d.styles with docDefaults :=
      { d.styles.docDefaults with runProperty := d.styles.docDefaults.runProperty.setFonts f } } }
  | .defaultLineSpacing s =>
    some { d with styles := { d.styles with docDefaults :=
      { d.styles.docDefaults with paragraphProperty := d.styles.docDefaults.paragraphProperty.setLineSpacing s } } }
  | .taskpanes => some d.addTaskpanes
  | .webExtension e => some (d.addWebExtension e)
  | .addCustomItem id xml =>
    match xmlDocumentFromStr xml with
    | some (.ok x) => some (d.addCustomItem id x)
    | _ => none
  | .pageNumType p => some (d.updBase fun b => { b with pageNumType := some p })

/-- A chain of builder calls, starting from a document. -/
def DocxFile.calls : DocxFile → List Call → Option DocxFile
  | d, [] => some d
  | d, c :: cs => match d.call c with
    | none => none
    | some d => d.calls cs

/-! ## Comments and hyperlinks -/

/-- What the two passes of `update_dependencies` find: comments and external hyperlinks. -/
inductive Found where
  | comment (c : Comment)
  | link (rid path : Str)

/-- The link of an external hyperlink. documents/mod.rs:953-955. -/
def HyperlinkData.found : HyperlinkData → List Found
  | .external rid path => [.link rid path]
  | .anchor _ => []

/-- The comments among the children of a hyperlink. documents/mod.rs:957-961. -/
def ParagraphChild.foundComment : ParagraphChild → List Found
  | .commentStart _ c => [.comment c]
  | _ => []

/-- One child of a paragraph. documents/mod.rs:949-963,1015-1040,1268-1290,1292-1324: the same in both passes. -/
def ParagraphChild.found : ParagraphChild → List Found
  | .commentStart _ c => [.comment c]
  | .hyperlink h => h.link.found ++ h.children.flatMap ParagraphChild.foundComment
  | _ => []

/-- `collect_comment_map_in_paragraph`, `collect_dependencies_in_paragraph`. documents/mod.rs:1292-1324,1268-1290. -/
def Paragraph.found (p : Paragraph) : List Found := p.children.flatMap ParagraphChild.found

mutual
/-- `collect_comment_map_in_table`, `collect_dependencies_in_table`. documents/mod.rs:1326-1385,1387-1483. -/
def foundTable : Table → List Found
  | ⟨rows, _, _, _⟩ => foundRows rows
/-- `for TableChild::TableRow(row)`. documents/mod.rs:1331,1394. -/
def foundRow : Row → List Found
  | ⟨cells, _, _⟩ => foundCells cells
/-- documents/mod.rs:1331,1394. -/
def foundRows : List Row → List Found
  | [] => []
  | r :: rs => foundRow r ++ foundRows rs
/-- `for content in &cell.children`. documents/mod.rs:1333,1396. -/
def foundCell : Cell → List Found
  | ⟨cs, _, _⟩ => foundContents cs
/-- documents/mod.rs:1332,1395. -/
def foundCells : List Cell → List Found
  | [] => []
  | c :: cs => foundCell c ++ foundCells cs
/-- `match content`. documents/mod.rs:1334-1381,1397-1479. -/
def foundContent : CellContent → List Found
  | .paragraph p => p.found
  | .table t => foundTable t
  | .sdt s => foundSdt s
  | .toc t => foundToc t
/-- documents/mod.rs:1333,1396. -/
def foundContents : List CellContent → List Found
  | [] => []
  | c :: cs => foundContent c ++ foundContents cs
/-- Structured data in a cell: its paragraphs and tables. documents/mod.rs:1341-1354,1414-1434. -/
def foundSdt : Sdt → List Found
  | ⟨cs, _, _⟩ => foundSdtChildren cs
/-- documents/mod.rs:1343-1352,1416-1432. -/
def foundSdtChild : SdtChild → List Found
  | .paragraph p => p.found
  | .table t => foundTable t
  | _ => []
/-- documents/mod.rs:1342,1415. -/
def foundSdtChildren : List SdtChild → List Found
  | [] => []
  | c :: cs => foundSdtChild c ++ foundSdtChildren cs
/-- A table of contents: what stands before and after it. documents/mod.rs:968-1000,1052-1124,1355-1380,1435-1478. -/
def foundToc : Toc → List Found
  | ⟨_, _, _, _, _, _, _, before, after, _, _⟩ => foundBlocks before ++ foundBlocks after
/-- documents/mod.rs:969-983. -/
def foundBlock : Block → List Found
  | .paragraph p => p.found
  | .table t => foundTable t
/-- documents/mod.rs:968,984. -/
def foundBlocks : List Block → List Found
  | [] => []
  | b :: bs => foundBlock b ++ foundBlocks bs
end

/-- `match child` in `update_dependencies`. documents/mod.rs:937-1149. -/
def DocumentChild.found : DocumentChild → List Found
  | .paragraph p => p.found
  | .table t => foundTable t
  | .toc t => foundToc t
  | _ => []

/-- What a pass over the document finds, in order. documents/mod.rs:944,1012. -/
def Document.found (d : Document) : List Found := d.children.flatMap DocumentChild.found

/-- The ids of the paragraphs directly in a comment. documents/mod.rs:927-933,2273-2275. -/
def Comment.paragraphIds (c : Comment) : List Str :=
  c.children.filterMap fun b => match b with | .paragraph p => some p.id | .table _ => none

/-- `insert_comment_to_map`. documents/mod.rs:920-934. -/
def insertComment (m : List (Nat × Str)) : Found → List (Nat × Str)
  | .comment c => c.paragraphIds.foldl (fun m i => hashInsert c.id i m) m
  | .link _ _ => m

/-- `comment_map` after the first pass. documents/mod.rs:940,944-1003. -/
def commentMap (l : List Found) : List (Nat × Str) := l.foldl insertComment []

/-- `hyperlink_map.insert`. documents/mod.rs:955. -/
def insertLink (m : List (Str × Str)) : Found → List (Str × Str)
  | .comment _ => m
  | .link rid path => hashInsert rid path m

/-- `hyperlink_map`. documents/mod.rs:942,955. -/
def linkMap (l : List Found) : List (Str × Str) := l.foldl insertLink []

/-- The records `push_comment_and_comment_extended` adds for one paragraph of a comment. documents/mod.rs:2267-2290. -/
def extendedRecords (m : List (Nat × Str)) (parent : Option Nat) (id : Str) : List CommentExtended :=
  match parent with
  | none => [{ paragraphId := id }]
  | some p =>
    match m.lookup p with
    | some i => [{ paragraphId := id, parentParagraphId := some i }]
    | none => []

/-- `push_comment_and_comment_extended`: one copy of the comment for each of its paragraphs.
documents/mod.rs:2267-2290. -/
def pushComment (m : List (Nat × Str)) (s : List Comment × List CommentExtended) : Found → List Comment × List CommentExtended
  | .comment c => (s.1 ++ c.paragraphIds.map (fun _ => c), s.2 ++ c.paragraphIds.flatMap (extendedRecords m c.parent))
  | .link _ _ => s

/-- The external world. `crc` is `crc32fast::hash`; `links` and `props` give the order in which a `HashMap` yields
its entries. -/
structure Env where
  crc : Bytes → Nat
  links : List (Str × Str) → List (Str × Str)
  props : List (Str × Str) → List (Str × Str)

/-- Append the hyperlinks. documents/mod.rs:1005-1009,1144-1148. -/
def DocumentRels.addLinks (r : DocumentRels) (l : List (Str × Str)) : DocumentRels :=
  { r with hyperlinks := r.hyperlinks ++ l.map fun x => (x.1, x.2, c!"External") }

/-- `update_dependencies`. documents/mod.rs:937-1149. -/
def DocxFile.updateDependencies (env : Env) (d : DocxFile) : DocxFile :=
  let found := d.document.found
  let m := commentMap found
  if m = [] then { d with documentRels := d.documentRels.addLinks (env.links (linkMap found)) }
  else
    let r := found.foldl (pushComment m) ([], [])
    { d with
      documentRels :=
        ({ d.documentRels with hasComments := d.documentRels.hasComments || !r.1.isEmpty }).addLinks
          (env.links (linkMap (found ++ found)))
      commentsExtended := r.2
      comments := r.1 }

/-! ## Preparation -/

/-- `PackageMetadata`. documents/mod.rs:180-186. -/
structure PackageMetadata where
  media : List (Str × Bytes)
  headerRels : List (Nat × List (Str × Str))
  footerRels : List (Nat × List (Str × Str))

/-- `has_toc`. documents/mod.rs:804-814. -/
def hasToc (cs : List DocumentChild) : Bool := cs.any fun c => match c with | .toc _ => true | _ => false

/-- One round of the loop that adds the preset styles. documents/mod.rs:877-889; `Name::new` escapes. -/
def addTocStyle (styles : List Style) (level : Nat) : List Style :=
  if styles.any (fun s => decide (s.name = escapeOwned (c!"toc " ++ dec level))) then styles else styles ++ [tocStyle level]

/-- The preset styles. documents/mod.rs:877-889. -/
def addTocStyles (styles : List Style) : List Style := [1, 2, 3, 4, 5, 6, 7, 8, 9].foldl addTocStyle styles

/-- The counters a write can change: those of the parts and those of the tables of contents. -/
structure World where
  gen : Gen := {}
  toc : TocGen := {}

/-- `prepare_for_build`, without `has_toc`, which depends only on the document before it. documents/mod.rs:835-841.
`reset` sets the counter of paragraph ids to 1. -/
def DocxFile.prepareForBuild (env : Env) (d : DocxFile) (w : World) : DocxFile × World :=
  let t := expandAutoTocs d.styles.styles d.document.children w.toc
  let r := refreshDuplicateParaIds
    { document := { d.document with children := t.1 }, comments := d.comments, footnotes := d.footnotes } 1
  ({ d with document := r.1.document, comments := r.1.comments, footnotes := r.1.footnotes }.updateDependencies env,
    { gen := { w.gen with para := r.2 }, toc := t.2 })

/-- `prepare_package`. documents/mod.rs:845-897. -/
def DocxFile.preparePackage (env : Env) (d : DocxFile) (w : World) : DocxFile × PackageMetadata × World :=
  let toc := hasToc d.document.children
  let p := d.prepareForBuild env w
  let i := collectImages env.crc p.1.document
  let a := { p.1 with document := i.document, documentRels := { p.1.documentRels with images := i.documentRels } }
  let b := if i.footnotes = [] then a else
    { a with
      footnotes := a.footnotes ++ i.footnotes
      contentType := a.contentType.addFootnotes
      documentRels := { a.documentRels with hasFootnotes := true } }
  let c := if toc then { b with styles := { b.styles with styles := addTocStyles b.styles.styles } } else b
  (c, ⟨i.media, i.headerRels, i.footerRels⟩, p.2)

/-! ## Writing -/

/-- What a zip entry holds. -/
inductive Content where
  | directory
  | text (s : Str)
  | bytes (b : Bytes)
deriving DecidableEq

/-- A zip entry. Directory names end in `/`: `ZipWriter::add_directory` appends a missing one. -/
structure Entry where
  name : Str
  content : Content
deriving DecidableEq

/-- A part that is written as XML. -/
abbrev Part := Gen → Option (Except Error Str × Gen)

/-- A part without generated ids. -/
def tagsPart (standalone : Option Bool) (ts : List Tag) : Part := writePart standalone (emit ts)

/-- `CustomItem`: the text of the parsed XML, written into the stream behind the XML writer. custom_item.rs:33-42. -/
def customItemPart (x : List XmlData) : Part := fun g => some (.ok (formatAll x), g)

/-- `[Content_Types].xml`. content_types.rs:155-177. -/
def DocxFile.contentTypesPart (d : DocxFile) : Part := tagsPart none d.contentType.tags
/-- `_rels/.rels`. rels.rs:65-77. -/
def DocxFile.relsPart (d : DocxFile) : Part := tagsPart none d.rels.tags
/-- `docProps/app.xml`. doc_props/app.rs:17-31. -/
def appPart : Part := tagsPart (some true) appPropsTags
/-- `docProps/core.xml`. doc_props/core.rs:59-97. -/
def DocxFile.corePart (d : DocxFile) : Part := tagsPart (some true) d.core.tags
/-- `docProps/custom.xml`. doc_props/custom.rs:24-49. -/
def DocxFile.customPart (env : Env) (d : DocxFile) : Part := tagsPart (some true) (customPropsTags (env.props d.custom))
/-- `word/_rels/document.xml.rels`. document_rels.rs:48-136. -/
def DocxFile.documentRelsPart (d : DocxFile) : Part := tagsPart none d.documentRels.tags
/-- `word/styles.xml`, without declaration. styles.rs:79-93. -/
def DocxFile.stylesPart (d : DocxFile) : Part := buildElement d.styles.build
/-- `word/settings.xml`. settings.rs:73-135. -/
def DocxFile.settingsPart (d : DocxFile) : Part := tagsPart (some true) d.settings.tags
/-- `word/fontTable.xml`. font_table.rs:19-36. -/
def fontTablePart : Part := tagsPart (some true) fontTableTags
/-- `word/numbering.xml`. numberings.rs:32-47. -/
def DocxFile.numberingPart (d : DocxFile) : Part := writePart (some true) d.numberings.build
/-- `word/commentsExtended.xml`, without declaration. comments_extended.rs:25-36. -/
def DocxFile.commentsExtendedPart (d : DocxFile) : Part := buildElement (emit (commentsExtendedTags d.commentsExtended))
/-- `word/webextensions/taskpanes.xml`. taskpanes.rs:16-33. -/
def taskpanesPart : Part := tagsPart (some true) taskpanesTags
/-- `word/webextensions/_rels/taskpanes.xml.rels`. taskpanes_rels.rs:32-44. -/
def DocxFile.taskpanesRelsPart (d : DocxFile) : Part := tagsPart (some true) (taskpanesRelsTags d.taskpanesRels)
/-- `word/webextensions/webextension<n>.xml`. webextension.rs:59-89. -/
def webExtensionPart (e : WebExtension) : Part := tagsPart (some true) e.tags
/-- `word/_rels/header<n>.xml.rels`, `footer<n>.xml.rels`. header_rels.rs:27-45, footer_rels.rs:27-45. -/
def imageRelsPart (l : List (Str × Str)) : Part := tagsPart none (imageRelsTags l)
/-- `customXml/_rels/item<n>.xml.rels`. custom_item_rels.rs:24-42. -/
def customItemRelsPart (count : Nat) : Part := tagsPart (some true) (customItemRelsTags count)
/-- `customXml/itemProps<n>.xml`. custom_item_property.rs:18-34. -/
def customItemPropsPart (id : Str) : Part := tagsPart (some false) (customItemPropertyTags id)

/-- The headers of a section property. elements/section_property.rs:148-152. -/
def SectionProperty.headers (p : SectionProperty) : List Header :=
  ((p.header.toList ++ p.firstHeader.toList) ++ p.evenHeader.toList).map Prod.snd
/-- The footers of a section property. elements/section_property.rs:167-171. -/
def SectionProperty.footers (p : SectionProperty) : List Header :=
  ((p.footer.toList ++ p.firstFooter.toList) ++ p.evenFooter.toList).map Prod.snd
/-- The section properties of the sections. documents/document.rs:263-268. -/
def childSectionProperties (cs : List DocumentChild) : List SectionProperty :=
  cs.filterMap fun c => match c with | .section s => some s.property | _ => none
/-- `Document::headers`. documents/document.rs:260-270. -/
def Document.headers (d : Document) : List Header :=
  d.sectionProperty.headers ++ (childSectionProperties d.children).flatMap SectionProperty.headers
/-- `Document::footers`. documents/document.rs:286-296. -/
def Document.footers (d : Document) : List Header :=
  d.sectionProperty.footers ++ (childSectionProperties d.children).flatMap SectionProperty.footers

/-! ### `Docx::pack`: one part after the other goes into the archive -/

/-- One step of `zip_docx`. `write` is `write_xml`. zipper/mod.rs:13-34. -/
inductive ZipStep where
  | directory (name : Str)
  | write (name : Str) (part : Part)
  | store (name : Str) (b : Bytes)

/-- Run the steps: the first error of the XML writer ends the write. zipper/mod.rs:27-31,155-397. -/
def runSteps : List ZipStep → Gen → Option (Except Error (List Entry) × Gen)
  | [], g => some (.ok [], g)
  | .directory n :: ss, g =>
    match runSteps ss g with
    | some (.ok es, g) => some (.ok (⟨n, .directory⟩ :: es), g)
    | r => r
  | .store n b :: ss, g =>
    match runSteps ss g with
    | some (.ok es, g) => some (.ok (⟨n, .bytes b⟩ :: es), g)
    | r => r
  | .write n p :: ss, g =>
    match p g with
    | none => none
    | some (.error e, g) => some (.error e, g)
    | some (.ok s, g) =>
      match runSteps ss g with
      | some (.ok es, g) => some (.ok (⟨n, .text s⟩ :: es), g)
      | r => r

/-- `word/<kind><n>.xml`. zipper/mod.rs:281,308. -/
def partName (kind : Str) (n : Nat) : Str := c!"word/" ++ kind ++ dec n ++ c!".xml"
/-- `word/_rels/<kind><n>.xml.rels`. zipper/mod.rs:295,322. -/
def partRelsName (kind : Str) (n : Nat) : Str := c!"word/_rels/" ++ kind ++ dec n ++ c!".xml.rels"

/-- The loop over the headers or footers with the iterator over their relationships. zipper/mod.rs:275-300,302-327. -/
def partSteps (kind : Str) (write : Header → Part) : Nat → List Header → List (Nat × List (Str × Str)) → List ZipStep
  | _, [], _ => []
  | i, h :: hs, [] => .write (partName kind (i + 1)) (write h) :: partSteps kind write (i + 1) hs []
  | i, h :: hs, (j, r) :: rs =>
    .write (partName kind (i + 1)) (write h) ::
      (if j = i then .write (partRelsName kind (i + 1)) (imageRelsPart r) :: partSteps kind write (i + 1) hs rs
       else partSteps kind write (i + 1) hs ((j, r) :: rs))

/-- `customXml/_rels/item{n}.xml.rels`. zipper/mod.rs:375. -/
def itemRelsName (n : Nat) : Str := c!"customXml/_rels/item" ++ dec n ++ c!".xml.rels"
/-- `customXml/item{n}.xml`. zipper/mod.rs:382. -/
def itemName (n : Nat) : Str := c!"customXml/item" ++ dec n ++ c!".xml"
/-- `customXml/itemProps{n}.xml`. zipper/mod.rs:389. -/
def itemPropsName (n : Nat) : Str := c!"customXml/itemProps" ++ dec n ++ c!".xml"
/-- `word/media/{id}.png`. zipper/mod.rs:332. -/
def mediaName (id : Str) : Str := c!"word/media/" ++ id ++ c!".png"
/-- `word/webextensions/webextension{n}.xml`. zipper/mod.rs:360. -/
def webExtensionName (n : Nat) : Str := c!"word/webextensions/webextension" ++ dec n ++ c!".xml"

/-- Indexing panics out of range. zipper/mod.rs:377,391. -/
def indexed {α : Type} (l : List α) (i : Nat) (f : α → Part) : Part :=
  match l[i]? with
  | some a => f a
  | none => fun _ => none

/-- The loop over the custom items. zipper/mod.rs:370-393. -/
def customItemSteps (d : DocxFile) : Nat → List (List XmlData) → List ZipStep
  | _, [] => []
  | i, x :: xs =>
    [ .write (itemRelsName (i + 1)) (indexed d.customItemRels i customItemRelsPart),
      .write (itemName (i + 1)) (customItemPart x),
      .write (itemPropsName (i + 1)) (indexed d.customItemProps i customItemPropsPart) ]
    ++ customItemSteps d (i + 1) xs

/-- The loop over the web extensions. zipper/mod.rs:355-364. -/
def webExtensionSteps : Nat → List WebExtension → List ZipStep
  | _, [] => []
  | i, e :: es => .write (webExtensionName (i + 1)) (webExtensionPart e) :: webExtensionSteps (i + 1) es

/-- `zip_docx`. zipper/mod.rs:155-397. -/
def zipDocxSteps (env : Env) (d : DocxFile) (p : PackageMetadata) : List ZipStep :=
  [ .directory c!"word/", .directory c!"word/_rels/", .directory c!"_rels/", .directory c!"docProps/",
    .write c!"[Content_Types].xml" d.contentTypesPart,
    .write c!"_rels/.rels" d.relsPart,
    .write c!"docProps/app.xml" appPart,
    .write c!"docProps/core.xml" d.corePart,
    .write c!"docProps/custom.xml" (d.customPart env),
    .write c!"word/_rels/document.xml.rels" d.documentRelsPart,
    .write c!"word/document.xml" d.document.write,
    .write c!"word/styles.xml" d.stylesPart,
    .write c!"word/settings.xml" d.settingsPart,
    .write c!"word/fontTable.xml" fontTablePart,
    .write c!"word/comments.xml" (writeComments d.comments),
    .write c!"word/numbering.xml" d.numberingPart,
    .write c!"word/commentsExtended.xml" d.commentsExtendedPart,
    .write c!"word/footnotes.xml" (writeFootnotes d.footnotes) ]
  ++ partSteps c!"header" Header.writeHeader 0 d.document.headers p.headerRels
  ++ partSteps c!"footer" Header.writeFooter 0 d.document.footers p.footerRels
  ++ (if p.media = [] then [] else .directory c!"word/media/" :: p.media.map fun m => .store (mediaName m.1) m.2)
  ++ (if d.taskpanes then
        [ .directory c!"word/webextensions/",
          .write c!"word/webextensions/taskpanes.xml" taskpanesPart,
          .directory c!"word/webextensions/_rels/",
          .write c!"word/webextensions/_rels/taskpanes.xml.rels" d.taskpanesRelsPart ]
        ++ webExtensionSteps 0 d.webExtensions
      else [])
  ++ (if d.customItems = [] then [] else [.directory c!"customXml/_rels/"])
  ++ customItemSteps d 0 d.customItems

/-- `Docx::pack`. documents/mod.rs:764-770. -/
def DocxFile.pack (env : Env) (d : DocxFile) (w : World) : Option (Except Error (List Entry) × World) :=
  let p := d.preparePackage env w
  match runSteps (zipDocxSteps env p.1 p.2.1) p.2.2.gen with
  | none => none
  | some (r, g) => some (r, { p.2.2 with gen := g })

/-! ### `Docx::build` and `XMLDocx::pack` -/

/-- `BuildXML::build` of a part: an error of the XML writer is a panic. documents/build_xml.rs:14-23. -/
def buildPart (p : Part) (g : Gen) : Option (Str × Gen) :=
  match p g with
  | some (.ok s, g) => some (s, g)
  | _ => none

/-- `iter().map(|x| x.build()).collect()`. documents/mod.rs:708-728. -/
def buildParts : List Part → Gen → Option (List Str × Gen)
  | [], g => some ([], g)
  | p :: ps, g =>
    match buildPart p g with
    | none => none
    | some (s, g) =>
      match buildParts ps g with
      | none => none
      | some (l, g) => some (s :: l, g)

/-- `XMLDocx`. documents/xml_docx.rs:9-33. -/
structure XmlDocx where
  contentType : Str
  rels : Str
  app : Str
  core : Str
  custom : Str
  styles : Str
  document : Str
  comments : Str
  documentRels : Str
  headerRels : List Str
  footerRels : List Str
  settings : Str
  fontTable : Str
  numberings : Str
  media : List (Str × Bytes)
  headers : List Str
  footers : List Str
  commentsExtended : Str
  taskpanes : Option Str
  taskpanesRels : Str
  webExtensions : List Str
  customItems : List Str
  customItemRels : List Str
  customItemProps : List Str
  footnotes : Str

/-- `build_sparse_relationships`: `resize_with` also truncates. documents/mod.rs:192-203. -/
def buildSparse (parts : List Str) : List (Nat × List (Str × Str)) → Gen → Option (List Str × Gen)
  | [], g => some (parts, g)
  | (i, r) :: rs, g =>
    match buildPart (imageRelsPart r) g with
    | none => none
    | some (s, g) => buildSparse (parts.take i ++ List.replicate (i - parts.length) [] ++ [s]) rs g

/-- The values of `Docx::build` before the parts that are written once. documents/mod.rs:708-731. -/
structure BuiltLists where
  webExtensions : List Str
  customItems : List Str
  customItemProps : List Str
  customItemRels : List Str
  headers : List Str
  footers : List Str
  headerRels : List Str
  footerRels : List Str

/-- documents/mod.rs:708-731. -/
def DocxFile.buildLists (d : DocxFile) (p : PackageMetadata) (g : Gen) : Option (BuiltLists × Gen) := do
  let (webExtensions, g) ← buildParts (d.webExtensions.map webExtensionPart) g
  let (customItems, g) ← buildParts (d.customItems.map customItemPart) g
  let (customItemProps, g) ← buildParts (d.customItemProps.map customItemPropsPart) g
  let (customItemRels, g) ← buildParts (d.customItemRels.map customItemRelsPart) g
  let (headers, g) ← buildParts (d.document.headers.map Header.writeHeader) g
  let (footers, g) ← buildParts (d.document.footers.map Header.writeFooter) g
  let (headerRels, g) ← buildSparse [] p.headerRels g
  let (footerRels, g) ← buildSparse [] p.footerRels g
  return (⟨webExtensions, customItems, customItemProps, customItemRels, headers, footers, headerRels, footerRels⟩, g)

/-- `taskpanes.map(|t| t.build())`. documents/mod.rs:750. -/
def buildTaskpanes : Bool → Gen → Option (Option Str × Gen)
  | false, g => some (none, g)
  | true, g => (buildPart taskpanesPart g).map fun r => (some r.1, r.2)

/-- The fields of the struct expression are evaluated in the order in which they are written. documents/mod.rs:733-757. -/
def DocxFile.buildRest (env : Env) (d : DocxFile) (p : PackageMetadata) (l : BuiltLists) (g : Gen) : Option (XmlDocx × Gen) := do
  let (contentType, g) ← buildPart d.contentTypesPart g
  let (rels, g) ← buildPart d.relsPart g
  let (app, g) ← buildPart appPart g
  let (core, g) ← buildPart d.corePart g
  let (custom, g) ← buildPart (d.customPart env) g
  let (styles, g) ← buildPart d.stylesPart g
  let (document, g) ← buildPart d.document.write g
  let (comments, g) ← buildPart (writeComments d.comments) g
  let (documentRels, g) ← buildPart d.documentRelsPart g
  let (settings, g) ← buildPart d.settingsPart g
  let (fontTable, g) ← buildPart fontTablePart g
  let (numberings, g) ← buildPart d.numberingPart g
  let (commentsExtended, g) ← buildPart d.commentsExtendedPart g
  let (taskpanes, g) ← buildTaskpanes d.taskpanes g
  let (taskpanesRels, g) ← buildPart d.taskpanesRelsPart g
  let (footnotes, g) ← buildPart (writeFootnotes d.footnotes) g
  return ({ contentType, rels, app, core, custom, styles, document, comments, documentRels, settings, fontTable,
            numberings, media := p.media, commentsExtended, taskpanes, taskpanesRels, footnotes,
            headers := l.headers, footers := l.footers, headerRels := l.headerRels, footerRels := l.footerRels,
            webExtensions := l.webExtensions, customItems := l.customItems, customItemRels := l.customItemRels,
            customItemProps := l.customItemProps }, g)

/-- `Docx::build`; `none` is a panic. documents/mod.rs:705-757. -/
def DocxFile.build (env : Env) (d : DocxFile) (w : World) : Option (XmlDocx × World) := do
  let p := d.preparePackage env w
  let (l, g) ← p.1.buildLists p.2.1 p.2.2.gen
  let (x, g) ← p.1.buildRest env p.2.1 l g
  return (x, { p.2.2 with gen := g })

/-- The loop over the headers or footers: a relationship part for every non-empty entry of the table.
zipper/mod.rs:87-95,97-105. -/
def zipParts (kind : Str) (rels : List Str) : Nat → List Str → List Entry
  | _, [] => []
  | i, h :: hs =>
    ⟨partName kind (i + 1), .text h⟩ ::
      ((match rels[i]? with
        | some r => if r = [] then [] else [⟨partRelsName kind (i + 1), .text r⟩]
        | none => []) ++ zipParts kind rels (i + 1) hs)

/-- The loop over the custom items; `none` is an index out of range. zipper/mod.rs:139-147. -/
def zipCustomItems (x : XmlDocx) : Nat → List Str → Option (List Entry)
  | _, [] => some []
  | i, c :: cs => do
    let r ← x.customItemRels[i]?
    let p ← x.customItemProps[i]?
    let l ← zipCustomItems x (i + 1) cs
    return [⟨itemRelsName (i + 1), .text r⟩, ⟨itemName (i + 1), .text c⟩, ⟨itemPropsName (i + 1), .text p⟩] ++ l

/-- The loop over the web extensions. zipper/mod.rs:126-132. -/
def zipWebExtensions : Nat → List Str → List Entry
  | _, [] => []
  | i, e :: es => ⟨webExtensionName (i + 1), .text e⟩ :: zipWebExtensions (i + 1) es

/-- The task panes. zipper/mod.rs:117-133. -/
def zipTaskpanes (x : XmlDocx) : List Entry :=
  match x.taskpanes with
  | none => []
  | some t =>
    [ ⟨c!"word/webextensions/", .directory⟩,
      ⟨c!"word/webextensions/taskpanes.xml", .text t⟩,
      ⟨c!"word/webextensions/_rels/", .directory⟩,
      ⟨c!"word/webextensions/_rels/taskpanes.xml.rels", .text x.taskpanesRels⟩ ]
    ++ zipWebExtensions 0 x.webExtensions

/-- `XMLDocx::pack`, `zip`. documents/xml_docx.rs:37-42, zipper/mod.rs:41-151. -/
def XmlDocx.pack (x : XmlDocx) : Option (List Entry) := do
  let items ← zipCustomItems x 0 x.customItems
  return [ ⟨c!"word/", .directory⟩, ⟨c!"word/_rels/", .directory⟩, ⟨c!"_rels/", .directory⟩, ⟨c!"docProps/", .directory⟩,
      ⟨c!"[Content_Types].xml", .text x.contentType⟩,
      ⟨c!"_rels/.rels", .text x.rels⟩,
      ⟨c!"docProps/app.xml", .text x.app⟩,
      ⟨c!"docProps/core.xml", .text x.core⟩,
      ⟨c!"docProps/custom.xml", .text x.custom⟩,
      ⟨c!"word/_rels/document.xml.rels", .text x.documentRels⟩,
      ⟨c!"word/document.xml", .text x.document⟩,
      ⟨c!"word/styles.xml", .text x.styles⟩,
      ⟨c!"word/settings.xml", .text x.settings⟩,
      ⟨c!"word/fontTable.xml", .text x.fontTable⟩,
      ⟨c!"word/comments.xml", .text x.comments⟩,
      ⟨c!"word/numbering.xml", .text x.numberings⟩,
      ⟨c!"word/commentsExtended.xml", .text x.commentsExtended⟩,
      ⟨c!"word/footnotes.xml", .text x.footnotes⟩ ]
    ++ zipParts c!"header" x.headerRels 0 x.headers
    ++ zipParts c!"footer" x.footerRels 0 x.footers
    ++ (if x.media = [] then [] else ⟨c!"word/media/", .directory⟩ :: x.media.map fun m => ⟨mediaName m.1, .bytes m.2⟩)
    ++ zipTaskpanes x
    ++ (if x.customItems = [] then [] else [⟨c!"customXml/_rels/", .directory⟩])
    ++ items

end Docx
