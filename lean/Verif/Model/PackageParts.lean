import Verif.Model.Parts
import Verif.Model.Styles
import Verif.Model.XmlJson

/-!
# The small parts of a package: content types, relationships, settings, styles, numbering, properties

Every writer returns the events it sends to the XML writer, as in `Model/BuildProps.lean`. Writers without id
generators return a list of tags.
-/

namespace Docx

open Docx.Spec (Tag)

/-! ## Content types (`documents/content_types.rs`) -/

/-- `BTreeMap::insert`: the table is kept sorted by key. content_types.rs:12. The order of `String`s is the order of
their characters. -/
def insertType (k v : Str) : List (Str × Str) → List (Str × Str)
  | [] => [(k, v)]
  | (k', v') :: r => if k = k' then (k, v) :: r else if k < k' then (k, v) :: (k', v') :: r else (k', v') :: insertType k v r

/-- `ContentTypes`. content_types.rs:11-17,143-153. -/
structure ContentTypes where
  types : List (Str × Str) := []
  webExtensionCount : Nat := 1
  customXmlCount : Nat := 1
  headerCount : Nat := 0
  footerCount : Nat := 0

/-- `add_content`, and the `insert` calls. content_types.rs:24-27. -/
def ContentTypes.add (c : ContentTypes) (path type : Str) : ContentTypes := { c with types := insertType path type c.types }

/-- The prefix shared by the types of the WordprocessingML parts. -/
def wordType (s : Str) : Str := c!"application/vnd.openxmlformats-officedocument.wordprocessingml." ++ s ++ c!"+xml"

/-- `set_default`. content_types.rs:29-85. -/
def ContentTypes.setDefault (c : ContentTypes) : ContentTypes :=
  [ (c!"/_rels/.rels", c!"application/vnd.openxmlformats-package.relationships+xml"),
    (c!"/docProps/app.xml", c!"application/vnd.openxmlformats-officedocument.extended-properties+xml"),
    (c!"/docProps/core.xml", c!"application/vnd.openxmlformats-package.core-properties+xml"),
    (c!"/word/_rels/document.xml.rels", c!"application/vnd.openxmlformats-package.relationships+xml"),
    (c!"/word/settings.xml", wordType c!"settings"),
    (c!"/word/fontTable.xml", wordType c!"fontTable"),
    (c!"/word/document.xml", wordType c!"document.main"),
    (c!"/word/styles.xml", wordType c!"styles"),
    (c!"/word/comments.xml", wordType c!"comments"),
    (c!"/word/numbering.xml", wordType c!"numbering"),
    (c!"/word/commentsExtended.xml", wordType c!"commentsExtended"),
    (c!"/docProps/custom.xml", c!"application/vnd.openxmlformats-officedocument.custom-properties+xml")
  ].foldl (fun c p => c.add p.1 p.2) c

/-- `add_taskpanes`. content_types.rs:87-93. -/
def ContentTypes.addTaskpanes (c : ContentTypes) : ContentTypes :=
  c.add c!"/word/webextensions/taskpanes.xml" c!"application/vnd.ms-office.webextensiontaskpanes+xml"

/-- `add_web_extensions`. content_types.rs:95-105. -/
def ContentTypes.addWebExtensions (c : ContentTypes) : ContentTypes :=
  { c.add (c!"/word/webextensions/webextension" ++ dec c.webExtensionCount ++ c!".xml")
      c!"application/vnd.ms-office.webextension+xml" with webExtensionCount := c.webExtensionCount + 1 }

/-- `add_custom_xml`, which numbers with the count of web extensions. content_types.rs:107-114. -/
def ContentTypes.addCustomXml (c : ContentTypes) : ContentTypes :=
  { c.add (c!"/customXml/itemProps" ++ dec c.webExtensionCount ++ c!".xml")
      c!"application/vnd.openxmlformats-officedocument.customXmlProperties+xml" with customXmlCount := c.customXmlCount + 1 }

/-- `add_header`. content_types.rs:116-123. -/
def ContentTypes.addHeader (c : ContentTypes) : ContentTypes :=
  { c.add (c!"/word/header" ++ dec (c.headerCount + 1) ++ c!".xml") (wordType c!"header") with headerCount := c.headerCount + 1 }

/-- `add_footer`. content_types.rs:125-132. -/
def ContentTypes.addFooter (c : ContentTypes) : ContentTypes :=
  { c.add (c!"/word/footer" ++ dec (c.footerCount + 1) ++ c!".xml") (wordType c!"footer") with footerCount := c.footerCount + 1 }

/-- `add_footnotes`. content_types.rs:133-140. -/
def ContentTypes.addFootnotes (c : ContentTypes) : ContentTypes := c.add c!"/word/footnotes.xml" (wordType c!"footnotes")

/-- `add_default`: an element `Default`. xml_builder/mod.rs:192-199. -/
def defaultType (extension type : Str) : List Tag := leaf c!"Default" [(c!"ContentType", type), (c!"Extension", extension)]
/-- `add_override`. xml_builder/mod.rs:183-190. -/
def overrideType (path type : Str) : List Tag := leaf c!"Override" [(c!"PartName", path), (c!"ContentType", type)]

/-- content_types.rs:155-177, xml_builder/mod.rs:176-178. -/
def ContentTypes.tags (c : ContentTypes) : List Tag :=
  [.opn c!"Types" [(c!"xmlns", c!"http://schemas.openxmlformats.org/package/2006/content-types")]]
  ++ defaultType c!"png" c!"image/png" ++ defaultType c!"jpeg" c!"image/jpeg" ++ defaultType c!"jpg" c!"image/jpg"
  ++ defaultType c!"bmp" c!"image/bmp" ++ defaultType c!"gif" c!"image/gif"
  ++ defaultType c!"rels" c!"application/vnd.openxmlformats-package.relationships+xml"
  ++ defaultType c!"xml" c!"application/xml"
  ++ c.types.flatMap (fun t => overrideType t.1 t.2) ++ [.cls]

/-! ## Relationships -/

/-- `relationship`. xml_builder/relationship.rs:11. -/
def relationshipTags (id type target : Str) : List Tag :=
  leaf c!"Relationship" [(c!"Id", id), (c!"Type", type), (c!"Target", target)]
/-- `relationship_with_mode`. xml_builder/relationship.rs:12-19. -/
def relationshipWithModeTags (id type target mode : Str) : List Tag :=
  leaf c!"Relationship" [(c!"Id", id), (c!"Type", type), (c!"Target", target), (c!"TargetMode", mode)]

/-- `open_relationships` ... `close`. xml_builder/relationship.rs:8. -/
def relationshipsTags (body : List Tag) : List Tag :=
  [.opn c!"Relationships" [(c!"xmlns", c!"http://schemas.openxmlformats.org/package/2006/relationships")]] ++ body ++ [.cls]

/-- The prefix shared by most relationship types. -/
def officeRel (s : Str) : Str := c!"http://schemas.openxmlformats.org/officeDocument/2006/relationships/" ++ s

/-- `Rels`: (type, id, target). rels.rs:8-10. -/
structure Rels where
  rels : List (Str × Str × Str) := []

/-- `set_default`. rels.rs:17-41. -/
def Rels.setDefault (r : Rels) : Rels :=
  { rels := r.rels ++
      [ (c!"http://schemas.openxmlformats.org/package/2006/relationships/metadata/core-properties", c!"rId1", c!"docProps/core.xml"),
        (officeRel c!"extended-properties", c!"rId2", c!"docProps/app.xml"),
        (officeRel c!"officeDocument", c!"rId3", c!"word/document.xml"),
        (officeRel c!"custom-properties", c!"rId4", c!"docProps/custom.xml") ] }

/-- `add_rel`. rels.rs:51-58. -/
def Rels.addRel (r : Rels) (type target : Str) : Rels :=
  { rels := r.rels ++ [(type, c!"rId" ++ dec (r.rels.length + 1), target)] }

/-- `add_taskpanes_rel`. rels.rs:43-49. -/
def Rels.addTaskpanesRel (r : Rels) : Rels :=
  r.addRel c!"http://schemas.microsoft.com/office/2011/relationships/webextensiontaskpanes" c!"word/webextensions/taskpanes.xml"

/-- rels.rs:65-77. -/
def Rels.tags (r : Rels) : List Tag := relationshipsTags (r.rels.flatMap fun x => relationshipTags x.2.1 x.1 x.2.2)

/-- `DocumentRels`. document_rels.rs:10-19. Hyperlinks are (id, path, mode). -/
structure DocumentRels where
  hasComments : Bool := false
  hasNumberings : Bool := false
  hasFootnotes : Bool := false
  images : List (Str × Str) := []
  hyperlinks : List (Str × Str × Str) := []
  customXmlCount : Nat := 0
  headerCount : Nat := 0
  footerCount : Nat := 0

/-- document_rels.rs:48-136. -/
def DocumentRels.tags (r : DocumentRels) : List Tag :=
  relationshipsTags
    (relationshipTags c!"rId1" (officeRel c!"styles") c!"styles.xml"
    ++ relationshipTags c!"rId2" (officeRel c!"fontTable") c!"fontTable.xml"
    ++ relationshipTags c!"rId3" (officeRel c!"settings") c!"settings.xml"
    ++ relationshipTags c!"rId5" c!"http://schemas.microsoft.com/office/2011/relationships/commentsExtended" c!"commentsExtended.xml"
    ++ (if r.hasComments then relationshipTags c!"rId6" (officeRel c!"comments") c!"comments.xml" else [])
    ++ (if r.hasNumberings then relationshipTags c!"rId7" (officeRel c!"numbering") c!"numbering.xml" else [])
    ++ (if r.hasFootnotes then relationshipTags c!"rId8" (officeRel c!"footnotes") c!"footnotes.xml" else [])
    ++ (List.range r.headerCount).flatMap (fun i =>
        relationshipTags (createHeaderRid (i + 1)) (officeRel c!"header") (c!"header" ++ dec (i + 1) ++ c!".xml"))
    ++ (List.range r.footerCount).flatMap (fun i =>
        relationshipTags (createFooterRid (i + 1)) (officeRel c!"footer") (c!"footer" ++ dec (i + 1) ++ c!".xml"))
    ++ (List.range r.customXmlCount).flatMap (fun i =>
        relationshipTags (c!"rId" ++ dec (i + 8)) (officeRel c!"customXml") (c!"../customXml/item" ++ dec (i + 1) ++ c!".xml"))
    ++ r.images.flatMap (fun x => relationshipTags x.1 (officeRel c!"image") x.2)
    ++ r.hyperlinks.flatMap (fun x => relationshipWithModeTags x.1 (officeRel c!"hyperlink") x.2.1 x.2.2))

/-- `HeaderRels` and `FooterRels`: images (id, path). header_rels.rs:27-45, footer_rels.rs:27-45. -/
def imageRelsTags (images : List (Str × Str)) : List Tag :=
  relationshipsTags (images.flatMap fun x => relationshipTags x.1 (officeRel c!"image") x.2)

/-- `CustomItemRels`, its count. custom_item_rels.rs:24-42. -/
def customItemRelsTags (count : Nat) : List Tag :=
  relationshipsTags ((List.range count).flatMap fun i =>
    relationshipTags (c!"rId" ++ dec (i + 1)) (officeRel c!"customXmlProps") (c!"itemProps" ++ dec (i + 1) ++ c!".xml"))

/-- `TaskpanesRels`: (type, id, target). taskpanes_rels.rs:8-10, `add_rel` 17-25. -/
def taskpanesRelsAdd (rels : List (Str × Str × Str)) : List (Str × Str × Str) :=
  rels ++ [(c!"http://schemas.microsoft.com/office/2011/relationships/webextension", c!"rId" ++ dec (rels.length + 1),
    c!"webextension" ++ dec (rels.length + 1) ++ c!".xml")]

/-- taskpanes_rels.rs:32-44. -/
def taskpanesRelsTags (rels : List (Str × Str × Str)) : List Tag :=
  relationshipsTags (rels.flatMap fun x => relationshipTags x.2.1 x.1 x.2.2)

/-! ## Task panes, web extensions, custom XML -/

/-- taskpanes.rs:16-33, xml_builder/elements.rs:560-569. -/
def taskpanesTags : List Tag :=
  [ .opn c!"wetp:taskpanes" [(c!"xmlns:wetp", c!"http://schemas.microsoft.com/office/webextensions/taskpanes/2010/11")],
    .opn c!"wetp:taskpane" [(c!"dockstate", []), (c!"visibility", c!"1"), (c!"width", c!"350"), (c!"row", c!"1")] ]
  ++ leaf c!"wetp:webextensionref"
      [(c!"xmlns:r", c!"http://schemas.openxmlformats.org/officeDocument/2006/relationships"), (c!"r:id", c!"rId1")]
  ++ [.cls, .cls]

/-- `WebExtension`. webextension.rs:24-31. Properties are (name, value). -/
structure WebExtension where
  id : Str
  referenceId : Str
  version : Str
  store : Str
  storeType : Str
  properties : List (Str × Str) := []

/-- `s.replace("&quot;", "\\&quot;")` after `escape`. webextension.rs:53. -/
def escapeQuoted : Str → Str
  | [] => []
  | c :: s => if c = '"' then c!"\\&quot;" ++ escapeQuoted s else escapeChar c ++ escapeQuoted s

/-- `WebExtension::property`. webextension.rs:51-56. Simplification: escaping and the replacement of `&quot;` are done
in one pass; every `&quot;` in an escaped text stands for a quotation mark. -/
def WebExtension.property (w : WebExtension) (name value : Str) : WebExtension :=
  { w with properties := w.properties ++ [(name, c!"&quot;" ++ escapeQuoted value ++ c!"&quot;")] }

/-- webextension.rs:59-89, xml_builder/elements.rs:544-557. -/
def WebExtension.tags (w : WebExtension) : List Tag :=
  [.opn c!"we:webextension" [(c!"xmlns:we", c!"http://schemas.microsoft.com/office/webextensions/webextension/2010/11"),
    (c!"id", c!"{" ++ w.id ++ c!"}")]]
  ++ leaf c!"we:reference" [(c!"id", w.referenceId), (c!"version", w.version), (c!"store", w.store), (c!"storeType", w.storeType)]
  ++ leaf c!"we:alternateReferences"
  ++ ([.opn c!"we:properties" []] ++ w.properties.flatMap (fun p => leaf c!"we:property" [(c!"name", p.1), (c!"value", p.2)]) ++ [.cls])
  ++ leaf c!"we:bindings"
  ++ leaf c!"we:snapshot" [(c!"xmlns:r", c!"http://schemas.openxmlformats.org/officeDocument/2006/relationships")]
  ++ [.cls]

/-- `CustomItemProperty`, its id. custom_item_property.rs:18-34. -/
def customItemPropertyTags (id : Str) : List Tag :=
  [ .opn c!"ds:datastoreItem" [(c!"xmlns:ds", c!"http://schemas.openxmlformats.org/officeDocument/2006/customXml"),
      (c!"ds:itemID", c!"{" ++ id ++ c!"}")],
    .opn c!"ds:schemaRefs" [], .cls, .cls ]

/-! ## Settings, fonts, extended comments -/

/-- `Settings`. settings.rs:12-21,59-71. -/
structure Settings where
  defaultTabStop : Nat := 840
  zoom : Nat := 100
  docId : Option Str := none
  docVars : List (Str × Str) := []
  evenAndOddHeaders : Bool := false
  adjustLineHeightInTable : Bool := false
  characterSpacingControl : Option CharacterSpacingValues := none

/-- `compat_setting`. xml_builder/elements.rs:517-523. -/
def compatSettingTags (name v : Str) : List Tag :=
  leaf c!"w:compatSetting" [(c!"w:name", name), (c!"w:uri", c!"http://schemas.microsoft.com/office/word"), (c!"w:val", v)]

/-- `w:compat`. settings.rs:83-126. -/
def Settings.compatTags (s : Settings) : List Tag :=
  [.opn c!"w:compat" []]
  ++ leaf c!"w:spaceForUL" ++ leaf c!"w:balanceSingleByteDoubleByteWidth" ++ leaf c!"w:doNotLeaveBackslashAlone"
  ++ leaf c!"w:ulTrailSpace" ++ leaf c!"w:doNotExpandShiftReturn"
  ++ optTags s.characterSpacingControl (fun v => valEl c!"w:characterSpacingControl" v.toStr)
  ++ (if s.adjustLineHeightInTable then leaf c!"w:adjustLineHeightInTable" else [])
  ++ leaf c!"w:useFELayout"
  ++ compatSettingTags c!"compatibilityMode" c!"15" ++ compatSettingTags c!"overrideTableStyleFontSizeAndJustification" c!"1"
  ++ compatSettingTags c!"enableOpenTypeFeatures" c!"1" ++ compatSettingTags c!"doNotFlipMirrorIndents" c!"1"
  ++ compatSettingTags c!"differentiateMultirowTableHeaders" c!"1" ++ compatSettingTags c!"useWord2013TrackBottomHyphenation" c!"0"
  ++ [.cls]

/-- The attributes of `w:settings`. xml_builder/settings.rs:7-23. -/
def settingsAttrs : List (Str × Str) :=
  [(c!"xmlns:w", c!"http://schemas.openxmlformats.org/wordprocessingml/2006/main"),
   (c!"xmlns:w14", c!"http://schemas.microsoft.com/office/word/2010/wordml"),
   (c!"xmlns:w15", c!"http://schemas.microsoft.com/office/word/2012/wordml")]

/-- settings.rs:73-135. -/
def Settings.tags (s : Settings) : List Tag :=
  [.opn c!"w:settings" settingsAttrs]
  ++ valEl c!"w:defaultTabStop" (dec s.defaultTabStop)
  ++ leaf c!"w:zoom" [(c!"w:percent", dec s.zoom)]
  ++ s.compatTags
  ++ optTags s.docId (fun i => leaf c!"w15:docId" [(c!"w15:val", c!"{" ++ i ++ c!"}")])
  ++ (if s.docVars.isEmpty then [] else
      [.opn c!"w:docVars" []] ++ s.docVars.flatMap (fun v => leaf c!"w:docVar" [(c!"w:name", v.1), (c!"w:val", v.2)]) ++ [.cls])
  ++ (if s.evenAndOddHeaders then leaf c!"w:evenAndOddHeaders" else [])
  ++ [.cls]

/-- `Font::build_to`. elements/font.rs:25-38. -/
def fontTags (name charset family : Str) (pitch : FontPitchType) : List Tag :=
  [.opn c!"w:font" [(c!"w:name", name)]] ++ valEl c!"w:charset" charset ++ valEl c!"w:family" family
  ++ valEl c!"w:pitch" pitch.toStr ++ [.cls]

/-- font_table.rs:19-36, xml_builder/fonts.rs:8-20. -/
def fontTableTags : List Tag :=
  [.opn c!"w:fonts" [(c!"xmlns:w", c!"http://schemas.openxmlformats.org/wordprocessingml/2006/main"),
    (c!"xmlns:r", c!"http://schemas.openxmlformats.org/officeDocument/2006/relationships")]]
  ++ fontTags c!"Times New Roman" c!"00" c!"roman" .variable ++ fontTags c!"Symbol" c!"02" c!"roman" .variable
  ++ fontTags c!"Arial" c!"00" c!"swiss" .variable ++ [.cls]

/-- `CommentExtended`. elements/comment_extended.rs:9-13. -/
structure CommentExtended where
  paragraphId : Str
  done : Bool := false
  parentParagraphId : Option Str := none
deriving DecidableEq

/-- elements/comment_extended.rs:35-44, xml_builder/elements.rs:582-598. -/
def CommentExtended.tags (c : CommentExtended) : List Tag :=
  leaf c!"w15:commentEx" ([(c!"w15:paraId", c.paragraphId)] ++ optAttr c!"w15:paraIdParent" c.parentParagraphId
    ++ [(c!"w15:done", bitText c.done)])

/-- comments_extended.rs:25-36. -/
def commentsExtendedTags (l : List CommentExtended) : List Tag :=
  [.opn c!"w15:commentsEx" commentsExtendedAttrs] ++ l.flatMap CommentExtended.tags ++ [.cls]

/-! ## Document properties (`documents/doc_props/*.rs`) -/

/-- doc_props/app.rs:17-31. -/
def appPropsTags : List Tag :=
  leaf c!"Properties" [(c!"xmlns", c!"http://schemas.openxmlformats.org/officeDocument/2006/extended-properties"),
    (c!"xmlns:vt", c!"http://schemas.openxmlformats.org/officeDocument/2006/docPropsVTypes")]

/-- `CorePropsConfig`. doc_props/core.rs:15-25. -/
structure CoreProps where
  created : Option Str := none
  creator : Option Str := none
  description : Option Str := none
  language : Option Str := none
  lastModifiedBy : Option Str := none
  modified : Option Str := none
  revision : Option Nat := none
  subject : Option Str := none
  title : Option Str := none

/-- `closed_with_child!`: the text is written as it is. xml_builder/macros.rs:232-250. -/
def childEl (name : Str) (attrs : List (Str × Str)) (s : Str) : List Tag := [.opn name attrs, .txt s, .cls]

/-- The attributes of `cp:coreProperties`. doc_props/core.rs:66-72. -/
def corePropsAttrs : List (Str × Str) :=
  [(c!"xmlns:cp", c!"http://schemas.openxmlformats.org/package/2006/metadata/core-properties"),
   (c!"xmlns:dc", c!"http://purl.org/dc/elements/1.1/"), (c!"xmlns:dcterms", c!"http://purl.org/dc/terms/"),
   (c!"xmlns:dcmitype", c!"http://purl.org/dc/dcmitype/"), (c!"xmlns:xsi", c!"http://www.w3.org/2001/XMLSchema-instance")]

/-- doc_props/core.rs:59-97. -/
def CoreProps.tags (p : CoreProps) : List Tag :=
  [.opn c!"cp:coreProperties" corePropsAttrs]
  ++ childEl c!"dcterms:created" [(c!"xsi:type", c!"dcterms:W3CDTF")] (p.created.getD c!"1970-01-01T00:00:00Z")
  ++ childEl c!"dc:creator" [] (p.creator.getD c!"unknown")
  ++ childEl c!"cp:lastModifiedBy" [] (p.lastModifiedBy.getD c!"unknown")
  ++ childEl c!"dcterms:modified" [(c!"xsi:type", c!"dcterms:W3CDTF")] (p.modified.getD c!"1970-01-01T00:00:00Z")
  ++ childEl c!"cp:revision" [] (dec (p.revision.getD 1))
  ++ optTags p.description (childEl c!"dc:description" []) ++ optTags p.language (childEl c!"dc:language" [])
  ++ optTags p.subject (childEl c!"dc:subject" []) ++ optTags p.title (childEl c!"dc:title" [])
  ++ [.cls]

/-- `CustomProps`: the entries in the order the `HashMap` yields them. doc_props/custom.rs:24-49. -/
def customPropsTags (entries : List (Str × Str)) : List Tag :=
  [.opn c!"Properties" [(c!"xmlns", c!"http://schemas.openxmlformats.org/officeDocument/2006/custom-properties"),
    (c!"xmlns:vt", c!"http://schemas.openxmlformats.org/officeDocument/2006/docPropsVTypes")]]
  ++ entries.zipIdx.flatMap (fun x =>
      [.opn c!"property" [(c!"fmtid", c!"{D5CDD505-2E9C-101B-9397-08002B2CF9AE}"), (c!"pid", dec (x.2 + 2)), (c!"name", x.1.1)]]
      ++ childEl c!"vt:lpwstr" [] x.1.2 ++ [.cls])
  ++ [.cls]

/-- `HashMap::insert` on an association list without repeated keys. doc_props/custom.rs:18-21, mod.rs:955,2268. -/
def hashInsert {α β : Type} [DecidableEq α] (k : α) (v : β) (m : List (α × β)) : List (α × β) :=
  m.filter (fun x => decide (x.1 ≠ k)) ++ [(k, v)]

/-! ## Styles (`documents/styles.rs`, `elements/style.rs`, `elements/doc_defaults.rs`) -/

/-- `DocDefaults` with `RunPropertyDefault` and `ParagraphPropertyDefault`. elements/doc_defaults.rs:12-15. -/
structure DocDefaults where
  runProperty : RunProperty := {}
  paragraphProperty : ParagraphProperty := {}

/-- `Styles`. styles.rs:11-14. -/
structure Styles where
  docDefaults : DocDefaults := {}
  styles : List Style := []

/-- elements/doc_defaults.rs:64-76, run_property_default.rs:47-58, paragraph_property_default.rs:37-48. -/
def DocDefaults.build (d : DocDefaults) : B :=
  cat
    [ emit [.opn c!"w:docDefaults" []],
      cat [emit [.opn c!"w:rPrDefault" []], d.runProperty.build, emit [.cls]],
      cat [emit [.opn c!"w:pPrDefault" []], d.paragraphProperty.build, emit [.cls]],
      emit [.cls] ]

/-- `Style::build_to`. elements/style.rs:387-414, xml_builder/elements.rs:221-227. -/
def Style.build (s : Style) : B :=
  cat
    [ emit [.opn c!"w:style" [(c!"w:type", s.styleType.toStr), (c!"w:styleId", s.styleId)]],
      emit (valEl c!"w:name" s.name),
      s.runProperty.build,
      s.paragraphProperty.build,
      ifB (decide (s.styleType = .table)) (emit (s.tableCellProperty.tags ++ s.tableProperty.tags)),
      emit (optTags s.next (valEl c!"w:next")),
      emit (optTags s.link (valEl c!"w:link")),
      emit (if s.qFormat then leaf c!"w:qFormat" else []),
      emit (optTags s.uiPriority (fun n => valEl c!"w:uiPriority" (dec n))),
      emit (if s.semiHidden then leaf c!"w:semiHidden" else []),
      emit (if s.unhideWhenUsed then leaf c!"w:unhideWhenUsed" else []),
      emit (optTags s.basedOn (valEl c!"w:basedOn")),
      emit [.cls] ]

/-- The attributes of `w:styles`. xml_builder/styles.rs:9-34. -/
def stylesAttrs : List (Str × Str) :=
  [(c!"xmlns:mc", c!"http://schemas.openxmlformats.org/markup-compatibility/2006"),
   (c!"xmlns:r", c!"http://schemas.openxmlformats.org/officeDocument/2006/relationships"),
   (c!"xmlns:w", c!"http://schemas.openxmlformats.org/wordprocessingml/2006/main"),
   (c!"xmlns:w14", c!"http://schemas.microsoft.com/office/word/2010/wordml"),
   (c!"xmlns:w15", c!"http://schemas.microsoft.com/office/word/2012/wordml"),
   (c!"mc:Ignorable", c!"w14 w15")]

/-- The style that is always written. styles.rs:84. -/
def normalStyle : Style := (Style.new c!"Normal" .paragraph).setName c!"Normal"

/-- styles.rs:79-93. -/
def Styles.build (s : Styles) : B :=
  cat
    [ emit [.opn c!"w:styles" stylesAttrs],
      s.docDefaults.build,
      normalStyle.build,
      eachB Style.build s.styles,
      emit [.cls] ]

/-- `preset_styles::toc`. documents/preset_styles/toc.rs:4-12. -/
def tocStyle (level : Nat) : Style :=
  let s := (Style.new (c!"ToC" ++ dec level) .paragraph).setName (c!"toc " ++ dec level)
  { s with
    paragraphProperty :=
      (((s.paragraphProperty.setAlign .both).setSnapToGrid false).setIndent (some ((level - 1 : Nat) * 200)) none none
        (some ((level - 1 : Nat) * 100))).setLineSpacing { after := some 100 } }

/-! ## Numbering (`documents/numberings.rs`, `elements/{abstract_numbering,level,level_override,numbering}.rs`) -/

/-- `Level`. elements/level.rs:10-23. The wrappers `Start`, `NumberFormat`, `LevelText`, `LevelJc`, `ParagraphStyle`,
`LevelRestart`, `IsLgl` are the values they hold. -/
structure Level where
  level : Nat
  start : Nat
  format : Str
  text : Str
  jc : Str
  paragraphProperty : ParagraphProperty := {}
  runProperty : RunProperty := {}
  suffix : LevelSuffixType := .tab
  pstyle : Option Str := none
  levelRestart : Option Nat := none
  isLgl : Bool := false

/-- elements/level.rs:158-180. -/
def Level.build (l : Level) : B :=
  cat
    [ emit [.opn c!"w:lvl" [(c!"w:ilvl", dec l.level)]],
      emit (valEl c!"w:start" (dec l.start)),
      emit (valEl c!"w:numFmt" l.format),
      emit (valEl c!"w:lvlText" l.text),
      emit (valEl c!"w:lvlJc" l.jc),
      l.paragraphProperty.build,
      l.runProperty.build,
      emit (optTags l.pstyle (valEl c!"w:pStyle")),
      emit (optTags l.levelRestart (fun n => valEl c!"w:lvlRestart" (dec n))),
      emit (if l.isLgl then leaf c!"w:isLgl" else []),
      emit (if l.suffix = .tab then [] else valEl c!"w:suff" l.suffix.toStr),
      emit [.cls] ]

/-- `AbstractNumbering`. elements/abstract_numbering.rs:9-16. -/
structure AbstractNumbering where
  id : Nat
  styleLink : Option Str := none
  numStyleLink : Option Str := none
  levels : List Level := []
  multiLevelType : Option Str := none

/-- elements/abstract_numbering.rs:45-59: the style links are not written. -/
def AbstractNumbering.build (a : AbstractNumbering) : B :=
  cat
    [ emit [.opn c!"w:abstractNum" [(c!"w:abstractNumId", dec a.id)]],
      emit (optTags a.multiLevelType (valEl c!"w:multiLevelType")),
      eachB Level.build a.levels,
      emit [.cls] ]

/-- `LevelOverride`. elements/level_override.rs:15-19. -/
structure LevelOverride where
  level : Nat
  overrideStart : Option Nat := none
  overrideLevel : Option Level := none

/-- elements/level_override.rs:41-55. -/
def LevelOverride.build (o : LevelOverride) : B :=
  cat
    [ emit [.opn c!"w:lvlOverride" [(c!"w:ilvl", dec o.level)]],
      optB o.overrideLevel Level.build,
      emit (optTags o.overrideStart (fun n => valEl c!"w:startOverride" (dec n))),
      emit [.cls] ]

/-- `Numbering`. elements/numbering.rs:10-14. -/
structure Numbering where
  id : Nat
  abstractNumId : Nat
  overrides : List LevelOverride := []

/-- elements/numbering.rs:36-50. -/
def Numbering.build (n : Numbering) : B :=
  cat
    [ emit [.opn c!"w:num" [(c!"w:numId", dec n.id)]],
      emit (valEl c!"w:abstractNumId" (dec n.abstractNumId)),
      eachB LevelOverride.build n.overrides,
      emit [.cls] ]

/-- `Numberings`. numberings.rs:11-14. -/
structure Numberings where
  abstractNums : List AbstractNumbering := []
  numberings : List Numbering := []

/-- One level of the default numbering. numberings.rs:51-175. -/
def defaultLevel (n : Nat) (format text : Str) : Level :=
  { level := n, start := 1, format := format, text := text, jc := c!"left",
    paragraphProperty := ({} : ParagraphProperty).setIndent (some (420 * ((n + 1 : Nat) : Int))) (some (.hanging 420)) none none }

/-- `create_default_numbering`. numberings.rs:49-176. -/
def defaultNumbering : AbstractNumbering :=
  { id := 1,
    levels :=
      [ defaultLevel 0 c!"decimal" c!"%1.", defaultLevel 1 c!"decimal" c!"(%2)",
        defaultLevel 2 c!"decimalEnclosedCircle" c!"%3", defaultLevel 3 c!"decimal" c!"%4.",
        defaultLevel 4 c!"decimal" c!"(%5)", defaultLevel 5 c!"decimalEnclosedCircle" c!"%6",
        defaultLevel 6 c!"decimal" c!"%7.", defaultLevel 7 c!"decimal" c!"(%8)",
        defaultLevel 8 c!"decimalEnclosedCircle" c!"%9" ] }

/-- The attributes of `w:numbering`. xml_builder/numbering.rs:8-22. -/
def numberingAttrs : List (Str × Str) :=
  [(c!"xmlns:r", c!"http://schemas.openxmlformats.org/officeDocument/2006/relationships"),
   (c!"xmlns:o", c!"urn:schemas-microsoft-com:office:office"), (c!"xmlns:v", c!"urn:schemas-microsoft-com:vml"),
   (c!"xmlns:w", c!"http://schemas.openxmlformats.org/wordprocessingml/2006/main")]

/-- numberings.rs:32-47. -/
def Numberings.build (n : Numberings) : B :=
  cat
    [ emit [.opn c!"w:numbering" numberingAttrs],
      defaultNumbering.build,
      eachB AbstractNumbering.build n.abstractNums,
      ({ id := 1, abstractNumId := 1 } : Numbering).build,
      eachB Numbering.build n.numberings,
      emit [.cls] ]

end Docx
