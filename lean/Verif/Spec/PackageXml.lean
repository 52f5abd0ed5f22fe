import Verif.Spec.DocXml
import Verif.Spec.Strings
import Verif.Model.PackageParts

/-!
# Specification: the small parts of a package as element trees, and the strings they copy

The counterpart of `Spec/DocXml.lean` and `Spec/Strings.lean` for content types, relationships, settings, styles,
numbering and document properties.
-/

namespace Docx

open Docx.Spec (Node)

/-- An element around `w:val`-free text. -/
def textEl (name : Str) (attrs : List (Str × Str)) (s : Str) : List Node := [.elem name attrs [.text s]]

/-! Content types. -/

/-- `Default` for an extension. -/
def defaultTypeN (extension type : Str) : List Node := leafN c!"Default" [(c!"ContentType", type), (c!"Extension", extension)]
/-- `Override` for a part. -/
def overrideTypeN (path type : Str) : List Node := leafN c!"Override" [(c!"PartName", path), (c!"ContentType", type)]

/-- `[Content_Types].xml`. -/
def ContentTypes.nodes (c : ContentTypes) : List Node :=
  [.elem c!"Types" [(c!"xmlns", c!"http://schemas.openxmlformats.org/package/2006/content-types")]
    (defaultTypeN c!"png" c!"image/png" ++ defaultTypeN c!"jpeg" c!"image/jpeg" ++ defaultTypeN c!"jpg" c!"image/jpg"
    ++ defaultTypeN c!"bmp" c!"image/bmp" ++ defaultTypeN c!"gif" c!"image/gif"
    ++ defaultTypeN c!"rels" c!"application/vnd.openxmlformats-package.relationships+xml"
    ++ defaultTypeN c!"xml" c!"application/xml"
    ++ c.types.flatMap (fun t => overrideTypeN t.1 t.2))]

/-- The strings of the table. -/
def ContentTypes.strings (c : ContentTypes) : List Str := c.types.flatMap fun t => [t.1, t.2]

/-! Relationships. -/

/-- `Relationship`. -/
def relationshipN (id type target : Str) : List Node :=
  leafN c!"Relationship" [(c!"Id", id), (c!"Type", type), (c!"Target", target)]
/-- `Relationship` with `TargetMode`. -/
def relationshipWithModeN (id type target mode : Str) : List Node :=
  leafN c!"Relationship" [(c!"Id", id), (c!"Type", type), (c!"Target", target), (c!"TargetMode", mode)]
/-- `Relationships`. -/
def relationshipsN (body : List Node) : List Node :=
  [.elem c!"Relationships" [(c!"xmlns", c!"http://schemas.openxmlformats.org/package/2006/relationships")] body]

/-- `_rels/.rels`. -/
def Rels.nodes (r : Rels) : List Node := relationshipsN (r.rels.flatMap fun x => relationshipN x.2.1 x.1 x.2.2)
/-- The strings of the table. -/
def Rels.strings (r : Rels) : List Str := r.rels.flatMap fun x => [x.1, x.2.1, x.2.2]

/-- `word/_rels/document.xml.rels`. -/
def DocumentRels.nodes (r : DocumentRels) : List Node :=
  relationshipsN
    (relationshipN c!"rId1" (officeRel c!"styles") c!"styles.xml"
    ++ relationshipN c!"rId2" (officeRel c!"fontTable") c!"fontTable.xml"
    ++ relationshipN c!"rId3" (officeRel c!"settings") c!"settings.xml"
    ++ relationshipN c!"rId5" c!"http://schemas.microsoft.com/office/2011/relationships/commentsExtended" c!"commentsExtended.xml"
    ++ (if r.hasComments then relationshipN c!"rId6" (officeRel c!"comments") c!"comments.xml" else [])
    ++ (if r.hasNumberings then relationshipN c!"rId7" (officeRel c!"numbering") c!"numbering.xml" else [])
    ++ (if r.hasFootnotes then relationshipN c!"rId8" (officeRel c!"footnotes") c!"footnotes.xml" else [])
    ++ (List.range r.headerCount).flatMap (fun i =>
        relationshipN (createHeaderRid (i + 1)) (officeRel c!"header") (c!"header" ++ dec (i + 1) ++ c!".xml"))
    ++ (List.range r.footerCount).flatMap (fun i =>
        relationshipN (createFooterRid (i + 1)) (officeRel c!"footer") (c!"footer" ++ dec (i + 1) ++ c!".xml"))
    ++ (List.range r.customXmlCount).flatMap (fun i =>
        relationshipN (c!"rId" ++ dec (i + 8)) (officeRel c!"customXml") (c!"../customXml/item" ++ dec (i + 1) ++ c!".xml"))
    ++ r.images.flatMap (fun x => relationshipN x.1 (officeRel c!"image") x.2)
    ++ r.hyperlinks.flatMap (fun x => relationshipWithModeN x.1 (officeRel c!"hyperlink") x.2.1 x.2.2))
/-- The strings of the table. -/
def DocumentRels.strings (r : DocumentRels) : List Str :=
  r.images.flatMap (fun x => [x.1, x.2]) ++ r.hyperlinks.flatMap (fun x => [x.1, x.2.1, x.2.2])

/-- The relationships of a header or footer. -/
def imageRelsN (images : List (Str × Str)) : List Node :=
  relationshipsN (images.flatMap fun x => relationshipN x.1 (officeRel c!"image") x.2)
/-- The relationships of a custom item. -/
def customItemRelsN (count : Nat) : List Node :=
  relationshipsN ((List.range count).flatMap fun i =>
    relationshipN (c!"rId" ++ dec (i + 1)) (officeRel c!"customXmlProps") (c!"itemProps" ++ dec (i + 1) ++ c!".xml"))
/-- The relationships of the task panes. -/
def taskpanesRelsN (rels : List (Str × Str × Str)) : List Node :=
  relationshipsN (rels.flatMap fun x => relationshipN x.2.1 x.1 x.2.2)

/-! Task panes, web extensions, custom XML. -/

/-- `taskpanes.xml`. -/
def taskpanesN : List Node :=
  [.elem c!"wetp:taskpanes" [(c!"xmlns:wetp", c!"http://schemas.microsoft.com/office/webextensions/taskpanes/2010/11")]
    [.elem c!"wetp:taskpane" [(c!"dockstate", []), (c!"visibility", c!"1"), (c!"width", c!"350"), (c!"row", c!"1")]
      (leafN c!"wetp:webextensionref"
        [(c!"xmlns:r", c!"http://schemas.openxmlformats.org/officeDocument/2006/relationships"), (c!"r:id", c!"rId1")])]]

/-- `webextension<n>.xml`. -/
def WebExtension.nodes (w : WebExtension) : List Node :=
  [.elem c!"we:webextension" [(c!"xmlns:we", c!"http://schemas.microsoft.com/office/webextensions/webextension/2010/11"),
      (c!"id", c!"{" ++ w.id ++ c!"}")]
    (leafN c!"we:reference" [(c!"id", w.referenceId), (c!"version", w.version), (c!"store", w.store), (c!"storeType", w.storeType)]
    ++ leafN c!"we:alternateReferences"
    ++ [.elem c!"we:properties" [] (w.properties.flatMap fun p => leafN c!"we:property" [(c!"name", p.1), (c!"value", p.2)])]
    ++ leafN c!"we:bindings"
    ++ leafN c!"we:snapshot" [(c!"xmlns:r", c!"http://schemas.openxmlformats.org/officeDocument/2006/relationships")])]
/-- Strings of `WebExtension`. -/
def WebExtension.strings (w : WebExtension) : List Str :=
  [w.id, w.referenceId, w.version, w.store, w.storeType] ++ w.properties.flatMap fun p => [p.1, p.2]

/-- `itemProps<n>.xml`. -/
def customItemPropertyN (id : Str) : List Node :=
  [.elem c!"ds:datastoreItem" [(c!"xmlns:ds", c!"http://schemas.openxmlformats.org/officeDocument/2006/customXml"),
      (c!"ds:itemID", c!"{" ++ id ++ c!"}")]
    (leafN c!"ds:schemaRefs")]

/-! Settings, fonts, extended comments. -/

/-- `w:compatSetting`. -/
def compatSettingN (name v : Str) : List Node :=
  leafN c!"w:compatSetting" [(c!"w:name", name), (c!"w:uri", c!"http://schemas.microsoft.com/office/word"), (c!"w:val", v)]

/-- `w:compat`. -/
def Settings.compatNodes (s : Settings) : List Node :=
  [.elem c!"w:compat" []
    (leafN c!"w:spaceForUL" ++ leafN c!"w:balanceSingleByteDoubleByteWidth" ++ leafN c!"w:doNotLeaveBackslashAlone"
    ++ leafN c!"w:ulTrailSpace" ++ leafN c!"w:doNotExpandShiftReturn"
    ++ optN s.characterSpacingControl (fun v => valN c!"w:characterSpacingControl" v.toStr)
    ++ (if s.adjustLineHeightInTable then leafN c!"w:adjustLineHeightInTable" else [])
    ++ leafN c!"w:useFELayout"
    ++ compatSettingN c!"compatibilityMode" c!"15" ++ compatSettingN c!"overrideTableStyleFontSizeAndJustification" c!"1"
    ++ compatSettingN c!"enableOpenTypeFeatures" c!"1" ++ compatSettingN c!"doNotFlipMirrorIndents" c!"1"
    ++ compatSettingN c!"differentiateMultirowTableHeaders" c!"1" ++ compatSettingN c!"useWord2013TrackBottomHyphenation" c!"0")]

/-- `word/settings.xml`. -/
def Settings.nodes (s : Settings) : List Node :=
  [.elem c!"w:settings" settingsAttrs
    (valN c!"w:defaultTabStop" (dec s.defaultTabStop)
    ++ leafN c!"w:zoom" [(c!"w:percent", dec s.zoom)]
    ++ s.compatNodes
    ++ optN s.docId (fun i => leafN c!"w15:docId" [(c!"w15:val", c!"{" ++ i ++ c!"}")])
    ++ (if s.docVars.isEmpty then [] else
        [.elem c!"w:docVars" [] (s.docVars.flatMap fun v => leafN c!"w:docVar" [(c!"w:name", v.1), (c!"w:val", v.2)])])
    ++ (if s.evenAndOddHeaders then leafN c!"w:evenAndOddHeaders" else []))]
/-- Strings of `Settings`. -/
def Settings.strings (s : Settings) : List Str := optS s.docId ++ s.docVars.flatMap fun v => [v.1, v.2]

/-- `w:font`. -/
def fontN (name charset family : Str) (pitch : FontPitchType) : List Node :=
  [.elem c!"w:font" [(c!"w:name", name)] (valN c!"w:charset" charset ++ valN c!"w:family" family ++ valN c!"w:pitch" pitch.toStr)]

/-- `word/fontTable.xml`. -/
def fontTableN : List Node :=
  [.elem c!"w:fonts" [(c!"xmlns:w", c!"http://schemas.openxmlformats.org/wordprocessingml/2006/main"),
      (c!"xmlns:r", c!"http://schemas.openxmlformats.org/officeDocument/2006/relationships")]
    (fontN c!"Times New Roman" c!"00" c!"roman" .variable ++ fontN c!"Symbol" c!"02" c!"roman" .variable
    ++ fontN c!"Arial" c!"00" c!"swiss" .variable)]

/-- `w15:commentEx`. -/
def CommentExtended.nodes (c : CommentExtended) : List Node :=
  leafN c!"w15:commentEx" ([(c!"w15:paraId", c.paragraphId)] ++ optAttr c!"w15:paraIdParent" c.parentParagraphId
    ++ [(c!"w15:done", bitText c.done)])
/-- Strings of `CommentExtended`. -/
def CommentExtended.strings (c : CommentExtended) : List Str := c.paragraphId :: optS c.parentParagraphId
/-- `word/commentsExtended.xml`. -/
def commentsExtendedN (l : List CommentExtended) : List Node :=
  [.elem c!"w15:commentsEx" commentsExtendedAttrs (l.flatMap CommentExtended.nodes)]

/-! Document properties. -/

/-- `docProps/app.xml`. -/
def appPropsN : List Node :=
  leafN c!"Properties" [(c!"xmlns", c!"http://schemas.openxmlformats.org/officeDocument/2006/extended-properties"),
    (c!"xmlns:vt", c!"http://schemas.openxmlformats.org/officeDocument/2006/docPropsVTypes")]

/-- `docProps/core.xml`. -/
def CoreProps.nodes (p : CoreProps) : List Node :=
  [.elem c!"cp:coreProperties" corePropsAttrs
    (textEl c!"dcterms:created" [(c!"xsi:type", c!"dcterms:W3CDTF")] (p.created.getD c!"1970-01-01T00:00:00Z")
    ++ textEl c!"dc:creator" [] (p.creator.getD c!"unknown")
    ++ textEl c!"cp:lastModifiedBy" [] (p.lastModifiedBy.getD c!"unknown")
    ++ textEl c!"dcterms:modified" [(c!"xsi:type", c!"dcterms:W3CDTF")] (p.modified.getD c!"1970-01-01T00:00:00Z")
    ++ textEl c!"cp:revision" [] (dec (p.revision.getD 1))
    ++ optN p.description (textEl c!"dc:description" []) ++ optN p.language (textEl c!"dc:language" [])
    ++ optN p.subject (textEl c!"dc:subject" []) ++ optN p.title (textEl c!"dc:title" []))]
/-- Strings of `CoreProps`. -/
def CoreProps.strings (p : CoreProps) : List Str :=
  optS p.created ++ optS p.creator ++ optS p.description ++ optS p.language ++ optS p.lastModifiedBy ++ optS p.modified
    ++ optS p.subject ++ optS p.title

/-- `docProps/custom.xml`. -/
def customPropsN (entries : List (Str × Str)) : List Node :=
  [.elem c!"Properties" [(c!"xmlns", c!"http://schemas.openxmlformats.org/officeDocument/2006/custom-properties"),
      (c!"xmlns:vt", c!"http://schemas.openxmlformats.org/officeDocument/2006/docPropsVTypes")]
    (entries.zipIdx.flatMap fun x =>
      [.elem c!"property" [(c!"fmtid", c!"{D5CDD505-2E9C-101B-9397-08002B2CF9AE}"), (c!"pid", dec (x.2 + 2)), (c!"name", x.1.1)]
        (textEl c!"vt:lpwstr" [] x.1.2)])]

/-! Styles. -/

/-- `w:docDefaults`. -/
def DocDefaults.nodes (d : DocDefaults) : N :=
  elemN c!"w:docDefaults" []
    (catN [elemN c!"w:rPrDefault" [] d.runProperty.nodes, elemN c!"w:pPrDefault" [] d.paragraphProperty.nodes])

/-- `w:style`. -/
def Style.nodes (s : Style) : N :=
  elemN c!"w:style" [(c!"w:type", s.styleType.toStr), (c!"w:styleId", s.styleId)]
    (catN
      [ emitN (valN c!"w:name" s.name),
        s.runProperty.nodes,
        s.paragraphProperty.nodes,
        ifN (decide (s.styleType = .table)) (emitN (s.tableCellProperty.nodes ++ s.tableProperty.nodes)),
        emitN (optN s.next (valN c!"w:next")),
        emitN (optN s.link (valN c!"w:link")),
        emitN (if s.qFormat then leafN c!"w:qFormat" else []),
        emitN (optN s.uiPriority (fun n => valN c!"w:uiPriority" (dec n))),
        emitN (if s.semiHidden then leafN c!"w:semiHidden" else []),
        emitN (if s.unhideWhenUsed then leafN c!"w:unhideWhenUsed" else []),
        emitN (optN s.basedOn (valN c!"w:basedOn")) ])
/-- Strings of `Style`. -/
def Style.strings (s : Style) : List Str :=
  [s.styleId, s.name] ++ s.runProperty.strings ++ s.paragraphProperty.strings ++ s.tableCellProperty.strings
    ++ s.tableProperty.strings ++ optS s.next ++ optS s.link ++ optS s.basedOn

/-- `word/styles.xml`. -/
def Styles.nodes (s : Styles) : N :=
  elemN c!"w:styles" stylesAttrs (catN [s.docDefaults.nodes, normalStyle.nodes, eachN Style.nodes s.styles])
/-- Strings of `Styles`. -/
def Styles.strings (s : Styles) : List Str :=
  s.docDefaults.runProperty.strings ++ s.docDefaults.paragraphProperty.strings ++ s.styles.flatMap Style.strings

/-! Numbering. -/

/-- `w:lvl`. -/
def Level.nodes (l : Level) : N :=
  elemN c!"w:lvl" [(c!"w:ilvl", dec l.level)]
    (catN
      [ emitN (valN c!"w:start" (dec l.start)),
        emitN (valN c!"w:numFmt" l.format),
        emitN (valN c!"w:lvlText" l.text),
        emitN (valN c!"w:lvlJc" l.jc),
        l.paragraphProperty.nodes,
        l.runProperty.nodes,
        emitN (optN l.pstyle (valN c!"w:pStyle")),
        emitN (optN l.levelRestart (fun n => valN c!"w:lvlRestart" (dec n))),
        emitN (if l.isLgl then leafN c!"w:isLgl" else []),
        emitN (if l.suffix = .tab then [] else valN c!"w:suff" l.suffix.toStr) ])
/-- Strings of `Level`. -/
def Level.strings (l : Level) : List Str :=
  [l.format, l.text, l.jc] ++ l.paragraphProperty.strings ++ l.runProperty.strings ++ optS l.pstyle

/-- `w:abstractNum`. -/
def AbstractNumbering.nodes (a : AbstractNumbering) : N :=
  elemN c!"w:abstractNum" [(c!"w:abstractNumId", dec a.id)]
    (catN [emitN (optN a.multiLevelType (valN c!"w:multiLevelType")), eachN Level.nodes a.levels])
/-- Strings of `AbstractNumbering`. -/
def AbstractNumbering.strings (a : AbstractNumbering) : List Str := optS a.multiLevelType ++ a.levels.flatMap Level.strings

/-- `w:lvlOverride`. -/
def LevelOverride.nodes (o : LevelOverride) : N :=
  elemN c!"w:lvlOverride" [(c!"w:ilvl", dec o.level)]
    (catN [optNB o.overrideLevel Level.nodes, emitN (optN o.overrideStart (fun n => valN c!"w:startOverride" (dec n)))])
/-- Strings of `LevelOverride`. -/
def LevelOverride.strings (o : LevelOverride) : List Str := optStrings o.overrideLevel Level.strings

/-- `w:num`. -/
def Numbering.nodes (n : Numbering) : N :=
  elemN c!"w:num" [(c!"w:numId", dec n.id)]
    (catN [emitN (valN c!"w:abstractNumId" (dec n.abstractNumId)), eachN LevelOverride.nodes n.overrides])
/-- Strings of `Numbering`. -/
def Numbering.strings (n : Numbering) : List Str := n.overrides.flatMap LevelOverride.strings

/-- `word/numbering.xml`. -/
def Numberings.nodes (n : Numberings) : N :=
  elemN c!"w:numbering" numberingAttrs
    (catN
      [ defaultNumbering.nodes,
        eachN AbstractNumbering.nodes n.abstractNums,
        ({ id := 1, abstractNumId := 1 } : Numbering).nodes,
        eachN Numbering.nodes n.numberings ])
/-- Strings of `Numberings`. -/
def Numberings.strings (n : Numberings) : List Str :=
  n.abstractNums.flatMap AbstractNumbering.strings ++ n.numberings.flatMap Numbering.strings

end Docx
