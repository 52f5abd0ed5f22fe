import Verif.Model.XmlParser

/-! # Qualified names evaluated -/

namespace Docx.Xml

/-- Names written, with prefix and local name. -/
def splitTable : List (Str × Str × Str) := [
  (c!"a:avLst", c!"a", c!"avLst"),
  (c!"a:blip", c!"a", c!"blip"),
  (c!"a:ext", c!"a", c!"ext"),
  (c!"a:fillRect", c!"a", c!"fillRect"),
  (c!"a:graphic", c!"a", c!"graphic"),
  (c!"a:graphicData", c!"a", c!"graphicData"),
  (c!"a:graphicFrameLocks", c!"a", c!"graphicFrameLocks"),
  (c!"a:off", c!"a", c!"off"),
  (c!"a:picLocks", c!"a", c!"picLocks"),
  (c!"a:prstGeom", c!"a", c!"prstGeom"),
  (c!"a:srcRect", c!"a", c!"srcRect"),
  (c!"a:stretch", c!"a", c!"stretch"),
  (c!"a:xfrm", c!"a", c!"xfrm"),
  (c!"mc:Ignorable", c!"mc", c!"Ignorable"),
  (c!"pic:blipFill", c!"pic", c!"blipFill"),
  (c!"pic:cNvPicPr", c!"pic", c!"cNvPicPr"),
  (c!"pic:cNvPr", c!"pic", c!"cNvPr"),
  (c!"pic:nvPicPr", c!"pic", c!"nvPicPr"),
  (c!"pic:pic", c!"pic", c!"pic"),
  (c!"pic:spPr", c!"pic", c!"spPr"),
  (c!"r:embed", c!"r", c!"embed"),
  (c!"r:id", c!"r", c!"id"),
  (c!"w14:paraId", c!"w14", c!"paraId"),
  (c!"w:abstractNum", c!"w", c!"abstractNum"),
  (c!"w:abstractNumId", c!"w", c!"abstractNumId"),
  (c!"w:adjustLineHeightInTable", c!"w", c!"adjustLineHeightInTable"),
  (c!"w:adjustRightInd", c!"w", c!"adjustRightInd"),
  (c!"w:after", c!"w", c!"after"),
  (c!"w:afterLines", c!"w", c!"afterLines"),
  (c!"w:alias", c!"w", c!"alias"),
  (c!"w:alignment", c!"w", c!"alignment"),
  (c!"w:anchor", c!"w", c!"anchor"),
  (c!"w:ascii", c!"w", c!"ascii"),
  (c!"w:asciiTheme", c!"w", c!"asciiTheme"),
  (c!"w:author", c!"w", c!"author"),
  (c!"w:b", c!"w", c!"b"),
  (c!"w:bCs", c!"w", c!"bCs"),
  (c!"w:balanceSingleByteDoubleByteWidth", c!"w", c!"balanceSingleByteDoubleByteWidth"),
  (c!"w:bar", c!"w", c!"bar"),
  (c!"w:basedOn", c!"w", c!"basedOn"),
  (c!"w:bdr", c!"w", c!"bdr"),
  (c!"w:before", c!"w", c!"before"),
  (c!"w:beforeLines", c!"w", c!"beforeLines"),
  (c!"w:between", c!"w", c!"between"),
  (c!"w:bidi", c!"w", c!"bidi"),
  (c!"w:body", c!"w", c!"body"),
  (c!"w:bookmarkEnd", c!"w", c!"bookmarkEnd"),
  (c!"w:bookmarkStart", c!"w", c!"bookmarkStart"),
  (c!"w:bottom", c!"w", c!"bottom"),
  (c!"w:br", c!"w", c!"br"),
  (c!"w:cantSplit", c!"w", c!"cantSplit"),
  (c!"w:caps", c!"w", c!"caps"),
  (c!"w:chapStyle", c!"w", c!"chapStyle"),
  (c!"w:char", c!"w", c!"char"),
  (c!"w:charSpace", c!"w", c!"charSpace"),
  (c!"w:characterSpacingControl", c!"w", c!"characterSpacingControl"),
  (c!"w:charset", c!"w", c!"charset"),
  (c!"w:color", c!"w", c!"color"),
  (c!"w:cols", c!"w", c!"cols"),
  (c!"w:comment", c!"w", c!"comment"),
  (c!"w:commentRangeEnd", c!"w", c!"commentRangeEnd"),
  (c!"w:commentRangeStart", c!"w", c!"commentRangeStart"),
  (c!"w:commentReference", c!"w", c!"commentReference"),
  (c!"w:comments", c!"w", c!"comments"),
  (c!"w:compat", c!"w", c!"compat"),
  (c!"w:compatSetting", c!"w", c!"compatSetting"),
  (c!"w:cr", c!"w", c!"cr"),
  (c!"w:cs", c!"w", c!"cs"),
  (c!"w:cstheme", c!"w", c!"cstheme"),
  (c!"w:dataBinding", c!"w", c!"dataBinding"),
  (c!"w:date", c!"w", c!"date"),
  (c!"w:defaultTabStop", c!"w", c!"defaultTabStop"),
  (c!"w:del", c!"w", c!"del"),
  (c!"w:delInstrText", c!"w", c!"delInstrText"),
  (c!"w:delText", c!"w", c!"delText"),
  (c!"w:dirty", c!"w", c!"dirty"),
  (c!"w:doNotExpandShiftReturn", c!"w", c!"doNotExpandShiftReturn"),
  (c!"w:doNotLeaveBackslashAlone", c!"w", c!"doNotLeaveBackslashAlone"),
  (c!"w:docDefaults", c!"w", c!"docDefaults"),
  (c!"w:docGrid", c!"w", c!"docGrid"),
  (c!"w:docVar", c!"w", c!"docVar"),
  (c!"w:docVars", c!"w", c!"docVars"),
  (c!"w:document", c!"w", c!"document"),
  (c!"w:drawing", c!"w", c!"drawing"),
  (c!"w:dstrike", c!"w", c!"dstrike"),
  (c!"w:eastAsia", c!"w", c!"eastAsia"),
  (c!"w:eastAsiaTheme", c!"w", c!"eastAsiaTheme"),
  (c!"w:evenAndOddHeaders", c!"w", c!"evenAndOddHeaders"),
  (c!"w:family", c!"w", c!"family"),
  (c!"w:fill", c!"w", c!"fill"),
  (c!"w:firstLine", c!"w", c!"firstLine"),
  (c!"w:fitText", c!"w", c!"fitText"),
  (c!"w:fldChar", c!"w", c!"fldChar"),
  (c!"w:fldCharType", c!"w", c!"fldCharType"),
  (c!"w:font", c!"w", c!"font"),
  (c!"w:fonts", c!"w", c!"fonts"),
  (c!"w:footer", c!"w", c!"footer"),
  (c!"w:footerReference", c!"w", c!"footerReference"),
  (c!"w:footnote", c!"w", c!"footnote"),
  (c!"w:footnoteReference", c!"w", c!"footnoteReference"),
  (c!"w:footnotes", c!"w", c!"footnotes"),
  (c!"w:framePr", c!"w", c!"framePr"),
  (c!"w:ftr", c!"w", c!"ftr"),
  (c!"w:gridCol", c!"w", c!"gridCol"),
  (c!"w:gridSpan", c!"w", c!"gridSpan"),
  (c!"w:gutter", c!"w", c!"gutter"),
  (c!"w:h", c!"w", c!"h"),
  (c!"w:hAnchor", c!"w", c!"hAnchor"),
  (c!"w:hAnsi", c!"w", c!"hAnsi"),
  (c!"w:hAnsiTheme", c!"w", c!"hAnsiTheme"),
  (c!"w:hRule", c!"w", c!"hRule"),
  (c!"w:hanging", c!"w", c!"hanging"),
  (c!"w:hdr", c!"w", c!"hdr"),
  (c!"w:header", c!"w", c!"header"),
  (c!"w:headerReference", c!"w", c!"headerReference"),
  (c!"w:highlight", c!"w", c!"highlight"),
  (c!"w:hint", c!"w", c!"hint"),
  (c!"w:history", c!"w", c!"history"),
  (c!"w:horzAnchor", c!"w", c!"horzAnchor"),
  (c!"w:hyperlink", c!"w", c!"hyperlink"),
  (c!"w:i", c!"w", c!"i"),
  (c!"w:iCs", c!"w", c!"iCs"),
  (c!"w:id", c!"w", c!"id"),
  (c!"w:ilvl", c!"w", c!"ilvl"),
  (c!"w:ind", c!"w", c!"ind"),
  (c!"w:initials", c!"w", c!"initials"),
  (c!"w:ins", c!"w", c!"ins"),
  (c!"w:insideH", c!"w", c!"insideH"),
  (c!"w:insideV", c!"w", c!"insideV"),
  (c!"w:instrText", c!"w", c!"instrText"),
  (c!"w:isLgl", c!"w", c!"isLgl"),
  (c!"w:jc", c!"w", c!"jc"),
  (c!"w:keepLines", c!"w", c!"keepLines"),
  (c!"w:keepNext", c!"w", c!"keepNext"),
  (c!"w:leader", c!"w", c!"leader"),
  (c!"w:left", c!"w", c!"left"),
  (c!"w:leftChars", c!"w", c!"leftChars"),
  (c!"w:leftFromText", c!"w", c!"leftFromText"),
  (c!"w:line", c!"w", c!"line"),
  (c!"w:linePitch", c!"w", c!"linePitch"),
  (c!"w:lineRule", c!"w", c!"lineRule"),
  (c!"w:link", c!"w", c!"link"),
  (c!"w:lvl", c!"w", c!"lvl"),
  (c!"w:lvlJc", c!"w", c!"lvlJc"),
  (c!"w:lvlOverride", c!"w", c!"lvlOverride"),
  (c!"w:lvlRestart", c!"w", c!"lvlRestart"),
  (c!"w:lvlText", c!"w", c!"lvlText"),
  (c!"w:moveFrom", c!"w", c!"moveFrom"),
  (c!"w:moveTo", c!"w", c!"moveTo"),
  (c!"w:multiLevelType", c!"w", c!"multiLevelType"),
  (c!"w:name", c!"w", c!"name"),
  (c!"w:next", c!"w", c!"next"),
  (c!"w:num", c!"w", c!"num"),
  (c!"w:numFmt", c!"w", c!"numFmt"),
  (c!"w:numId", c!"w", c!"numId"),
  (c!"w:numPr", c!"w", c!"numPr"),
  (c!"w:numbering", c!"w", c!"numbering"),
  (c!"w:orient", c!"w", c!"orient"),
  (c!"w:outlineLvl", c!"w", c!"outlineLvl"),
  (c!"w:p", c!"w", c!"p"),
  (c!"w:pBdr", c!"w", c!"pBdr"),
  (c!"w:pPr", c!"w", c!"pPr"),
  (c!"w:pPrChange", c!"w", c!"pPrChange"),
  (c!"w:pPrDefault", c!"w", c!"pPrDefault"),
  (c!"w:pStyle", c!"w", c!"pStyle"),
  (c!"w:pageBreakBefore", c!"w", c!"pageBreakBefore"),
  (c!"w:percent", c!"w", c!"percent"),
  (c!"w:pgMar", c!"w", c!"pgMar"),
  (c!"w:pgNumType", c!"w", c!"pgNumType"),
  (c!"w:pgSz", c!"w", c!"pgSz"),
  (c!"w:pitch", c!"w", c!"pitch"),
  (c!"w:pos", c!"w", c!"pos"),
  (c!"w:prefixMappings", c!"w", c!"prefixMappings"),
  (c!"w:ptab", c!"w", c!"ptab"),
  (c!"w:qFormat", c!"w", c!"qFormat"),
  (c!"w:r", c!"w", c!"r"),
  (c!"w:rFonts", c!"w", c!"rFonts"),
  (c!"w:rPr", c!"w", c!"rPr"),
  (c!"w:rPrDefault", c!"w", c!"rPrDefault"),
  (c!"w:rStyle", c!"w", c!"rStyle"),
  (c!"w:relativeTo", c!"w", c!"relativeTo"),
  (c!"w:right", c!"w", c!"right"),
  (c!"w:rightFromText", c!"w", c!"rightFromText"),
  (c!"w:sdt", c!"w", c!"sdt"),
  (c!"w:sdtContent", c!"w", c!"sdtContent"),
  (c!"w:sdtPr", c!"w", c!"sdtPr"),
  (c!"w:sectPr", c!"w", c!"sectPr"),
  (c!"w:semiHidden", c!"w", c!"semiHidden"),
  (c!"w:settings", c!"w", c!"settings"),
  (c!"w:shd", c!"w", c!"shd"),
  (c!"w:snapToGrid", c!"w", c!"snapToGrid"),
  (c!"w:space", c!"w", c!"space"),
  (c!"w:spaceForUL", c!"w", c!"spaceForUL"),
  (c!"w:spacing", c!"w", c!"spacing"),
  (c!"w:specVanish", c!"w", c!"specVanish"),
  (c!"w:start", c!"w", c!"start"),
  (c!"w:startOverride", c!"w", c!"startOverride"),
  (c!"w:storeItemID", c!"w", c!"storeItemID"),
  (c!"w:strike", c!"w", c!"strike"),
  (c!"w:style", c!"w", c!"style"),
  (c!"w:styleId", c!"w", c!"styleId"),
  (c!"w:styles", c!"w", c!"styles"),
  (c!"w:suff", c!"w", c!"suff"),
  (c!"w:sym", c!"w", c!"sym"),
  (c!"w:sz", c!"w", c!"sz"),
  (c!"w:szCs", c!"w", c!"szCs"),
  (c!"w:t", c!"w", c!"t"),
  (c!"w:tab", c!"w", c!"tab"),
  (c!"w:tabs", c!"w", c!"tabs"),
  (c!"w:tbl", c!"w", c!"tbl"),
  (c!"w:tblBorders", c!"w", c!"tblBorders"),
  (c!"w:tblCellMar", c!"w", c!"tblCellMar"),
  (c!"w:tblGrid", c!"w", c!"tblGrid"),
  (c!"w:tblInd", c!"w", c!"tblInd"),
  (c!"w:tblLayout", c!"w", c!"tblLayout"),
  (c!"w:tblPr", c!"w", c!"tblPr"),
  (c!"w:tblStyle", c!"w", c!"tblStyle"),
  (c!"w:tblW", c!"w", c!"tblW"),
  (c!"w:tblpPr", c!"w", c!"tblpPr"),
  (c!"w:tblpX", c!"w", c!"tblpX"),
  (c!"w:tblpXSpec", c!"w", c!"tblpXSpec"),
  (c!"w:tblpY", c!"w", c!"tblpY"),
  (c!"w:tblpYSpec", c!"w", c!"tblpYSpec"),
  (c!"w:tc", c!"w", c!"tc"),
  (c!"w:tcBorders", c!"w", c!"tcBorders"),
  (c!"w:tcMar", c!"w", c!"tcMar"),
  (c!"w:tcPr", c!"w", c!"tcPr"),
  (c!"w:tcW", c!"w", c!"tcW"),
  (c!"w:textAlignment", c!"w", c!"textAlignment"),
  (c!"w:textDirection", c!"w", c!"textDirection"),
  (c!"w:themeColor", c!"w", c!"themeColor"),
  (c!"w:themeShade", c!"w", c!"themeShade"),
  (c!"w:themeTint", c!"w", c!"themeTint"),
  (c!"w:titlePg", c!"w", c!"titlePg"),
  (c!"w:tl2br", c!"w", c!"tl2br"),
  (c!"w:top", c!"w", c!"top"),
  (c!"w:tr", c!"w", c!"tr"),
  (c!"w:tr2bl", c!"w", c!"tr2bl"),
  (c!"w:trHeight", c!"w", c!"trHeight"),
  (c!"w:trPr", c!"w", c!"trPr"),
  (c!"w:type", c!"w", c!"type"),
  (c!"w:u", c!"w", c!"u"),
  (c!"w:uiPriority", c!"w", c!"uiPriority"),
  (c!"w:ulTrailSpace", c!"w", c!"ulTrailSpace"),
  (c!"w:unhideWhenUsed", c!"w", c!"unhideWhenUsed"),
  (c!"w:uri", c!"w", c!"uri"),
  (c!"w:useFELayout", c!"w", c!"useFELayout"),
  (c!"w:vAlign", c!"w", c!"vAlign"),
  (c!"w:vAnchor", c!"w", c!"vAnchor"),
  (c!"w:vMerge", c!"w", c!"vMerge"),
  (c!"w:val", c!"w", c!"val"),
  (c!"w:vanish", c!"w", c!"vanish"),
  (c!"w:vertAlign", c!"w", c!"vertAlign"),
  (c!"w:vertAnchor", c!"w", c!"vertAnchor"),
  (c!"w:w", c!"w", c!"w"),
  (c!"w:widowControl", c!"w", c!"widowControl"),
  (c!"w:wrap", c!"w", c!"wrap"),
  (c!"w:x", c!"w", c!"x"),
  (c!"w:xAlign", c!"w", c!"xAlign"),
  (c!"w:xpath", c!"w", c!"xpath"),
  (c!"w:y", c!"w", c!"y"),
  (c!"w:yAlign", c!"w", c!"yAlign"),
  (c!"w:zoom", c!"w", c!"zoom"),
  (c!"wp:align", c!"wp", c!"align"),
  (c!"wp:anchor", c!"wp", c!"anchor"),
  (c!"wp:cNvGraphicFramePr", c!"wp", c!"cNvGraphicFramePr"),
  (c!"wp:docPr", c!"wp", c!"docPr"),
  (c!"wp:effectExtent", c!"wp", c!"effectExtent"),
  (c!"wp:extent", c!"wp", c!"extent"),
  (c!"wp:inline", c!"wp", c!"inline"),
  (c!"wp:posOffset", c!"wp", c!"posOffset"),
  (c!"wp:positionH", c!"wp", c!"positionH"),
  (c!"wp:positionV", c!"wp", c!"positionV"),
  (c!"wp:simplePos", c!"wp", c!"simplePos"),
  (c!"wp:wrapNone", c!"wp", c!"wrapNone"),
  (c!"wp:wrapSquare", c!"wp", c!"wrapSquare")]

private theorem split_all : (splitTable.all fun r => decide (splitQName r.1 = ⟨some r.2.1, r.2.2⟩)) = true := by
  decide +kernel

theorem split_of (i : Nat) {n p l : Str} (h : splitTable[i]? = some (n, p, l)) : splitQName n = ⟨some p, l⟩ := by
  have := List.all_eq_true.1 split_all _ (List.mem_of_getElem? h)
  simpa using this

@[simp] theorem split_a_avLst : splitQName c!"a:avLst" = ⟨some c!"a", c!"avLst"⟩ := split_of 0 rfl
@[simp] theorem split_a_blip : splitQName c!"a:blip" = ⟨some c!"a", c!"blip"⟩ := split_of 1 rfl
@[simp] theorem split_a_ext : splitQName c!"a:ext" = ⟨some c!"a", c!"ext"⟩ := split_of 2 rfl
@[simp] theorem split_a_fillRect : splitQName c!"a:fillRect" = ⟨some c!"a", c!"fillRect"⟩ := split_of 3 rfl
@[simp] theorem split_a_graphic : splitQName c!"a:graphic" = ⟨some c!"a", c!"graphic"⟩ := split_of 4 rfl
@[simp] theorem split_a_graphicData : splitQName c!"a:graphicData" = ⟨some c!"a", c!"graphicData"⟩ := split_of 5 rfl
@[simp] theorem split_a_graphicFrameLocks : splitQName c!"a:graphicFrameLocks" = ⟨some c!"a", c!"graphicFrameLocks"⟩ := split_of 6 rfl
@[simp] theorem split_a_off : splitQName c!"a:off" = ⟨some c!"a", c!"off"⟩ := split_of 7 rfl
@[simp] theorem split_a_picLocks : splitQName c!"a:picLocks" = ⟨some c!"a", c!"picLocks"⟩ := split_of 8 rfl
@[simp] theorem split_a_prstGeom : splitQName c!"a:prstGeom" = ⟨some c!"a", c!"prstGeom"⟩ := split_of 9 rfl
@[simp] theorem split_a_srcRect : splitQName c!"a:srcRect" = ⟨some c!"a", c!"srcRect"⟩ := split_of 10 rfl
@[simp] theorem split_a_stretch : splitQName c!"a:stretch" = ⟨some c!"a", c!"stretch"⟩ := split_of 11 rfl
@[simp] theorem split_a_xfrm : splitQName c!"a:xfrm" = ⟨some c!"a", c!"xfrm"⟩ := split_of 12 rfl
@[simp] theorem split_mc_Ignorable : splitQName c!"mc:Ignorable" = ⟨some c!"mc", c!"Ignorable"⟩ := split_of 13 rfl
@[simp] theorem split_pic_blipFill : splitQName c!"pic:blipFill" = ⟨some c!"pic", c!"blipFill"⟩ := split_of 14 rfl
@[simp] theorem split_pic_cNvPicPr : splitQName c!"pic:cNvPicPr" = ⟨some c!"pic", c!"cNvPicPr"⟩ := split_of 15 rfl
@[simp] theorem split_pic_cNvPr : splitQName c!"pic:cNvPr" = ⟨some c!"pic", c!"cNvPr"⟩ := split_of 16 rfl
@[simp] theorem split_pic_nvPicPr : splitQName c!"pic:nvPicPr" = ⟨some c!"pic", c!"nvPicPr"⟩ := split_of 17 rfl
@[simp] theorem split_pic_pic : splitQName c!"pic:pic" = ⟨some c!"pic", c!"pic"⟩ := split_of 18 rfl
@[simp] theorem split_pic_spPr : splitQName c!"pic:spPr" = ⟨some c!"pic", c!"spPr"⟩ := split_of 19 rfl
@[simp] theorem split_r_embed : splitQName c!"r:embed" = ⟨some c!"r", c!"embed"⟩ := split_of 20 rfl
@[simp] theorem split_r_id : splitQName c!"r:id" = ⟨some c!"r", c!"id"⟩ := split_of 21 rfl
@[simp] theorem split_w14_paraId : splitQName c!"w14:paraId" = ⟨some c!"w14", c!"paraId"⟩ := split_of 22 rfl
@[simp] theorem split_w_abstractNum : splitQName c!"w:abstractNum" = ⟨some c!"w", c!"abstractNum"⟩ := split_of 23 rfl
@[simp] theorem split_w_abstractNumId : splitQName c!"w:abstractNumId" = ⟨some c!"w", c!"abstractNumId"⟩ := split_of 24 rfl
@[simp] theorem split_w_adjustLineHeightInTable : splitQName c!"w:adjustLineHeightInTable" = ⟨some c!"w", c!"adjustLineHeightInTable"⟩ := split_of 25 rfl
@[simp] theorem split_w_adjustRightInd : splitQName c!"w:adjustRightInd" = ⟨some c!"w", c!"adjustRightInd"⟩ := split_of 26 rfl
@[simp] theorem split_w_after : splitQName c!"w:after" = ⟨some c!"w", c!"after"⟩ := split_of 27 rfl
@[simp] theorem split_w_afterLines : splitQName c!"w:afterLines" = ⟨some c!"w", c!"afterLines"⟩ := split_of 28 rfl
@[simp] theorem split_w_alias : splitQName c!"w:alias" = ⟨some c!"w", c!"alias"⟩ := split_of 29 rfl
@[simp] theorem split_w_alignment : splitQName c!"w:alignment" = ⟨some c!"w", c!"alignment"⟩ := split_of 30 rfl
@[simp] theorem split_w_anchor : splitQName c!"w:anchor" = ⟨some c!"w", c!"anchor"⟩ := split_of 31 rfl
@[simp] theorem split_w_ascii : splitQName c!"w:ascii" = ⟨some c!"w", c!"ascii"⟩ := split_of 32 rfl
@[simp] theorem split_w_asciiTheme : splitQName c!"w:asciiTheme" = ⟨some c!"w", c!"asciiTheme"⟩ := split_of 33 rfl
@[simp] theorem split_w_author : splitQName c!"w:author" = ⟨some c!"w", c!"author"⟩ := split_of 34 rfl
@[simp] theorem split_w_b : splitQName c!"w:b" = ⟨some c!"w", c!"b"⟩ := split_of 35 rfl
@[simp] theorem split_w_bCs : splitQName c!"w:bCs" = ⟨some c!"w", c!"bCs"⟩ := split_of 36 rfl
@[simp] theorem split_w_balanceSingleByteDoubleByteWidth : splitQName c!"w:balanceSingleByteDoubleByteWidth" = ⟨some c!"w", c!"balanceSingleByteDoubleByteWidth"⟩ := split_of 37 rfl
@[simp] theorem split_w_bar : splitQName c!"w:bar" = ⟨some c!"w", c!"bar"⟩ := split_of 38 rfl
@[simp] theorem split_w_basedOn : splitQName c!"w:basedOn" = ⟨some c!"w", c!"basedOn"⟩ := split_of 39 rfl
@[simp] theorem split_w_bdr : splitQName c!"w:bdr" = ⟨some c!"w", c!"bdr"⟩ := split_of 40 rfl
@[simp] theorem split_w_before : splitQName c!"w:before" = ⟨some c!"w", c!"before"⟩ := split_of 41 rfl
@[simp] theorem split_w_beforeLines : splitQName c!"w:beforeLines" = ⟨some c!"w", c!"beforeLines"⟩ := split_of 42 rfl
@[simp] theorem split_w_between : splitQName c!"w:between" = ⟨some c!"w", c!"between"⟩ := split_of 43 rfl
@[simp] theorem split_w_bidi : splitQName c!"w:bidi" = ⟨some c!"w", c!"bidi"⟩ := split_of 44 rfl
@[simp] theorem split_w_body : splitQName c!"w:body" = ⟨some c!"w", c!"body"⟩ := split_of 45 rfl
@[simp] theorem split_w_bookmarkEnd : splitQName c!"w:bookmarkEnd" = ⟨some c!"w", c!"bookmarkEnd"⟩ := split_of 46 rfl
@[simp] theorem split_w_bookmarkStart : splitQName c!"w:bookmarkStart" = ⟨some c!"w", c!"bookmarkStart"⟩ := split_of 47 rfl
@[simp] theorem split_w_bottom : splitQName c!"w:bottom" = ⟨some c!"w", c!"bottom"⟩ := split_of 48 rfl
@[simp] theorem split_w_br : splitQName c!"w:br" = ⟨some c!"w", c!"br"⟩ := split_of 49 rfl
@[simp] theorem split_w_cantSplit : splitQName c!"w:cantSplit" = ⟨some c!"w", c!"cantSplit"⟩ := split_of 50 rfl
@[simp] theorem split_w_caps : splitQName c!"w:caps" = ⟨some c!"w", c!"caps"⟩ := split_of 51 rfl
@[simp] theorem split_w_chapStyle : splitQName c!"w:chapStyle" = ⟨some c!"w", c!"chapStyle"⟩ := split_of 52 rfl
@[simp] theorem split_w_char : splitQName c!"w:char" = ⟨some c!"w", c!"char"⟩ := split_of 53 rfl
@[simp] theorem split_w_charSpace : splitQName c!"w:charSpace" = ⟨some c!"w", c!"charSpace"⟩ := split_of 54 rfl
@[simp] theorem split_w_characterSpacingControl : splitQName c!"w:characterSpacingControl" = ⟨some c!"w", c!"characterSpacingControl"⟩ := split_of 55 rfl
@[simp] theorem split_w_charset : splitQName c!"w:charset" = ⟨some c!"w", c!"charset"⟩ := split_of 56 rfl
@[simp] theorem split_w_color : splitQName c!"w:color" = ⟨some c!"w", c!"color"⟩ := split_of 57 rfl
@[simp] theorem split_w_cols : splitQName c!"w:cols" = ⟨some c!"w", c!"cols"⟩ := split_of 58 rfl
@[simp] theorem split_w_comment : splitQName c!"w:comment" = ⟨some c!"w", c!"comment"⟩ := split_of 59 rfl
@[simp] theorem split_w_commentRangeEnd : splitQName c!"w:commentRangeEnd" = ⟨some c!"w", c!"commentRangeEnd"⟩ := split_of 60 rfl
@[simp] theorem split_w_commentRangeStart : splitQName c!"w:commentRangeStart" = ⟨some c!"w", c!"commentRangeStart"⟩ := split_of 61 rfl
@[simp] theorem split_w_commentReference : splitQName c!"w:commentReference" = ⟨some c!"w", c!"commentReference"⟩ := split_of 62 rfl
@[simp] theorem split_w_comments : splitQName c!"w:comments" = ⟨some c!"w", c!"comments"⟩ := split_of 63 rfl
@[simp] theorem split_w_compat : splitQName c!"w:compat" = ⟨some c!"w", c!"compat"⟩ := split_of 64 rfl
@[simp] theorem split_w_compatSetting : splitQName c!"w:compatSetting" = ⟨some c!"w", c!"compatSetting"⟩ := split_of 65 rfl
@[simp] theorem split_w_cr : splitQName c!"w:cr" = ⟨some c!"w", c!"cr"⟩ := split_of 66 rfl
@[simp] theorem split_w_cs : splitQName c!"w:cs" = ⟨some c!"w", c!"cs"⟩ := split_of 67 rfl
@[simp] theorem split_w_cstheme : splitQName c!"w:cstheme" = ⟨some c!"w", c!"cstheme"⟩ := split_of 68 rfl
@[simp] theorem split_w_dataBinding : splitQName c!"w:dataBinding" = ⟨some c!"w", c!"dataBinding"⟩ := split_of 69 rfl
@[simp] theorem split_w_date : splitQName c!"w:date" = ⟨some c!"w", c!"date"⟩ := split_of 70 rfl
@[simp] theorem split_w_defaultTabStop : splitQName c!"w:defaultTabStop" = ⟨some c!"w", c!"defaultTabStop"⟩ := split_of 71 rfl
@[simp] theorem split_w_del : splitQName c!"w:del" = ⟨some c!"w", c!"del"⟩ := split_of 72 rfl
@[simp] theorem split_w_delInstrText : splitQName c!"w:delInstrText" = ⟨some c!"w", c!"delInstrText"⟩ := split_of 73 rfl
@[simp] theorem split_w_delText : splitQName c!"w:delText" = ⟨some c!"w", c!"delText"⟩ := split_of 74 rfl
@[simp] theorem split_w_dirty : splitQName c!"w:dirty" = ⟨some c!"w", c!"dirty"⟩ := split_of 75 rfl
@[simp] theorem split_w_doNotExpandShiftReturn : splitQName c!"w:doNotExpandShiftReturn" = ⟨some c!"w", c!"doNotExpandShiftReturn"⟩ := split_of 76 rfl
@[simp] theorem split_w_doNotLeaveBackslashAlone : splitQName c!"w:doNotLeaveBackslashAlone" = ⟨some c!"w", c!"doNotLeaveBackslashAlone"⟩ := split_of 77 rfl
@[simp] theorem split_w_docDefaults : splitQName c!"w:docDefaults" = ⟨some c!"w", c!"docDefaults"⟩ := split_of 78 rfl
@[simp] theorem split_w_docGrid : splitQName c!"w:docGrid" = ⟨some c!"w", c!"docGrid"⟩ := split_of 79 rfl
@[simp] theorem split_w_docVar : splitQName c!"w:docVar" = ⟨some c!"w", c!"docVar"⟩ := split_of 80 rfl
@[simp] theorem split_w_docVars : splitQName c!"w:docVars" = ⟨some c!"w", c!"docVars"⟩ := split_of 81 rfl
@[simp] theorem split_w_document : splitQName c!"w:document" = ⟨some c!"w", c!"document"⟩ := split_of 82 rfl
@[simp] theorem split_w_drawing : splitQName c!"w:drawing" = ⟨some c!"w", c!"drawing"⟩ := split_of 83 rfl
@[simp] theorem split_w_dstrike : splitQName c!"w:dstrike" = ⟨some c!"w", c!"dstrike"⟩ := split_of 84 rfl
@[simp] theorem split_w_eastAsia : splitQName c!"w:eastAsia" = ⟨some c!"w", c!"eastAsia"⟩ := split_of 85 rfl
@[simp] theorem split_w_eastAsiaTheme : splitQName c!"w:eastAsiaTheme" = ⟨some c!"w", c!"eastAsiaTheme"⟩ := split_of 86 rfl
@[simp] theorem split_w_evenAndOddHeaders : splitQName c!"w:evenAndOddHeaders" = ⟨some c!"w", c!"evenAndOddHeaders"⟩ := split_of 87 rfl
@[simp] theorem split_w_family : splitQName c!"w:family" = ⟨some c!"w", c!"family"⟩ := split_of 88 rfl
@[simp] theorem split_w_fill : splitQName c!"w:fill" = ⟨some c!"w", c!"fill"⟩ := split_of 89 rfl
@[simp] theorem split_w_firstLine : splitQName c!"w:firstLine" = ⟨some c!"w", c!"firstLine"⟩ := split_of 90 rfl
@[simp] theorem split_w_fitText : splitQName c!"w:fitText" = ⟨some c!"w", c!"fitText"⟩ := split_of 91 rfl
@[simp] theorem split_w_fldChar : splitQName c!"w:fldChar" = ⟨some c!"w", c!"fldChar"⟩ := split_of 92 rfl
@[simp] theorem split_w_fldCharType : splitQName c!"w:fldCharType" = ⟨some c!"w", c!"fldCharType"⟩ := split_of 93 rfl
@[simp] theorem split_w_font : splitQName c!"w:font" = ⟨some c!"w", c!"font"⟩ := split_of 94 rfl
@[simp] theorem split_w_fonts : splitQName c!"w:fonts" = ⟨some c!"w", c!"fonts"⟩ := split_of 95 rfl
@[simp] theorem split_w_footer : splitQName c!"w:footer" = ⟨some c!"w", c!"footer"⟩ := split_of 96 rfl
@[simp] theorem split_w_footerReference : splitQName c!"w:footerReference" = ⟨some c!"w", c!"footerReference"⟩ := split_of 97 rfl
@[simp] theorem split_w_footnote : splitQName c!"w:footnote" = ⟨some c!"w", c!"footnote"⟩ := split_of 98 rfl
@[simp] theorem split_w_footnoteReference : splitQName c!"w:footnoteReference" = ⟨some c!"w", c!"footnoteReference"⟩ := split_of 99 rfl
@[simp] theorem split_w_footnotes : splitQName c!"w:footnotes" = ⟨some c!"w", c!"footnotes"⟩ := split_of 100 rfl
@[simp] theorem split_w_framePr : splitQName c!"w:framePr" = ⟨some c!"w", c!"framePr"⟩ := split_of 101 rfl
@[simp] theorem split_w_ftr : splitQName c!"w:ftr" = ⟨some c!"w", c!"ftr"⟩ := split_of 102 rfl
@[simp] theorem split_w_gridCol : splitQName c!"w:gridCol" = ⟨some c!"w", c!"gridCol"⟩ := split_of 103 rfl
@[simp] theorem split_w_gridSpan : splitQName c!"w:gridSpan" = ⟨some c!"w", c!"gridSpan"⟩ := split_of 104 rfl
@[simp] theorem split_w_gutter : splitQName c!"w:gutter" = ⟨some c!"w", c!"gutter"⟩ := split_of 105 rfl
@[simp] theorem split_w_h : splitQName c!"w:h" = ⟨some c!"w", c!"h"⟩ := split_of 106 rfl
@[simp] theorem split_w_hAnchor : splitQName c!"w:hAnchor" = ⟨some c!"w", c!"hAnchor"⟩ := split_of 107 rfl
@[simp] theorem split_w_hAnsi : splitQName c!"w:hAnsi" = ⟨some c!"w", c!"hAnsi"⟩ := split_of 108 rfl
@[simp] theorem split_w_hAnsiTheme : splitQName c!"w:hAnsiTheme" = ⟨some c!"w", c!"hAnsiTheme"⟩ := split_of 109 rfl
@[simp] theorem split_w_hRule : splitQName c!"w:hRule" = ⟨some c!"w", c!"hRule"⟩ := split_of 110 rfl
@[simp] theorem split_w_hanging : splitQName c!"w:hanging" = ⟨some c!"w", c!"hanging"⟩ := split_of 111 rfl
@[simp] theorem split_w_hdr : splitQName c!"w:hdr" = ⟨some c!"w", c!"hdr"⟩ := split_of 112 rfl
@[simp] theorem split_w_header : splitQName c!"w:header" = ⟨some c!"w", c!"header"⟩ := split_of 113 rfl
@[simp] theorem split_w_headerReference : splitQName c!"w:headerReference" = ⟨some c!"w", c!"headerReference"⟩ := split_of 114 rfl
@[simp] theorem split_w_highlight : splitQName c!"w:highlight" = ⟨some c!"w", c!"highlight"⟩ := split_of 115 rfl
@[simp] theorem split_w_hint : splitQName c!"w:hint" = ⟨some c!"w", c!"hint"⟩ := split_of 116 rfl
@[simp] theorem split_w_history : splitQName c!"w:history" = ⟨some c!"w", c!"history"⟩ := split_of 117 rfl
@[simp] theorem split_w_horzAnchor : splitQName c!"w:horzAnchor" = ⟨some c!"w", c!"horzAnchor"⟩ := split_of 118 rfl
@[simp] theorem split_w_hyperlink : splitQName c!"w:hyperlink" = ⟨some c!"w", c!"hyperlink"⟩ := split_of 119 rfl
@[simp] theorem split_w_i : splitQName c!"w:i" = ⟨some c!"w", c!"i"⟩ := split_of 120 rfl
@[simp] theorem split_w_iCs : splitQName c!"w:iCs" = ⟨some c!"w", c!"iCs"⟩ := split_of 121 rfl
@[simp] theorem split_w_id : splitQName c!"w:id" = ⟨some c!"w", c!"id"⟩ := split_of 122 rfl
@[simp] theorem split_w_ilvl : splitQName c!"w:ilvl" = ⟨some c!"w", c!"ilvl"⟩ := split_of 123 rfl
@[simp] theorem split_w_ind : splitQName c!"w:ind" = ⟨some c!"w", c!"ind"⟩ := split_of 124 rfl
@[simp] theorem split_w_initials : splitQName c!"w:initials" = ⟨some c!"w", c!"initials"⟩ := split_of 125 rfl
@[simp] theorem split_w_ins : splitQName c!"w:ins" = ⟨some c!"w", c!"ins"⟩ := split_of 126 rfl
@[simp] theorem split_w_insideH : splitQName c!"w:insideH" = ⟨some c!"w", c!"insideH"⟩ := split_of 127 rfl
@[simp] theorem split_w_insideV : splitQName c!"w:insideV" = ⟨some c!"w", c!"insideV"⟩ := split_of 128 rfl
@[simp] theorem split_w_instrText : splitQName c!"w:instrText" = ⟨some c!"w", c!"instrText"⟩ := split_of 129 rfl
@[simp] theorem split_w_isLgl : splitQName c!"w:isLgl" = ⟨some c!"w", c!"isLgl"⟩ := split_of 130 rfl
@[simp] theorem split_w_jc : splitQName c!"w:jc" = ⟨some c!"w", c!"jc"⟩ := split_of 131 rfl
@[simp] theorem split_w_keepLines : splitQName c!"w:keepLines" = ⟨some c!"w", c!"keepLines"⟩ := split_of 132 rfl
@[simp] theorem split_w_keepNext : splitQName c!"w:keepNext" = ⟨some c!"w", c!"keepNext"⟩ := split_of 133 rfl
@[simp] theorem split_w_leader : splitQName c!"w:leader" = ⟨some c!"w", c!"leader"⟩ := split_of 134 rfl
@[simp] theorem split_w_left : splitQName c!"w:left" = ⟨some c!"w", c!"left"⟩ := split_of 135 rfl
@[simp] theorem split_w_leftChars : splitQName c!"w:leftChars" = ⟨some c!"w", c!"leftChars"⟩ := split_of 136 rfl
@[simp] theorem split_w_leftFromText : splitQName c!"w:leftFromText" = ⟨some c!"w", c!"leftFromText"⟩ := split_of 137 rfl
@[simp] theorem split_w_line : splitQName c!"w:line" = ⟨some c!"w", c!"line"⟩ := split_of 138 rfl
@[simp] theorem split_w_linePitch : splitQName c!"w:linePitch" = ⟨some c!"w", c!"linePitch"⟩ := split_of 139 rfl
@[simp] theorem split_w_lineRule : splitQName c!"w:lineRule" = ⟨some c!"w", c!"lineRule"⟩ := split_of 140 rfl
@[simp] theorem split_w_link : splitQName c!"w:link" = ⟨some c!"w", c!"link"⟩ := split_of 141 rfl
@[simp] theorem split_w_lvl : splitQName c!"w:lvl" = ⟨some c!"w", c!"lvl"⟩ := split_of 142 rfl
@[simp] theorem split_w_lvlJc : splitQName c!"w:lvlJc" = ⟨some c!"w", c!"lvlJc"⟩ := split_of 143 rfl
@[simp] theorem split_w_lvlOverride : splitQName c!"w:lvlOverride" = ⟨some c!"w", c!"lvlOverride"⟩ := split_of 144 rfl
@[simp] theorem split_w_lvlRestart : splitQName c!"w:lvlRestart" = ⟨some c!"w", c!"lvlRestart"⟩ := split_of 145 rfl
@[simp] theorem split_w_lvlText : splitQName c!"w:lvlText" = ⟨some c!"w", c!"lvlText"⟩ := split_of 146 rfl
@[simp] theorem split_w_moveFrom : splitQName c!"w:moveFrom" = ⟨some c!"w", c!"moveFrom"⟩ := split_of 147 rfl
@[simp] theorem split_w_moveTo : splitQName c!"w:moveTo" = ⟨some c!"w", c!"moveTo"⟩ := split_of 148 rfl
@[simp] theorem split_w_multiLevelType : splitQName c!"w:multiLevelType" = ⟨some c!"w", c!"multiLevelType"⟩ := split_of 149 rfl
@[simp] theorem split_w_name : splitQName c!"w:name" = ⟨some c!"w", c!"name"⟩ := split_of 150 rfl
@[simp] theorem split_w_next : splitQName c!"w:next" = ⟨some c!"w", c!"next"⟩ := split_of 151 rfl
@[simp] theorem split_w_num : splitQName c!"w:num" = ⟨some c!"w", c!"num"⟩ := split_of 152 rfl
@[simp] theorem split_w_numFmt : splitQName c!"w:numFmt" = ⟨some c!"w", c!"numFmt"⟩ := split_of 153 rfl
@[simp] theorem split_w_numId : splitQName c!"w:numId" = ⟨some c!"w", c!"numId"⟩ := split_of 154 rfl
@[simp] theorem split_w_numPr : splitQName c!"w:numPr" = ⟨some c!"w", c!"numPr"⟩ := split_of 155 rfl
@[simp] theorem split_w_numbering : splitQName c!"w:numbering" = ⟨some c!"w", c!"numbering"⟩ := split_of 156 rfl
@[simp] theorem split_w_orient : splitQName c!"w:orient" = ⟨some c!"w", c!"orient"⟩ := split_of 157 rfl
@[simp] theorem split_w_outlineLvl : splitQName c!"w:outlineLvl" = ⟨some c!"w", c!"outlineLvl"⟩ := split_of 158 rfl
@[simp] theorem split_w_p : splitQName c!"w:p" = ⟨some c!"w", c!"p"⟩ := split_of 159 rfl
@[simp] theorem split_w_pBdr : splitQName c!"w:pBdr" = ⟨some c!"w", c!"pBdr"⟩ := split_of 160 rfl
@[simp] theorem split_w_pPr : splitQName c!"w:pPr" = ⟨some c!"w", c!"pPr"⟩ := split_of 161 rfl
@[simp] theorem split_w_pPrChange : splitQName c!"w:pPrChange" = ⟨some c!"w", c!"pPrChange"⟩ := split_of 162 rfl
@[simp] theorem split_w_pPrDefault : splitQName c!"w:pPrDefault" = ⟨some c!"w", c!"pPrDefault"⟩ := split_of 163 rfl
@[simp] theorem split_w_pStyle : splitQName c!"w:pStyle" = ⟨some c!"w", c!"pStyle"⟩ := split_of 164 rfl
@[simp] theorem split_w_pageBreakBefore : splitQName c!"w:pageBreakBefore" = ⟨some c!"w", c!"pageBreakBefore"⟩ := split_of 165 rfl
@[simp] theorem split_w_percent : splitQName c!"w:percent" = ⟨some c!"w", c!"percent"⟩ := split_of 166 rfl
@[simp] theorem split_w_pgMar : splitQName c!"w:pgMar" = ⟨some c!"w", c!"pgMar"⟩ := split_of 167 rfl
@[simp] theorem split_w_pgNumType : splitQName c!"w:pgNumType" = ⟨some c!"w", c!"pgNumType"⟩ := split_of 168 rfl
@[simp] theorem split_w_pgSz : splitQName c!"w:pgSz" = ⟨some c!"w", c!"pgSz"⟩ := split_of 169 rfl
@[simp] theorem split_w_pitch : splitQName c!"w:pitch" = ⟨some c!"w", c!"pitch"⟩ := split_of 170 rfl
@[simp] theorem split_w_pos : splitQName c!"w:pos" = ⟨some c!"w", c!"pos"⟩ := split_of 171 rfl
@[simp] theorem split_w_prefixMappings : splitQName c!"w:prefixMappings" = ⟨some c!"w", c!"prefixMappings"⟩ := split_of 172 rfl
@[simp] theorem split_w_ptab : splitQName c!"w:ptab" = ⟨some c!"w", c!"ptab"⟩ := split_of 173 rfl
@[simp] theorem split_w_qFormat : splitQName c!"w:qFormat" = ⟨some c!"w", c!"qFormat"⟩ := split_of 174 rfl
@[simp] theorem split_w_r : splitQName c!"w:r" = ⟨some c!"w", c!"r"⟩ := split_of 175 rfl
@[simp] theorem split_w_rFonts : splitQName c!"w:rFonts" = ⟨some c!"w", c!"rFonts"⟩ := split_of 176 rfl
@[simp] theorem split_w_rPr : splitQName c!"w:rPr" = ⟨some c!"w", c!"rPr"⟩ := split_of 177 rfl
@[simp] theorem split_w_rPrDefault : splitQName c!"w:rPrDefault" = ⟨some c!"w", c!"rPrDefault"⟩ := split_of 178 rfl
@[simp] theorem split_w_rStyle : splitQName c!"w:rStyle" = ⟨some c!"w", c!"rStyle"⟩ := split_of 179 rfl
@[simp] theorem split_w_relativeTo : splitQName c!"w:relativeTo" = ⟨some c!"w", c!"relativeTo"⟩ := split_of 180 rfl
@[simp] theorem split_w_right : splitQName c!"w:right" = ⟨some c!"w", c!"right"⟩ := split_of 181 rfl
@[simp] theorem split_w_rightFromText : splitQName c!"w:rightFromText" = ⟨some c!"w", c!"rightFromText"⟩ := split_of 182 rfl
@[simp] theorem split_w_sdt : splitQName c!"w:sdt" = ⟨some c!"w", c!"sdt"⟩ := split_of 183 rfl
@[simp] theorem split_w_sdtContent : splitQName c!"w:sdtContent" = ⟨some c!"w", c!"sdtContent"⟩ := split_of 184 rfl
@[simp] theorem split_w_sdtPr : splitQName c!"w:sdtPr" = ⟨some c!"w", c!"sdtPr"⟩ := split_of 185 rfl
@[simp] theorem split_w_sectPr : splitQName c!"w:sectPr" = ⟨some c!"w", c!"sectPr"⟩ := split_of 186 rfl
@[simp] theorem split_w_semiHidden : splitQName c!"w:semiHidden" = ⟨some c!"w", c!"semiHidden"⟩ := split_of 187 rfl
@[simp] theorem split_w_settings : splitQName c!"w:settings" = ⟨some c!"w", c!"settings"⟩ := split_of 188 rfl
@[simp] theorem split_w_shd : splitQName c!"w:shd" = ⟨some c!"w", c!"shd"⟩ := split_of 189 rfl
@[simp] theorem split_w_snapToGrid : splitQName c!"w:snapToGrid" = ⟨some c!"w", c!"snapToGrid"⟩ := split_of 190 rfl
@[simp] theorem split_w_space : splitQName c!"w:space" = ⟨some c!"w", c!"space"⟩ := split_of 191 rfl
@[simp] theorem split_w_spaceForUL : splitQName c!"w:spaceForUL" = ⟨some c!"w", c!"spaceForUL"⟩ := split_of 192 rfl
@[simp] theorem split_w_spacing : splitQName c!"w:spacing" = ⟨some c!"w", c!"spacing"⟩ := split_of 193 rfl
@[simp] theorem split_w_specVanish : splitQName c!"w:specVanish" = ⟨some c!"w", c!"specVanish"⟩ := split_of 194 rfl
@[simp] theorem split_w_start : splitQName c!"w:start" = ⟨some c!"w", c!"start"⟩ := split_of 195 rfl
@[simp] theorem split_w_startOverride : splitQName c!"w:startOverride" = ⟨some c!"w", c!"startOverride"⟩ := split_of 196 rfl
@[simp] theorem split_w_storeItemID : splitQName c!"w:storeItemID" = ⟨some c!"w", c!"storeItemID"⟩ := split_of 197 rfl
@[simp] theorem split_w_strike : splitQName c!"w:strike" = ⟨some c!"w", c!"strike"⟩ := split_of 198 rfl
@[simp] theorem split_w_style : splitQName c!"w:style" = ⟨some c!"w", c!"style"⟩ := split_of 199 rfl
@[simp] theorem split_w_styleId : splitQName c!"w:styleId" = ⟨some c!"w", c!"styleId"⟩ := split_of 200 rfl
@[simp] theorem split_w_styles : splitQName c!"w:styles" = ⟨some c!"w", c!"styles"⟩ := split_of 201 rfl
@[simp] theorem split_w_suff : splitQName c!"w:suff" = ⟨some c!"w", c!"suff"⟩ := split_of 202 rfl
@[simp] theorem split_w_sym : splitQName c!"w:sym" = ⟨some c!"w", c!"sym"⟩ := split_of 203 rfl
@[simp] theorem split_w_sz : splitQName c!"w:sz" = ⟨some c!"w", c!"sz"⟩ := split_of 204 rfl
@[simp] theorem split_w_szCs : splitQName c!"w:szCs" = ⟨some c!"w", c!"szCs"⟩ := split_of 205 rfl
@[simp] theorem split_w_t : splitQName c!"w:t" = ⟨some c!"w", c!"t"⟩ := split_of 206 rfl
@[simp] theorem split_w_tab : splitQName c!"w:tab" = ⟨some c!"w", c!"tab"⟩ := split_of 207 rfl
@[simp] theorem split_w_tabs : splitQName c!"w:tabs" = ⟨some c!"w", c!"tabs"⟩ := split_of 208 rfl
@[simp] theorem split_w_tbl : splitQName c!"w:tbl" = ⟨some c!"w", c!"tbl"⟩ := split_of 209 rfl
@[simp] theorem split_w_tblBorders : splitQName c!"w:tblBorders" = ⟨some c!"w", c!"tblBorders"⟩ := split_of 210 rfl
@[simp] theorem split_w_tblCellMar : splitQName c!"w:tblCellMar" = ⟨some c!"w", c!"tblCellMar"⟩ := split_of 211 rfl
@[simp] theorem split_w_tblGrid : splitQName c!"w:tblGrid" = ⟨some c!"w", c!"tblGrid"⟩ := split_of 212 rfl
@[simp] theorem split_w_tblInd : splitQName c!"w:tblInd" = ⟨some c!"w", c!"tblInd"⟩ := split_of 213 rfl
@[simp] theorem split_w_tblLayout : splitQName c!"w:tblLayout" = ⟨some c!"w", c!"tblLayout"⟩ := split_of 214 rfl
@[simp] theorem split_w_tblPr : splitQName c!"w:tblPr" = ⟨some c!"w", c!"tblPr"⟩ := split_of 215 rfl
@[simp] theorem split_w_tblStyle : splitQName c!"w:tblStyle" = ⟨some c!"w", c!"tblStyle"⟩ := split_of 216 rfl
@[simp] theorem split_w_tblW : splitQName c!"w:tblW" = ⟨some c!"w", c!"tblW"⟩ := split_of 217 rfl
@[simp] theorem split_w_tblpPr : splitQName c!"w:tblpPr" = ⟨some c!"w", c!"tblpPr"⟩ := split_of 218 rfl
@[simp] theorem split_w_tblpX : splitQName c!"w:tblpX" = ⟨some c!"w", c!"tblpX"⟩ := split_of 219 rfl
@[simp] theorem split_w_tblpXSpec : splitQName c!"w:tblpXSpec" = ⟨some c!"w", c!"tblpXSpec"⟩ := split_of 220 rfl
@[simp] theorem split_w_tblpY : splitQName c!"w:tblpY" = ⟨some c!"w", c!"tblpY"⟩ := split_of 221 rfl
@[simp] theorem split_w_tblpYSpec : splitQName c!"w:tblpYSpec" = ⟨some c!"w", c!"tblpYSpec"⟩ := split_of 222 rfl
@[simp] theorem split_w_tc : splitQName c!"w:tc" = ⟨some c!"w", c!"tc"⟩ := split_of 223 rfl
@[simp] theorem split_w_tcBorders : splitQName c!"w:tcBorders" = ⟨some c!"w", c!"tcBorders"⟩ := split_of 224 rfl
@[simp] theorem split_w_tcMar : splitQName c!"w:tcMar" = ⟨some c!"w", c!"tcMar"⟩ := split_of 225 rfl
@[simp] theorem split_w_tcPr : splitQName c!"w:tcPr" = ⟨some c!"w", c!"tcPr"⟩ := split_of 226 rfl
@[simp] theorem split_w_tcW : splitQName c!"w:tcW" = ⟨some c!"w", c!"tcW"⟩ := split_of 227 rfl
@[simp] theorem split_w_textAlignment : splitQName c!"w:textAlignment" = ⟨some c!"w", c!"textAlignment"⟩ := split_of 228 rfl
@[simp] theorem split_w_textDirection : splitQName c!"w:textDirection" = ⟨some c!"w", c!"textDirection"⟩ := split_of 229 rfl
@[simp] theorem split_w_themeColor : splitQName c!"w:themeColor" = ⟨some c!"w", c!"themeColor"⟩ := split_of 230 rfl
@[simp] theorem split_w_themeShade : splitQName c!"w:themeShade" = ⟨some c!"w", c!"themeShade"⟩ := split_of 231 rfl
@[simp] theorem split_w_themeTint : splitQName c!"w:themeTint" = ⟨some c!"w", c!"themeTint"⟩ := split_of 232 rfl
@[simp] theorem split_w_titlePg : splitQName c!"w:titlePg" = ⟨some c!"w", c!"titlePg"⟩ := split_of 233 rfl
@[simp] theorem split_w_tl2br : splitQName c!"w:tl2br" = ⟨some c!"w", c!"tl2br"⟩ := split_of 234 rfl
@[simp] theorem split_w_top : splitQName c!"w:top" = ⟨some c!"w", c!"top"⟩ := split_of 235 rfl
@[simp] theorem split_w_tr : splitQName c!"w:tr" = ⟨some c!"w", c!"tr"⟩ := split_of 236 rfl
@[simp] theorem split_w_tr2bl : splitQName c!"w:tr2bl" = ⟨some c!"w", c!"tr2bl"⟩ := split_of 237 rfl
@[simp] theorem split_w_trHeight : splitQName c!"w:trHeight" = ⟨some c!"w", c!"trHeight"⟩ := split_of 238 rfl
@[simp] theorem split_w_trPr : splitQName c!"w:trPr" = ⟨some c!"w", c!"trPr"⟩ := split_of 239 rfl
@[simp] theorem split_w_type : splitQName c!"w:type" = ⟨some c!"w", c!"type"⟩ := split_of 240 rfl
@[simp] theorem split_w_u : splitQName c!"w:u" = ⟨some c!"w", c!"u"⟩ := split_of 241 rfl
@[simp] theorem split_w_uiPriority : splitQName c!"w:uiPriority" = ⟨some c!"w", c!"uiPriority"⟩ := split_of 242 rfl
@[simp] theorem split_w_ulTrailSpace : splitQName c!"w:ulTrailSpace" = ⟨some c!"w", c!"ulTrailSpace"⟩ := split_of 243 rfl
@[simp] theorem split_w_unhideWhenUsed : splitQName c!"w:unhideWhenUsed" = ⟨some c!"w", c!"unhideWhenUsed"⟩ := split_of 244 rfl
@[simp] theorem split_w_uri : splitQName c!"w:uri" = ⟨some c!"w", c!"uri"⟩ := split_of 245 rfl
@[simp] theorem split_w_useFELayout : splitQName c!"w:useFELayout" = ⟨some c!"w", c!"useFELayout"⟩ := split_of 246 rfl
@[simp] theorem split_w_vAlign : splitQName c!"w:vAlign" = ⟨some c!"w", c!"vAlign"⟩ := split_of 247 rfl
@[simp] theorem split_w_vAnchor : splitQName c!"w:vAnchor" = ⟨some c!"w", c!"vAnchor"⟩ := split_of 248 rfl
@[simp] theorem split_w_vMerge : splitQName c!"w:vMerge" = ⟨some c!"w", c!"vMerge"⟩ := split_of 249 rfl
@[simp] theorem split_w_val : splitQName c!"w:val" = ⟨some c!"w", c!"val"⟩ := split_of 250 rfl
@[simp] theorem split_w_vanish : splitQName c!"w:vanish" = ⟨some c!"w", c!"vanish"⟩ := split_of 251 rfl
@[simp] theorem split_w_vertAlign : splitQName c!"w:vertAlign" = ⟨some c!"w", c!"vertAlign"⟩ := split_of 252 rfl
@[simp] theorem split_w_vertAnchor : splitQName c!"w:vertAnchor" = ⟨some c!"w", c!"vertAnchor"⟩ := split_of 253 rfl
@[simp] theorem split_w_w : splitQName c!"w:w" = ⟨some c!"w", c!"w"⟩ := split_of 254 rfl
@[simp] theorem split_w_widowControl : splitQName c!"w:widowControl" = ⟨some c!"w", c!"widowControl"⟩ := split_of 255 rfl
@[simp] theorem split_w_wrap : splitQName c!"w:wrap" = ⟨some c!"w", c!"wrap"⟩ := split_of 256 rfl
@[simp] theorem split_w_x : splitQName c!"w:x" = ⟨some c!"w", c!"x"⟩ := split_of 257 rfl
@[simp] theorem split_w_xAlign : splitQName c!"w:xAlign" = ⟨some c!"w", c!"xAlign"⟩ := split_of 258 rfl
@[simp] theorem split_w_xpath : splitQName c!"w:xpath" = ⟨some c!"w", c!"xpath"⟩ := split_of 259 rfl
@[simp] theorem split_w_y : splitQName c!"w:y" = ⟨some c!"w", c!"y"⟩ := split_of 260 rfl
@[simp] theorem split_w_yAlign : splitQName c!"w:yAlign" = ⟨some c!"w", c!"yAlign"⟩ := split_of 261 rfl
@[simp] theorem split_w_zoom : splitQName c!"w:zoom" = ⟨some c!"w", c!"zoom"⟩ := split_of 262 rfl
@[simp] theorem split_wp_align : splitQName c!"wp:align" = ⟨some c!"wp", c!"align"⟩ := split_of 263 rfl
@[simp] theorem split_wp_anchor : splitQName c!"wp:anchor" = ⟨some c!"wp", c!"anchor"⟩ := split_of 264 rfl
@[simp] theorem split_wp_cNvGraphicFramePr : splitQName c!"wp:cNvGraphicFramePr" = ⟨some c!"wp", c!"cNvGraphicFramePr"⟩ := split_of 265 rfl
@[simp] theorem split_wp_docPr : splitQName c!"wp:docPr" = ⟨some c!"wp", c!"docPr"⟩ := split_of 266 rfl
@[simp] theorem split_wp_effectExtent : splitQName c!"wp:effectExtent" = ⟨some c!"wp", c!"effectExtent"⟩ := split_of 267 rfl
@[simp] theorem split_wp_extent : splitQName c!"wp:extent" = ⟨some c!"wp", c!"extent"⟩ := split_of 268 rfl
@[simp] theorem split_wp_inline : splitQName c!"wp:inline" = ⟨some c!"wp", c!"inline"⟩ := split_of 269 rfl
@[simp] theorem split_wp_posOffset : splitQName c!"wp:posOffset" = ⟨some c!"wp", c!"posOffset"⟩ := split_of 270 rfl
@[simp] theorem split_wp_positionH : splitQName c!"wp:positionH" = ⟨some c!"wp", c!"positionH"⟩ := split_of 271 rfl
@[simp] theorem split_wp_positionV : splitQName c!"wp:positionV" = ⟨some c!"wp", c!"positionV"⟩ := split_of 272 rfl
@[simp] theorem split_wp_simplePos : splitQName c!"wp:simplePos" = ⟨some c!"wp", c!"simplePos"⟩ := split_of 273 rfl
@[simp] theorem split_wp_wrapNone : splitQName c!"wp:wrapNone" = ⟨some c!"wp", c!"wrapNone"⟩ := split_of 274 rfl
@[simp] theorem split_wp_wrapSquare : splitQName c!"wp:wrapSquare" = ⟨some c!"wp", c!"wrapSquare"⟩ := split_of 275 rfl

end Docx.Xml
