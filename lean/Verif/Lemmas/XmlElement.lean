import Verif.Model.XmlElement

/-! # Element names evaluated -/

namespace Docx

private theorem known_all : (elementTable.all fun p => decide (elementOf p.1 = p.2)) = true := by decide +kernel

/-- A row of the table gives the value of its name. -/
theorem el_of (i : Nat) {s : Str} {e : El} (h : elementTable[i]? = some (s, e)) : elementOf s = e := by
  have := List.all_eq_true.1 known_all _ (List.mem_of_getElem? h)
  simpa using this

@[simp] theorem el_body : elementOf c!"body" = .body := el_of 0 rfl
@[simp] theorem el_p : elementOf c!"p" = .paragraph := el_of 1 rfl
@[simp] theorem el_pPr : elementOf c!"pPr" = .paragraphProperty := el_of 2 rfl
@[simp] theorem el_pBdr : elementOf c!"pBdr" = .paragraphBorders := el_of 3 rfl
@[simp] theorem el_r : elementOf c!"r" = .run := el_of 4 rfl
@[simp] theorem el_rPr : elementOf c!"rPr" = .runProperty := el_of 5 rfl
@[simp] theorem el_rPrChange : elementOf c!"rPrChange" = .runPropertyChange := el_of 6 rfl
@[simp] theorem el_color : elementOf c!"color" = .color := el_of 7 rfl
@[simp] theorem el_t : elementOf c!"t" = .text := el_of 8 rfl
@[simp] theorem el_fldChar : elementOf c!"fldChar" = .fieldChar := el_of 9 rfl
@[simp] theorem el_instrText : elementOf c!"instrText" = .instrText := el_of 10 rfl
@[simp] theorem el_hyperlink : elementOf c!"hyperlink" = .hyperlink := el_of 11 rfl
@[simp] theorem el_sz : elementOf c!"sz" = .size := el_of 12 rfl
@[simp] theorem el_szCs : elementOf c!"szCs" = .sizeCs := el_of 13 rfl
@[simp] theorem el_u : elementOf c!"u" = .underline := el_of 14 rfl
@[simp] theorem el_pStyle : elementOf c!"pStyle" = .paragraphStyle := el_of 15 rfl
@[simp] theorem el_pPrChange : elementOf c!"pPrChange" = .paragraphPropertyChange := el_of 16 rfl
@[simp] theorem el_highlight : elementOf c!"highlight" = .highlight := el_of 17 rfl
@[simp] theorem el_rStyle : elementOf c!"rStyle" = .runStyle := el_of 18 rfl
@[simp] theorem el_b : elementOf c!"b" = .bold := el_of 19 rfl
@[simp] theorem el_bCs : elementOf c!"bCs" = .boldCs := el_of 20 rfl
@[simp] theorem el_caps : elementOf c!"caps" = .caps := el_of 21 rfl
@[simp] theorem el_i : elementOf c!"i" = .italic := el_of 22 rfl
@[simp] theorem el_iCs : elementOf c!"iCs" = .italicCs := el_of 23 rfl
@[simp] theorem el_vanish : elementOf c!"vanish" = .vanish := el_of 24 rfl
@[simp] theorem el_specVanish : elementOf c!"specVanish" = .specVanish := el_of 25 rfl
@[simp] theorem el_italic : elementOf c!"italic" = .italic := el_of 26 rfl
@[simp] theorem el_name : elementOf c!"name" = .name := el_of 27 rfl
@[simp] theorem el_tab : elementOf c!"tab" = .tab := el_of 28 rfl
@[simp] theorem el_tabs : elementOf c!"tabs" = .tabs := el_of 29 rfl
@[simp] theorem el_ptab : elementOf c!"ptab" = .pTab := el_of 30 rfl
@[simp] theorem el_br : elementOf c!"br" = .«break» := el_of 31 rfl
@[simp] theorem el_cr : elementOf c!"cr" = .carriageReturn := el_of 32 rfl
@[simp] theorem el_ind : elementOf c!"ind" = .indent := el_of 33 rfl
@[simp] theorem el_numPr : elementOf c!"numPr" = .numberingProperty := el_of 34 rfl
@[simp] theorem el_ilvl : elementOf c!"ilvl" = .indentLevel := el_of 35 rfl
@[simp] theorem el_numId : elementOf c!"numId" = .numberingId := el_of 36 rfl
@[simp] theorem el_jc : elementOf c!"jc" = .justification := el_of 37 rfl
@[simp] theorem el_ins : elementOf c!"ins" = .insert := el_of 38 rfl
@[simp] theorem el_moveFrom : elementOf c!"moveFrom" = .moveFrom := el_of 39 rfl
@[simp] theorem el_moveTo : elementOf c!"moveTo" = .moveTo := el_of 40 rfl
@[simp] theorem el_del : elementOf c!"del" = .delete := el_of 41 rfl
@[simp] theorem el_delText : elementOf c!"delText" = .deleteText := el_of 42 rfl
@[simp] theorem el_bookmarkStart : elementOf c!"bookmarkStart" = .bookmarkStart := el_of 43 rfl
@[simp] theorem el_bookmarkEnd : elementOf c!"bookmarkEnd" = .bookmarkEnd := el_of 44 rfl
@[simp] theorem el_comments : elementOf c!"comments" = .comments := el_of 45 rfl
@[simp] theorem el_comment : elementOf c!"comment" = .comment := el_of 46 rfl
@[simp] theorem el_commentRangeStart : elementOf c!"commentRangeStart" = .commentRangeStart := el_of 47 rfl
@[simp] theorem el_commentRangeEnd : elementOf c!"commentRangeEnd" = .commentRangeEnd := el_of 48 rfl
@[simp] theorem el_commentEx : elementOf c!"commentEx" = .commentExtended := el_of 49 rfl
@[simp] theorem el_commentsEx : elementOf c!"commentsEx" = .commentsExtended := el_of 50 rfl
@[simp] theorem el_shd : elementOf c!"shd" = .shading := el_of 51 rfl
@[simp] theorem el_property : elementOf c!"property" = .property := el_of 52 rfl
@[simp] theorem el_tbl : elementOf c!"tbl" = .table := el_of 53 rfl
@[simp] theorem el_tblPr : elementOf c!"tblPr" = .tableProperty := el_of 54 rfl
@[simp] theorem el_tr : elementOf c!"tr" = .tableRow := el_of 55 rfl
@[simp] theorem el_trHeight : elementOf c!"trHeight" = .tableRowHeight := el_of 56 rfl
@[simp] theorem el_hRule : elementOf c!"hRule" = .heightRule := el_of 57 rfl
@[simp] theorem el_tc : elementOf c!"tc" = .tableCell := el_of 58 rfl
@[simp] theorem el_tcPr : elementOf c!"tcPr" = .tableCellProperty := el_of 59 rfl
@[simp] theorem el_tcW : elementOf c!"tcW" = .tableCellWidth := el_of 60 rfl
@[simp] theorem el_tcBorders : elementOf c!"tcBorders" = .tableCellBorders := el_of 61 rfl
@[simp] theorem el_vMerge : elementOf c!"vMerge" = .tableVMerge := el_of 62 rfl
@[simp] theorem el_gridSpan : elementOf c!"gridSpan" = .tableGridSpan := el_of 63 rfl
@[simp] theorem el_gridAfter : elementOf c!"gridAfter" = .gridAfter := el_of 64 rfl
@[simp] theorem el_wAfter : elementOf c!"wAfter" = .widthAfter := el_of 65 rfl
@[simp] theorem el_gridBefore : elementOf c!"gridBefore" = .gridBefore := el_of 66 rfl
@[simp] theorem el_wBefore : elementOf c!"wBefore" = .widthBefore := el_of 67 rfl
@[simp] theorem el_textDirection : elementOf c!"textDirection" = .textDirection := el_of 68 rfl
@[simp] theorem el_tblW : elementOf c!"tblW" = .tableWidth := el_of 69 rfl
@[simp] theorem el_tblInd : elementOf c!"tblInd" = .tableIndent := el_of 70 rfl
@[simp] theorem el_tblBorders : elementOf c!"tblBorders" = .tableBorders := el_of 71 rfl
@[simp] theorem el_tblCellMar : elementOf c!"tblCellMar" = .tableCellMargin := el_of 72 rfl
@[simp] theorem el_tblStyle : elementOf c!"tblStyle" = .tableStyle := el_of 73 rfl
@[simp] theorem el_tblpPr : elementOf c!"tblpPr" = .tablePositionProperty := el_of 74 rfl
@[simp] theorem el_top : elementOf c!"top" = .top := el_of 75 rfl
@[simp] theorem el_right : elementOf c!"right" = .right := el_of 76 rfl
@[simp] theorem el_start : elementOf c!"start" = .start := el_of 77 rfl
@[simp] theorem el_end : elementOf c!"end" = .«end» := el_of 78 rfl
@[simp] theorem el_left : elementOf c!"left" = .left := el_of 79 rfl
@[simp] theorem el_bottom : elementOf c!"bottom" = .bottom := el_of 80 rfl
@[simp] theorem el_insideH : elementOf c!"insideH" = .insideH := el_of 81 rfl
@[simp] theorem el_insideV : elementOf c!"insideV" = .insideV := el_of 82 rfl
@[simp] theorem el_between : elementOf c!"between" = .between := el_of 83 rfl
@[simp] theorem el_bar : elementOf c!"bar" = .bar := el_of 84 rfl
@[simp] theorem el_tl2br : elementOf c!"tl2br" = .tl2br := el_of 85 rfl
@[simp] theorem el_tr2bl : elementOf c!"tr2bl" = .tr2bl := el_of 86 rfl
@[simp] theorem el_tblGrid : elementOf c!"tblGrid" = .tableGrid := el_of 87 rfl
@[simp] theorem el_tblPrChange : elementOf c!"tblPrChange" = .tablePropertyChange := el_of 88 rfl
@[simp] theorem el_trPrChange : elementOf c!"trPrChange" = .tableRowPropertyChange := el_of 89 rfl
@[simp] theorem el_tcPrChange : elementOf c!"tcPrChange" = .tableCellPropertyChange := el_of 90 rfl
@[simp] theorem el_tcMar : elementOf c!"tcMar" = .cellMargins := el_of 91 rfl
@[simp] theorem el_tblGridChange : elementOf c!"tblGridChange" = .tableGridChange := el_of 92 rfl
@[simp] theorem el_gridCol : elementOf c!"gridCol" = .gridCol := el_of 93 rfl
@[simp] theorem el_style : elementOf c!"style" = .style := el_of 94 rfl
@[simp] theorem el_basedOn : elementOf c!"basedOn" = .basedOn := el_of 95 rfl
@[simp] theorem el_link : elementOf c!"link" = .link := el_of 96 rfl
@[simp] theorem el_bdr : elementOf c!"bdr" = .textBorder := el_of 97 rfl
@[simp] theorem el_next : elementOf c!"next" = .next := el_of 98 rfl
@[simp] theorem el_vertAlign : elementOf c!"vertAlign" = .vertAlign := el_of 99 rfl
@[simp] theorem el_spacing : elementOf c!"spacing" = .spacing := el_of 100 rfl
@[simp] theorem el_fitText : elementOf c!"fitText" = .fitText := el_of 101 rfl
@[simp] theorem el_styles : elementOf c!"styles" = .styles := el_of 102 rfl
@[simp] theorem el_Relationships : elementOf c!"Relationships" = .relationships := el_of 103 rfl
@[simp] theorem el_Relationship : elementOf c!"Relationship" = .relationship := el_of 104 rfl
@[simp] theorem el_abstractNum : elementOf c!"abstractNum" = .abstractNumbering := el_of 105 rfl
@[simp] theorem el_abstractNumId : elementOf c!"abstractNumId" = .abstractNumberingId := el_of 106 rfl
@[simp] theorem el_lvl : elementOf c!"lvl" = .level := el_of 107 rfl
@[simp] theorem el_numbering : elementOf c!"numbering" = .numbering := el_of 108 rfl
@[simp] theorem el_settings : elementOf c!"settings" = .settings := el_of 109 rfl
@[simp] theorem el_num : elementOf c!"num" = .num := el_of 110 rfl
@[simp] theorem el_numFmt : elementOf c!"numFmt" = .numberFormat := el_of 111 rfl
@[simp] theorem el_suff : elementOf c!"suff" = .suffix := el_of 112 rfl
@[simp] theorem el_isLgl : elementOf c!"isLgl" = .isLgl := el_of 113 rfl
@[simp] theorem el_lvlText : elementOf c!"lvlText" = .levelText := el_of 114 rfl
@[simp] theorem el_lvlRestart : elementOf c!"lvlRestart" = .levelRestart := el_of 115 rfl
@[simp] theorem el_lvlJc : elementOf c!"lvlJc" = .levelJustification := el_of 116 rfl
@[simp] theorem el_outlineLvl : elementOf c!"outlineLvl" = .outlineLvl := el_of 117 rfl
@[simp] theorem el_numStyleLink : elementOf c!"numStyleLink" = .numStyleLink := el_of 118 rfl
@[simp] theorem el_styleLink : elementOf c!"styleLink" = .styleLink := el_of 119 rfl
@[simp] theorem el_vAlign : elementOf c!"vAlign" = .vAlign := el_of 120 rfl
@[simp] theorem el_drawing : elementOf c!"drawing" = .drawing := el_of 121 rfl
@[simp] theorem el_txbxContent : elementOf c!"txbxContent" = .txbxContent := el_of 122 rfl
@[simp] theorem el_pict : elementOf c!"pict" = .pict := el_of 123 rfl
@[simp] theorem el_lvlOverride : elementOf c!"lvlOverride" = .lvlOverride := el_of 124 rfl
@[simp] theorem el_startOverride : elementOf c!"startOverride" = .startOverride := el_of 125 rfl
@[simp] theorem el_strike : elementOf c!"strike" = .strike := el_of 126 rfl
@[simp] theorem el_dstrike : elementOf c!"dstrike" = .dstrike := el_of 127 rfl
@[simp] theorem el_docId : elementOf c!"docId" = .docId := el_of 128 rfl
@[simp] theorem el_docVar : elementOf c!"docVar" = .docVar := el_of 129 rfl
@[simp] theorem el_docVars : elementOf c!"docVars" = .docVars := el_of 130 rfl
@[simp] theorem el_sectPr : elementOf c!"sectPr" = .sectionProperty := el_of 131 rfl
@[simp] theorem el_pgSz : elementOf c!"pgSz" = .pageSize := el_of 132 rfl
@[simp] theorem el_rFonts : elementOf c!"rFonts" = .runFonts := el_of 133 rfl
@[simp] theorem el_pgMar : elementOf c!"pgMar" = .pageMargin := el_of 134 rfl
@[simp] theorem el_docDefaults : elementOf c!"docDefaults" = .docDefaults := el_of 135 rfl
@[simp] theorem el_docGrid : elementOf c!"docGrid" = .docGrid := el_of 136 rfl
@[simp] theorem el_rPrDefault : elementOf c!"rPrDefault" = .runPropertyDefault := el_of 137 rfl
@[simp] theorem el_adjustLineHeightInTable : elementOf c!"adjustLineHeightInTable" = .adjustLineHeightInTable := el_of 138 rfl
@[simp] theorem el_characterSpacingControl : elementOf c!"characterSpacingControl" = .characterSpacingControl := el_of 139 rfl
@[simp] theorem el_defaultTabStop : elementOf c!"defaultTabStop" = .defaultTabStop := el_of 140 rfl
@[simp] theorem el_divId : elementOf c!"divId" = .divId := el_of 141 rfl
@[simp] theorem el_div : elementOf c!"div" = .div := el_of 142 rfl
@[simp] theorem el_divsChild : elementOf c!"divsChild" = .divsChild := el_of 143 rfl
@[simp] theorem el_marLeft : elementOf c!"marLeft" = .marginLeft := el_of 144 rfl
@[simp] theorem el_marRight : elementOf c!"marRight" = .marginRight := el_of 145 rfl
@[simp] theorem el_marTop : elementOf c!"marTop" = .marginTop := el_of 146 rfl
@[simp] theorem el_marBottom : elementOf c!"marBottom" = .marginBottom := el_of 147 rfl
@[simp] theorem el_sym : elementOf c!"sym" = .sym := el_of 148 rfl
@[simp] theorem el_webSettings : elementOf c!"webSettings" = .webSettings := el_of 149 rfl
@[simp] theorem el_snapToGrid : elementOf c!"snapToGrid" = .snapToGrid := el_of 150 rfl
@[simp] theorem el_keepNext : elementOf c!"keepNext" = .keepNext := el_of 151 rfl
@[simp] theorem el_keepLines : elementOf c!"keepLines" = .keepLines := el_of 152 rfl
@[simp] theorem el_pageBreakBefore : elementOf c!"pageBreakBefore" = .pageBreakBefore := el_of 153 rfl
@[simp] theorem el_widowControl : elementOf c!"widowControl" = .widowControl := el_of 154 rfl
@[simp] theorem el_headerReference : elementOf c!"headerReference" = .headerReference := el_of 155 rfl
@[simp] theorem el_footerReference : elementOf c!"footerReference" = .footerReference := el_of 156 rfl
@[simp] theorem el_titlePg : elementOf c!"titlePg" = .titlePg := el_of 157 rfl
@[simp] theorem el_evenAndOddHeaders : elementOf c!"evenAndOddHeaders" = .evenAndOddHeaders := el_of 158 rfl
@[simp] theorem el_sdt : elementOf c!"sdt" = .structuredDataTag := el_of 159 rfl
@[simp] theorem el_pgNumType : elementOf c!"pgNumType" = .pageNumType := el_of 160 rfl
@[simp] theorem el_framePr : elementOf c!"framePr" = .frameProperty := el_of 161 rfl
@[simp] theorem el_textAlignment : elementOf c!"textAlignment" = .textAlignment := el_of 162 rfl
@[simp] theorem el_adjustRightInd : elementOf c!"adjustRightInd" = .adjustRightInd := el_of 163 rfl
@[simp] theorem el_h : elementOf c!"h" = .h := el_of 164 rfl
@[simp] theorem el_hAnchor : elementOf c!"hAnchor" = .hAnchor := el_of 165 rfl
@[simp] theorem el_hSpace : elementOf c!"hSpace" = .hSpace := el_of 166 rfl
@[simp] theorem el_vAnchor : elementOf c!"vAnchor" = .vAnchor := el_of 167 rfl
@[simp] theorem el_vSpace : elementOf c!"vSpace" = .vSpace := el_of 168 rfl
@[simp] theorem el_w : elementOf c!"w" = .w := el_of 169 rfl
@[simp] theorem el_wrap : elementOf c!"wrap" = .wrap := el_of 170 rfl
@[simp] theorem el_x : elementOf c!"x" = .x := el_of 171 rfl
@[simp] theorem el_xAlign : elementOf c!"xAlign" = .xAlign := el_of 172 rfl
@[simp] theorem el_y : elementOf c!"y" = .y := el_of 173 rfl
@[simp] theorem el_yAlign : elementOf c!"yAlign" = .yAlign := el_of 174 rfl
@[simp] theorem el_type : elementOf c!"type" = .«type» := el_of 175 rfl

/-- Names that are not in the table. -/
def unknownNames : List Str := [c!"document", c!"val", c!"sdtPr", c!"sdtContent", c!"commentReference", c!"tblLayout", c!"cantSplit", c!"bidi", c!"trPr", c!"alias", c!"dataBinding", c!"cols", c!"footnoteReference", c!"delInstrText", c!"numPicBullet", c!"pPrDefault", c!"latentStyles", c!"lsdException", c!"fldSimple"]

private theorem unknown_all : (unknownNames.all fun p => decide (elementOf p = .unsupported)) = true := by decide +kernel

theorem el_un (i : Nat) {s : Str} (h : unknownNames[i]? = some s) : elementOf s = .unsupported := by
  have := List.all_eq_true.1 unknown_all _ (List.mem_of_getElem? h)
  simpa using this

@[simp] theorem el_document : elementOf c!"document" = .unsupported := el_un 0 rfl
@[simp] theorem el_val : elementOf c!"val" = .unsupported := el_un 1 rfl
@[simp] theorem el_sdtPr : elementOf c!"sdtPr" = .unsupported := el_un 2 rfl
@[simp] theorem el_sdtContent : elementOf c!"sdtContent" = .unsupported := el_un 3 rfl
@[simp] theorem el_commentReference : elementOf c!"commentReference" = .unsupported := el_un 4 rfl
@[simp] theorem el_tblLayout : elementOf c!"tblLayout" = .unsupported := el_un 5 rfl
@[simp] theorem el_cantSplit : elementOf c!"cantSplit" = .unsupported := el_un 6 rfl
@[simp] theorem el_bidi : elementOf c!"bidi" = .unsupported := el_un 7 rfl
@[simp] theorem el_trPr : elementOf c!"trPr" = .unsupported := el_un 8 rfl
@[simp] theorem el_alias : elementOf c!"alias" = .unsupported := el_un 9 rfl
@[simp] theorem el_dataBinding : elementOf c!"dataBinding" = .unsupported := el_un 10 rfl
@[simp] theorem el_cols : elementOf c!"cols" = .unsupported := el_un 11 rfl
@[simp] theorem el_footnoteReference : elementOf c!"footnoteReference" = .unsupported := el_un 12 rfl
@[simp] theorem el_delInstrText : elementOf c!"delInstrText" = .unsupported := el_un 13 rfl
@[simp] theorem el_numPicBullet : elementOf c!"numPicBullet" = .unsupported := el_un 14 rfl
@[simp] theorem el_pPrDefault : elementOf c!"pPrDefault" = .unsupported := el_un 15 rfl
@[simp] theorem el_latentStyles : elementOf c!"latentStyles" = .unsupported := el_un 16 rfl
@[simp] theorem el_lsdException : elementOf c!"lsdException" = .unsupported := el_un 17 rfl
@[simp] theorem el_fldSimple : elementOf c!"fldSimple" = .unsupported := el_un 18 rfl

end Docx
