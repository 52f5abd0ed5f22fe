import Verif.Model.Base

/-!
# Element names (`docx-core/src/reader/xml_element.rs`)

Generated from the source by copying the enumeration and the table of `FromStr`.
-/

namespace Docx

/-- `XMLElement`. reader/xml_element.rs:8-188. -/
inductive El where
  | body
  | paragraph
  | paragraphProperty
  | paragraphBorders
  | run
  | runProperty
  | color
  | underline
  | runFonts
  | size
  | sizeCs
  | spacing
  | fitText
  | vanish
  | specVanish
  | textBorder
  | italic
  | italicCs
  | text
  | fieldChar
  | instrText
  | hyperlink
  | highlight
  | vertAlign
  | bold
  | caps
  | runStyle
  | boldCs
  | «break»
  | carriageReturn
  | tab
  | tabs
  | pTab
  | sym
  | paragraphStyle
  | paragraphPropertyChange
  | runPropertyChange
  | indent
  | name
  | basedOn
  | link
  | alignment
  | numberingProperty
  | indentLevel
  | numberingId
  | justification
  | outlineLvl
  | insert
  | moveFrom
  | moveTo
  | snapToGrid
  | keepNext
  | keepLines
  | pageBreakBefore
  | widowControl
  | divId
  | div
  | divsChild
  | marginLeft
  | marginRight
  | marginTop
  | marginBottom
  | delete
  | deleteText
  | bookmarkStart
  | bookmarkEnd
  | comment
  | comments
  | commentRangeStart
  | commentRangeEnd
  | commentExtended
  | property
  | commentsExtended
  | vAlign
  | shading
  | strike
  | dstrike
  | textDirection
  | table
  | tableProperty
  | tableRow
  | tableRowHeight
  | heightRule
  | tableCell
  | tableCellProperty
  | tableCellWidth
  | tableCellBorders
  | tableVMerge
  | tableGridSpan
  | tableWidth
  | tableIndent
  | tableBorders
  | tableCellMargin
  | tablePositionProperty
  | tableStyle
  | tableGridChange
  | tablePropertyChange
  | tableRowPropertyChange
  | tableCellPropertyChange
  | cellMargins
  | top
  | right
  | «end»
  | left
  | start
  | bottom
  | insideH
  | insideV
  | between
  | bar
  | tl2br
  | tr2bl
  | tableGrid
  | gridCol
  | gridAfter
  | widthAfter
  | gridBefore
  | widthBefore
  | style
  | next
  | styles
  | relationship
  | relationships
  | abstractNumbering
  | abstractNumberingId
  | lvlOverride
  | startOverride
  | level
  | numbering
  | settings
  | num
  | numberFormat
  | suffix
  | isLgl
  | levelText
  | levelJustification
  | levelRestart
  | styleLink
  | numStyleLink
  | drawing
  | txbxContent
  | pict
  | docId
  | docVars
  | docVar
  | docGrid
  | docDefaults
  | defaultTabStop
  | runPropertyDefault
  | adjustLineHeightInTable
  | characterSpacingControl
  | sectionProperty
  | pageSize
  | pageMargin
  | webSettings
  | headerReference
  | footerReference
  | titlePg
  | evenAndOddHeaders
  | structuredDataTag
  | «type»
  | pageNumType
  | frameProperty
  | textAlignment
  | adjustRightInd
  | h
  | hAnchor
  | hSpace
  | vAnchor
  | vSpace
  | w
  | wrap
  | x
  | xAlign
  | y
  | yAlign
  | unsupported
deriving DecidableEq, Repr

/-- The table of `XMLElement::from_str`. reader/xml_element.rs:267-450. -/
def elementTable : List (Str × El) :=
  [ (c!"body", .body), (c!"p", .paragraph), (c!"pPr", .paragraphProperty), (c!"pBdr", .paragraphBorders),
    (c!"r", .run), (c!"rPr", .runProperty), (c!"rPrChange", .runPropertyChange), (c!"color", .color),
    (c!"t", .text), (c!"fldChar", .fieldChar), (c!"instrText", .instrText), (c!"hyperlink", .hyperlink),
    (c!"sz", .size), (c!"szCs", .sizeCs), (c!"u", .underline), (c!"pStyle", .paragraphStyle),
    (c!"pPrChange", .paragraphPropertyChange), (c!"highlight", .highlight), (c!"rStyle", .runStyle), (c!"b", .bold),
    (c!"bCs", .boldCs), (c!"caps", .caps), (c!"i", .italic), (c!"iCs", .italicCs),
    (c!"vanish", .vanish), (c!"specVanish", .specVanish), (c!"italic", .italic), (c!"name", .name),
    (c!"tab", .tab), (c!"tabs", .tabs), (c!"ptab", .pTab), (c!"br", .«break»),
    (c!"cr", .carriageReturn), (c!"ind", .indent), (c!"numPr", .numberingProperty), (c!"ilvl", .indentLevel),
    (c!"numId", .numberingId), (c!"jc", .justification), (c!"ins", .insert), (c!"moveFrom", .moveFrom),
    (c!"moveTo", .moveTo), (c!"del", .delete), (c!"delText", .deleteText), (c!"bookmarkStart", .bookmarkStart),
    (c!"bookmarkEnd", .bookmarkEnd), (c!"comments", .comments), (c!"comment", .comment), (c!"commentRangeStart", .commentRangeStart),
    (c!"commentRangeEnd", .commentRangeEnd), (c!"commentEx", .commentExtended), (c!"commentsEx", .commentsExtended), (c!"shd", .shading),
    (c!"property", .property), (c!"tbl", .table), (c!"tblPr", .tableProperty), (c!"tr", .tableRow),
    (c!"trHeight", .tableRowHeight), (c!"hRule", .heightRule), (c!"tc", .tableCell), (c!"tcPr", .tableCellProperty),
    (c!"tcW", .tableCellWidth), (c!"tcBorders", .tableCellBorders), (c!"vMerge", .tableVMerge), (c!"gridSpan", .tableGridSpan),
    (c!"gridAfter", .gridAfter), (c!"wAfter", .widthAfter), (c!"gridBefore", .gridBefore), (c!"wBefore", .widthBefore),
    (c!"textDirection", .textDirection), (c!"tblW", .tableWidth), (c!"tblInd", .tableIndent), (c!"tblBorders", .tableBorders),
    (c!"tblCellMar", .tableCellMargin), (c!"tblStyle", .tableStyle), (c!"tblpPr", .tablePositionProperty), (c!"top", .top),
    (c!"right", .right), (c!"start", .start), (c!"end", .«end»), (c!"left", .left),
    (c!"bottom", .bottom), (c!"insideH", .insideH), (c!"insideV", .insideV), (c!"between", .between),
    (c!"bar", .bar), (c!"tl2br", .tl2br), (c!"tr2bl", .tr2bl), (c!"tblGrid", .tableGrid),
    (c!"tblPrChange", .tablePropertyChange), (c!"trPrChange", .tableRowPropertyChange), (c!"tcPrChange", .tableCellPropertyChange), (c!"tcMar", .cellMargins),
    (c!"tblGridChange", .tableGridChange), (c!"gridCol", .gridCol), (c!"style", .style), (c!"basedOn", .basedOn),
    (c!"link", .link), (c!"bdr", .textBorder), (c!"next", .next), (c!"vertAlign", .vertAlign),
    (c!"spacing", .spacing), (c!"fitText", .fitText), (c!"styles", .styles), (c!"Relationships", .relationships),
    (c!"Relationship", .relationship), (c!"abstractNum", .abstractNumbering), (c!"abstractNumId", .abstractNumberingId), (c!"lvl", .level),
    (c!"numbering", .numbering), (c!"settings", .settings), (c!"num", .num), (c!"numFmt", .numberFormat),
    (c!"suff", .suffix), (c!"isLgl", .isLgl), (c!"lvlText", .levelText), (c!"lvlRestart", .levelRestart),
    (c!"lvlJc", .levelJustification), (c!"outlineLvl", .outlineLvl), (c!"numStyleLink", .numStyleLink), (c!"styleLink", .styleLink),
    (c!"vAlign", .vAlign), (c!"drawing", .drawing), (c!"txbxContent", .txbxContent), (c!"pict", .pict),
    (c!"lvlOverride", .lvlOverride), (c!"startOverride", .startOverride), (c!"strike", .strike), (c!"dstrike", .dstrike),
    (c!"docId", .docId), (c!"docVar", .docVar), (c!"docVars", .docVars), (c!"sectPr", .sectionProperty),
    (c!"pgSz", .pageSize), (c!"rFonts", .runFonts), (c!"pgMar", .pageMargin), (c!"docDefaults", .docDefaults),
    (c!"docGrid", .docGrid), (c!"rPrDefault", .runPropertyDefault), (c!"adjustLineHeightInTable", .adjustLineHeightInTable), (c!"characterSpacingControl", .characterSpacingControl),
    (c!"defaultTabStop", .defaultTabStop), (c!"divId", .divId), (c!"div", .div), (c!"divsChild", .divsChild),
    (c!"marLeft", .marginLeft), (c!"marRight", .marginRight), (c!"marTop", .marginTop), (c!"marBottom", .marginBottom),
    (c!"sym", .sym), (c!"webSettings", .webSettings), (c!"snapToGrid", .snapToGrid), (c!"keepNext", .keepNext),
    (c!"keepLines", .keepLines), (c!"pageBreakBefore", .pageBreakBefore), (c!"widowControl", .widowControl), (c!"headerReference", .headerReference),
    (c!"footerReference", .footerReference), (c!"titlePg", .titlePg), (c!"evenAndOddHeaders", .evenAndOddHeaders), (c!"sdt", .structuredDataTag),
    (c!"pgNumType", .pageNumType), (c!"framePr", .frameProperty), (c!"textAlignment", .textAlignment), (c!"adjustRightInd", .adjustRightInd),
    (c!"h", .h), (c!"hAnchor", .hAnchor), (c!"hSpace", .hSpace), (c!"vAnchor", .vAnchor),
    (c!"vSpace", .vSpace), (c!"w", .w), (c!"wrap", .wrap), (c!"x", .x),
    (c!"xAlign", .xAlign), (c!"y", .y), (c!"yAlign", .yAlign), (c!"type", .«type») ]

/-- `XMLElement::from_str`: never an error. reader/xml_element.rs:267-450. -/
def elementOf (name : Str) : El := (elementTable.lookup name).getD .unsupported

end Docx
