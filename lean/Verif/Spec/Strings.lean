import Verif.Model.Build
import Verif.Spec.XmlText

/-!
# Specification: the strings a part copies into the file

`X.strings` lists the strings held by a piece of content that its writer copies into the XML as they
stand: attribute values and character data. Numbers and enumeration tokens are not listed. Comment,
footnote, header and footer bodies belong to other parts and are not listed with the text that refers
to them.

Some fields are escaped when they are set, others are stored as the caller gives them.
-/

namespace Docx

open Docx.Spec

/-- Safe to copy into a file: a reader accepts it both as character data and between double quotes. -/
def Stored (s : Str) : Prop := (decodeText s).isSome ∧ (decodeAttr s).isSome ∧ '\r' ∉ s
instance (s : Str) : Decidable (Stored s) := by unfold Stored; infer_instance

/-- An optional string. -/
def optS (o : Option Str) : List Str := o.toList

/-- The strings of an optional value. -/
def optStrings {α} (o : Option α) (f : α → List Str) : List Str :=
  match o with
  | some a => f a
  | none => []

/-- Strings of `Color`. -/
def Color.strings (x : Color) : List Str :=
  x.val :: (optS x.themeColor ++ optS x.themeShade ++ optS x.themeTint)

/-- Strings of `RunFonts`. -/
def RunFonts.strings (x : RunFonts) : List Str :=
  optS x.ascii ++ optS x.hiAnsi ++ optS x.eastAsia ++ optS x.cs ++ optS x.asciiTheme
    ++ optS x.hiAnsiTheme ++ optS x.eastAsiaTheme ++ optS x.csTheme ++ optS x.hint

/-- Strings of `TextBorder`. -/
def TextBorder.strings (x : TextBorder) : List Str :=
  [x.color]

/-- Strings of `Shading`. -/
def Shading.strings (x : Shading) : List Str :=
  [x.color, x.fill]

/-- Strings of `Mark`. -/
def Mark.strings (x : Mark) : List Str :=
  [x.author, x.date]

/-- Strings of `RunProperty`. -/
def RunProperty.strings (x : RunProperty) : List Str :=
  optS x.style ++ optStrings x.color Color.strings ++ optS x.highlight ++ optS x.underline
    ++ optStrings x.fonts RunFonts.strings ++ optStrings x.textBorder TextBorder.strings
    ++ optStrings x.del Mark.strings ++ optStrings x.ins Mark.strings
    ++ optStrings x.shading Shading.strings

/-- Strings of `FrameProperty`. -/
def FrameProperty.strings (x : FrameProperty) : List Str :=
  optS x.hRule ++ optS x.hAnchor ++ optS x.vAnchor ++ optS x.wrap ++ optS x.xAlign ++ optS x.yAlign

/-- Strings of `ParagraphBorder`. -/
def ParagraphBorder.strings (x : ParagraphBorder) : List Str :=
  [x.color]

/-- Strings of `ParagraphBorders`. -/
def ParagraphBorders.strings (x : ParagraphBorders) : List Str :=
  optStrings x.left ParagraphBorder.strings ++ optStrings x.right ParagraphBorder.strings
    ++ optStrings x.top ParagraphBorder.strings ++ optStrings x.bottom ParagraphBorder.strings
    ++ optStrings x.between ParagraphBorder.strings ++ optStrings x.bar ParagraphBorder.strings

/-- Strings of `PartReference`. -/
def PartReference.strings (x : PartReference) : List Str :=
  [x.type, x.id]

/-- Strings of `PageNumType`. -/
def PageNumType.strings (x : PageNumType) : List Str :=
  optS x.chapStyle

/-- Strings of `SectionBase`. -/
def SectionBase.strings (x : SectionBase) : List Str :=
  [x.textDirection]
    ++ optStrings x.headerReference PartReference.strings
    ++ optStrings x.firstHeaderReference PartReference.strings
    ++ optStrings x.evenHeaderReference PartReference.strings
    ++ optStrings x.footerReference PartReference.strings
    ++ optStrings x.firstFooterReference PartReference.strings
    ++ optStrings x.evenFooterReference PartReference.strings
    ++ optStrings x.pageNumType PageNumType.strings

/-- Strings of `ParagraphBase`. -/
def ParagraphBase.strings (x : ParagraphBase) : List Str :=
  x.runProperty.strings ++ optS x.style ++ optS x.alignment
    ++ optStrings x.borders ParagraphBorders.strings ++ optStrings x.frameProperty FrameProperty.strings
    ++ optStrings x.shading Shading.strings ++ optStrings x.sectionProperty SectionBase.strings

mutual
/-- Strings of `ParagraphProperty`. -/
def ParagraphProperty.strings : ParagraphProperty → List Str
  | ⟨base, change⟩ => base.strings ++ changeStrings change
/-- Strings of a recorded change of paragraph properties. -/
def changeStrings : Option ParagraphPropertyChange → List Str
  | none => []
  | some c => c.strings
/-- Strings of `ParagraphPropertyChange`. -/
def ParagraphPropertyChange.strings : ParagraphPropertyChange → List Str
  | ⟨author, date, property⟩ => author :: date :: property.strings
end

/-- Strings of `TableBorder`. -/
def TableBorder.strings (x : TableBorder) : List Str :=
  [x.color]

/-- Strings of `TableBorders`. -/
def TableBorders.strings (x : TableBorders) : List Str :=
  optStrings x.top TableBorder.strings ++ optStrings x.left TableBorder.strings
    ++ optStrings x.bottom TableBorder.strings ++ optStrings x.right TableBorder.strings
    ++ optStrings x.insideH TableBorder.strings ++ optStrings x.insideV TableBorder.strings

/-- Strings of `TableCellBorder`. -/
def TableCellBorder.strings (x : TableCellBorder) : List Str :=
  [x.color]

/-- Strings of `TableCellBorders`. -/
def TableCellBorders.strings (x : TableCellBorders) : List Str :=
  optStrings x.top TableCellBorder.strings ++ optStrings x.left TableCellBorder.strings
    ++ optStrings x.bottom TableCellBorder.strings ++ optStrings x.right TableCellBorder.strings
    ++ optStrings x.insideH TableCellBorder.strings ++ optStrings x.insideV TableCellBorder.strings
    ++ optStrings x.tr2bl TableCellBorder.strings ++ optStrings x.tl2br TableCellBorder.strings

/-- Strings of `TablePositionProperty`. -/
def TablePositionProperty.strings (x : TablePositionProperty) : List Str :=
  optS x.verticalAnchor ++ optS x.horizontalAnchor ++ optS x.positionXAlignment
    ++ optS x.positionYAlignment

/-- Strings of `TableProperty`. -/
def TableProperty.strings (x : TableProperty) : List Str :=
  [x.justification] ++ x.borders.strings ++ optS x.style
    ++ optStrings x.position TablePositionProperty.strings

/-- Strings of `TableRowProperty`. -/
def TableRowProperty.strings (x : TableRowProperty) : List Str :=
  optS x.rowHeight ++ optStrings x.del Mark.strings ++ optStrings x.ins Mark.strings

/-- Strings of `TableCellProperty`. -/
def TableCellProperty.strings (x : TableCellProperty) : List Str :=
  optStrings x.borders TableCellBorders.strings ++ optStrings x.shading Shading.strings

/-- Strings of `DataBinding`. -/
def DataBinding.strings (x : DataBinding) : List Str :=
  optS x.xpath ++ optS x.prefixMappings ++ optS x.storeItemId

/-- Strings of `SdtProperty`. -/
def SdtProperty.strings (x : SdtProperty) : List Str :=
  x.runProperty.strings ++ optStrings x.dataBinding DataBinding.strings ++ optS x.alias

/-- Strings of `Pic`. -/
def Pic.strings (x : Pic) : List Str :=
  [x.id]

/-- Strings of `InstrToC`. -/
def InstrToC.strings (x : InstrToC) : List Str :=
  optS x.entryBookmarkName ++ x.stylesWithLevels.map Prod.fst ++ optS x.entryAndPageNumberSeparator
    ++ optS x.sequenceAndPageNumbersSeparator ++ optS x.captionLabel
    ++ optS x.captionLabelIncludingNumbers ++ optS x.seqFieldIdentifierForPrefix
    ++ optS x.tcFieldIdentifier.join

/-- Strings of `InstrTC`. -/
def InstrTC.strings (x : InstrTC) : List Str :=
  x.text :: optS x.itemTypeIdentifier

/-- Strings of a field instruction. -/
def InstrText.strings : InstrText → List Str
  | .toc i => i.strings
  | .tc i => i.strings
  | .pageRef i => [i.pageRef]
  | .unsupported s => [s]
  | .page | .numPages | .hyperlink _ => []

/-- Strings of a deleted field instruction. -/
def DeleteInstrText.strings : DeleteInstrText → List Str
  | .toc i => i.strings
  | .tc i => i.strings
  | .pageRef i => [i.pageRef]
  | .unsupported s => [s]
  | .hyperlink _ => []

/-- Strings of run content. An instruction given as a string is escaped by its writer. -/
def RunChild.strings : RunChild → List Str
  | .text t => [t]
  | .sym font char => [font, char]
  | .deleteText t => [t]
  | .picture p => p.strings
  | .instrText i => i.strings
  | .deleteInstrText i => i.strings
  | .shading s => s.strings
  | _ => []

/-- Strings of a run. -/
def Run.strings (r : Run) : List Str := r.property.strings ++ r.children.flatMap RunChild.strings

/-- Strings of a child of a deletion. -/
def DeleteChild.strings : DeleteChild → List Str
  | .run r => r.strings
  | _ => []

/-- Strings of a deletion. -/
def Delete.strings (d : Delete) : List Str :=
  d.author :: d.date :: d.children.flatMap DeleteChild.strings

/-- Strings of a child of an insertion. -/
def InsertChild.strings : InsertChild → List Str
  | .run r => r.strings
  | .delete d => d.strings
  | _ => []

/-- Strings of an insertion. -/
def Insert.strings (i : Insert) : List Str :=
  i.author :: i.date :: i.children.flatMap InsertChild.strings

/-- Strings of a hyperlink's destination. The address of an external link is not written here. -/
def HyperlinkData.strings : HyperlinkData → List Str
  | .external rid _ => [rid]
  | .anchor a => [a]

/-- Strings of an entry of a table of contents. Its text is escaped by its writer. -/
def TocItem.strings (t : TocItem) : List Str := [t.tocKey]

mutual
/-- Strings of `ParagraphChild`. -/
def ParagraphChild.strings : ParagraphChild → List Str
  | .run r => r.strings
  | .insert i => i.strings
  | .delete d => d.strings
  | .moveFrom d => d.strings
  | .moveTo i => i.strings
  | .bookmarkStart _ name => [name]
  | .hyperlink h => h.strings
  | .bookmarkEnd _ => []
  | .commentStart _ _ => []
  | .commentEnd _ => []
  | .sdt s => s.strings
  | .pageNum _ => []
  | .numPages _ => []
/-- Strings of `ParagraphChildren`. -/
def stringsParagraphChildren : List ParagraphChild → List Str
  | [] => []
  | c :: cs => c.strings ++ stringsParagraphChildren cs
/-- Strings of `Hyperlink`. -/
def Hyperlink.strings : Hyperlink → List Str
  | ⟨link, _, children⟩ => link.strings ++ stringsParagraphChildren children
/-- Strings of `Sdt`. -/
def Sdt.strings : Sdt → List Str
  | ⟨children, property, _⟩ => property.strings ++ stringsSdtChildren children
/-- Strings of `SdtChildren`. -/
def stringsSdtChildren : List SdtChild → List Str
  | [] => []
  | c :: cs => c.strings ++ stringsSdtChildren cs
/-- Strings of `SdtChild`. -/
def SdtChild.strings : SdtChild → List Str
  | .run r => r.strings
  | .paragraph p => p.strings
  | .table t => t.strings
  | .bookmarkStart _ name => [name]
  | .bookmarkEnd _ => []
  | .commentStart _ _ => []
  | .commentEnd _ => []
  | .sdt s => s.strings
/-- Strings of `Paragraph`. -/
def Paragraph.strings : Paragraph → List Str
  | ⟨id, children, property, _⟩ => id :: (property.strings ++ stringsParagraphChildren children)
/-- Strings of `Table`. -/
def Table.strings : Table → List Str
  | ⟨rows, _, _, property⟩ => property.strings ++ stringsRows rows
/-- Strings of `Rows`. -/
def stringsRows : List Row → List Str
  | [] => []
  | c :: cs => c.strings ++ stringsRows cs
/-- Strings of `Row`. -/
def Row.strings : Row → List Str
  | ⟨cells, _, property⟩ => property.strings ++ stringsCells cells
/-- Strings of `Cells`. -/
def stringsCells : List Cell → List Str
  | [] => []
  | c :: cs => c.strings ++ stringsCells cs
/-- Strings of `Cell`. -/
def Cell.strings : Cell → List Str
  | ⟨children, property, _⟩ => property.strings ++ stringsCellContents children
/-- Strings of `CellContents`. -/
def stringsCellContents : List CellContent → List Str
  | [] => []
  | c :: cs => c.strings ++ stringsCellContents cs
/-- Strings of `CellContent`. -/
def CellContent.strings : CellContent → List Str
  | .paragraph p => p.strings
  | .table t => t.strings
  | .sdt s => s.strings
  | .toc t => t.strings
/-- Strings of `Toc`. -/
def Toc.strings : Toc → List Str
  | ⟨instr, items, _, _, _, alias, _, before, after, delete, property⟩ =>
    instr.strings ++ items.flatMap TocItem.strings ++ optS alias ++ stringsBlocks before
      ++ stringsBlocks after ++ optStrings delete (fun m => [m.date])
      ++ (match property with | some p => p.strings | none => [])
/-- Strings of `Blocks`. -/
def stringsBlocks : List Block → List Str
  | [] => []
  | c :: cs => c.strings ++ stringsBlocks cs
/-- Strings of `Block`. -/
def Block.strings : Block → List Str
  | .paragraph p => p.strings
  | .table t => t.strings
end

/-- Strings of the children of a header or footer. -/
def HeaderChild.strings : HeaderChild → List Str
  | .paragraph p => p.strings
  | .table t => t.strings
  | .sdt s => s.strings

/-- Strings of a header or footer. -/
def Header.strings (h : Header) : List Str := h.children.flatMap HeaderChild.strings

/-- Strings of the children of a section. -/
def SectionChild.strings : SectionChild → List Str
  | .paragraph p => p.strings
  | .table t => t.strings
  | .bookmarkStart _ name => [name]
  | .sdt s => s.strings
  | .toc t => t.strings
  | .bookmarkEnd _ | .commentStart _ _ | .commentEnd _ => []

/-- Strings of a section. -/
def Section.strings (s : Section) : List Str :=
  s.children.flatMap SectionChild.strings ++ s.property.base.strings

/-- Strings of the children of a document. -/
def DocumentChild.strings : DocumentChild → List Str
  | .paragraph p => p.strings
  | .table t => t.strings
  | .bookmarkStart _ name => [name]
  | .sdt s => s.strings
  | .toc t => t.strings
  | .section s => s.strings
  | .bookmarkEnd _ | .commentStart _ _ | .commentEnd _ => []

/-- Strings of a document. -/
def Document.strings (d : Document) : List Str :=
  d.children.flatMap DocumentChild.strings ++ d.sectionProperty.base.strings

/-- Strings of a comment, in the comments part. -/
def Comment.strings (c : Comment) : List Str := c.author :: c.date :: stringsBlocks c.children

/-- Strings of a footnote, in the footnotes part. -/
def Footnote.strings (f : Footnote) : List Str := f.content.flatMap Paragraph.strings

end Docx
