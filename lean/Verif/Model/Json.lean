import Verif.Model.Docx

/-!
# The JSON form of a document

`Docx::json` (documents/mod.rs:772-776) hands the file to `serde_json`. What is modelled here: the `Serialize` instances of the body
content (written by hand and derived), and the printer of `serde_json` (an external crate, modelled from its documented output format).
Derived instances list the fields in the order of the declaration; `rename_all = "camelCase"` turns `has_numbering` into `hasNumbering`.

What is not modelled: the instances of formatting (run, paragraph, table, ... properties), pictures, shapes, instructions of fields and
other leaves, and the fields of the file other than the document. They are given as parameters (`Leaves`), so what is proved holds
whatever they are.
-/

namespace Docx

/-- A JSON value. A number is kept as it is written. -/
inductive Json where
  | null
  | bool (b : Bool)
  | num (lexeme : Str)
  | str (s : Str)
  | arr (items : List Json)
  | obj (fields : List (Str × Json))

/-- The JSON forms of leaves, whatever they are. -/
structure Leaves where
  run : RunProperty → Json
  paragraph : ParagraphProperty → Json
  sdt : SdtProperty → Json
  table : TableProperty → Json
  row : TableRowProperty → Json
  cell : TableCellProperty → Json
  /-- The fields of a section property but for its headers and footers. elements/section_property.rs:12-49. -/
  section' : SectionBase → List (Str × Json)
  ptab : PositionalTab → Json
  picture : Pic → Json
  /-- The fields of a text box but for its content: the model has no geometry of text boxes. elements/text_box.rs:11-41. -/
  box : List (Str × Json)
  shape : Shape → Json
  instr : InstrText → Json
  deleteInstr : DeleteInstrText → Json
  tocInstr : InstrToC → Json
  shading : Shading → Json

/-- A `usize`. -/
def jnat (n : Nat) : Json := .num (dec n)

/-- An option that is `null` if it is not there. -/
def jopt {α : Type} (f : α → Json) : Option α → Json
  | none => .null
  | some a => f a

/-- A field that is left out if there is nothing: `skip_serializing_if = "Option::is_none"`. -/
def optField {α : Type} (key : Str) (f : α → Json) : Option α → List (Str × Json)
  | none => []
  | some a => [(key, f a)]

/-- A field that is left out if it is empty: `skip_serializing_if = "Vec::is_empty"`. -/
def listField (key : Str) : List Json → List (Str × Json)
  | [] => []
  | l => [(key, .arr l)]

/-- `serialize_field("type", ..)`, `serialize_field("data", ..)`. elements/run.rs:56-59 and alike. -/
def tagged (type : Str) (data : Json) : Json := .obj [(c!"type", .str type), (c!"data", data)]

/-- `serialize_field("type", ..)` alone. elements/run.rs:73-77,90-94. -/
def justType (type : Str) : Json := .obj [(c!"type", .str type)]

/-- `Text`, `DeleteText`; `preserve_space` is always set. elements/text.rs:17-29,43-53, elements/delete_text.rs:8-28. -/
def textJson (s : Str) : Json := .obj [(c!"preserveSpace", .bool true), (c!"text", .str s)]

/-- `DeleteText`, whose derived instance lists the text first. elements/delete_text.rs:8-13. -/
def deleteTextJson (s : Str) : Json := .obj [(c!"text", .str s), (c!"preserveSpace", .bool true)]

/-- `CommentRangeEnd`, `BookmarkEnd`, `FootnoteReference`: an object with an id. elements/comment_range_end.rs:7-10,
elements/bookmark_end.rs:7-10, elements/footnote_reference.rs:49-58 (style and content are left out). -/
def idJson (i : Nat) : Json := .obj [(c!"id", jnat i)]

/-- `BookmarkStart`. elements/bookmark_start.rs:7-11. -/
def bookmarkJson (i : Nat) (name : Str) : Json := .obj [(c!"id", jnat i), (c!"name", .str name)]

/-- `FieldChar`. elements/fld_char.rs:8-15, types/field_char_type.rs:8-17: the derived names are those of `Display`. -/
def fieldCharJson (t : FieldCharType) (dirty : Bool) : Json := .obj [(c!"fieldCharType", .str t.toStr), (c!"dirty", .bool dirty)]

/-- `PageNum`, `NumPages`: their instruction has no fields. elements/page_num.rs:7-10, elements/num_pages.rs:7-10, elements/instr_page.rs:7. -/
def pageJson : Json := .obj [(c!"instr", .obj [])]

/-- `HyperlinkData`: an internally tagged enumeration, flattened into the object of the link. elements/hyperlink.rs:10-23,29. -/
def linkFields : HyperlinkData → List (Str × Json)
  | .external rid path => [(c!"type", .str c!"external"), (c!"rid", .str rid)] ++ (if path = [] then [] else [(c!"path", .str path)])
  | .anchor a => [(c!"type", .str c!"anchor"), (c!"anchor", .str a)]

/-- `TableOfContentsItem`. elements/table_of_contents_item.rs:8-16. -/
def tocItemJson (P : Leaves) (i : TocItem) : Json :=
  .obj [(c!"instr", P.tocInstr i.instr), (c!"text", .str i.text), (c!"toc_key", .str i.tocKey), (c!"level", jnat i.level), (c!"dirty", .bool i.dirty), (c!"page_ref", jopt Json.str i.pageRef)]

/-- `TableOfContentsReviewData`. elements/table_of_contents.rs:37-41. -/
def markJson (m : Mark) : Json := .obj [(c!"author", .str m.author), (c!"date", .str m.date)]

mutual

/-- `Run`. elements/run.rs:10-15. -/
def runJson (P : Leaves) : Run → Json
  | ⟨pr, cs⟩ => .obj [(c!"runProperty", P.run pr), (c!"children", .arr (runChildrenJson P cs))]
/-- `RunChild`; `Drawing` and `DrawingData` inlined. elements/run.rs:49-157, elements/drawing.rs:9-41, elements/sym.rs:34-44,
elements/br.rs:31-40. -/
def runChildJson (P : Leaves) : RunChild → Json
  | .text t => tagged c!"text" (textJson t)
  | .sym f c => tagged c!"sym" (.obj [(c!"font", .str f), (c!"char", .str c)])
  | .deleteText t => tagged c!"deleteText" (deleteTextJson t)
  | .tab => justType c!"tab"
  | .ptab t => tagged c!"ptab" (P.ptab t)
  | .brk t => tagged c!"break" (.obj [(c!"breakType", .str t.toStr)])
  | .carriageReturn => justType c!"carriageReturn"
  | .picture p => tagged c!"drawing" (tagged c!"pic" (P.picture p))
  | .textBox bs => tagged c!"drawing" (tagged c!"textBox" (.obj ((c!"children", .arr (blocksJson P bs)) :: P.box)))
  | .emptyDrawing => tagged c!"drawing" (.obj [])
  | .shape s => tagged c!"shape" (P.shape s)
  | .commentStart i c => tagged c!"commentRangeStart" (.obj [(c!"id", jnat i), (c!"comment", commentJson P c)])
  | .commentEnd i => tagged c!"commentRangeEnd" (idJson i)
  | .fieldChar t d => tagged c!"fieldChar" (fieldCharJson t d)
  | .instrText i => tagged c!"instrText" (P.instr i)
  | .deleteInstrText i => tagged c!"deleteInstrText" (P.deleteInstr i)
  | .instrTextString s => tagged c!"instrTextString" (.str s)
  | .footnoteReference i _ _ => tagged c!"footnoteReference" (idJson i)
  | .shading s => tagged c!"shading" (P.shading s)
/-- The children of a run. elements/run.rs:14. -/
def runChildrenJson (P : Leaves) : List RunChild → List Json
  | [] => []
  | c :: cs => runChildJson P c :: runChildrenJson P cs
/-- `Comment`. elements/comment.rs:8-16. -/
def commentJson (P : Leaves) : Comment → Json
  | ⟨i, a, d, bs, p⟩ =>
    .obj [(c!"id", jnat i), (c!"author", .str a), (c!"date", .str d), (c!"children", .arr (blocksJson P bs)), (c!"parentCommentId", jopt jnat p)]
/-- `CommentChild`, `TocContent`, `TextBoxContentChild`. elements/comment.rs:24-44, elements/table_of_contents.rs:15-35,
elements/text_box_content.rs:21-41. -/
def blockJson (P : Leaves) : Block → Json
  | .paragraph p => tagged c!"paragraph" (paragraphJson P p)
  | .table t => tagged c!"table" (tableJson P t)
/-- Lists of them. elements/comment.rs:14, elements/table_of_contents.rs:57-61, elements/text_box.rs:10. -/
def blocksJson (P : Leaves) : List Block → List Json
  | [] => []
  | c :: cs => blockJson P c :: blocksJson P cs
/-- `Delete`, `MoveFrom`. elements/delete.rs:8-13, elements/move_from.rs:8-13. -/
def deleteJson (P : Leaves) : Delete → Json
  | ⟨a, d, cs⟩ => .obj [(c!"author", .str a), (c!"date", .str d), (c!"children", .arr (deleteChildrenJson P cs))]
/-- `DeleteChild`, `MoveFromChild`. elements/delete.rs:22-48, elements/move_from.rs:22-48. -/
def deleteChildJson (P : Leaves) : DeleteChild → Json
  | .run r => tagged c!"run" (runJson P r)
  | .commentStart i c => tagged c!"commentRangeStart" (.obj [(c!"id", jnat i), (c!"comment", commentJson P c)])
  | .commentEnd i => tagged c!"commentRangeEnd" (idJson i)
/-- Lists of them. elements/delete.rs:12, elements/move_from.rs:12. -/
def deleteChildrenJson (P : Leaves) : List DeleteChild → List Json
  | [] => []
  | c :: cs => deleteChildJson P c :: deleteChildrenJson P cs
/-- `Insert`, `MoveTo`. elements/insert.rs:66-71, elements/move_to.rs:66-71. -/
def insertJson (P : Leaves) : Insert → Json
  | ⟨a, d, cs⟩ => .obj [(c!"children", .arr (insertChildrenJson P cs)), (c!"author", .str a), (c!"date", .str d)]
/-- `InsertChild`, `MoveToChild`. elements/insert.rs:32-64, elements/move_to.rs:32-64. -/
def insertChildJson (P : Leaves) : InsertChild → Json
  | .run r => tagged c!"run" (runJson P r)
  | .delete d => tagged c!"delete" (deleteJson P d)
  | .commentStart i c => tagged c!"commentRangeStart" (.obj [(c!"id", jnat i), (c!"comment", commentJson P c)])
  | .commentEnd i => tagged c!"commentRangeEnd" (idJson i)
/-- Lists of them. elements/insert.rs:68, elements/move_to.rs:68. -/
def insertChildrenJson (P : Leaves) : List InsertChild → List Json
  | [] => []
  | c :: cs => insertChildJson P c :: insertChildrenJson P cs
/-- `Hyperlink`. elements/hyperlink.rs:25-32. -/
def hyperlinkJson (P : Leaves) : Hyperlink → Json
  | ⟨l, h, cs⟩ => .obj (linkFields l ++ [(c!"history", jopt jnat h), (c!"children", .arr (paragraphChildrenJson P cs))])
/-- `ParagraphChild`. elements/paragraph.rs:70-156. -/
def paragraphChildJson (P : Leaves) : ParagraphChild → Json
  | .run r => tagged c!"run" (runJson P r)
  | .insert i => tagged c!"insert" (insertJson P i)
  | .delete d => tagged c!"delete" (deleteJson P d)
  | .moveFrom d => tagged c!"moveFrom" (deleteJson P d)
  | .moveTo i => tagged c!"moveTo" (insertJson P i)
  | .hyperlink h => tagged c!"hyperlink" (hyperlinkJson P h)
  | .bookmarkStart i n => tagged c!"bookmarkStart" (bookmarkJson i n)
  | .bookmarkEnd i => tagged c!"bookmarkEnd" (idJson i)
  | .commentStart i c => tagged c!"commentRangeStart" (.obj [(c!"id", jnat i), (c!"comment", commentJson P c)])
  | .commentEnd i => tagged c!"commentRangeEnd" (idJson i)
  | .sdt s => tagged c!"structuredDataTag" (sdtJson P s)
  | .pageNum _ => tagged c!"pageNum" pageJson
  | .numPages _ => tagged c!"numPages" pageJson
/-- Lists of them. elements/paragraph.rs:14, elements/hyperlink.rs:31. -/
def paragraphChildrenJson (P : Leaves) : List ParagraphChild → List Json
  | [] => []
  | c :: cs => paragraphChildJson P c :: paragraphChildrenJson P cs
/-- `Paragraph`. elements/paragraph.rs:10-17. -/
def paragraphJson (P : Leaves) : Paragraph → Json
  | ⟨i, cs, pr, n⟩ =>
    .obj [(c!"id", .str i), (c!"children", .arr (paragraphChildrenJson P cs)), (c!"property", P.paragraph pr), (c!"hasNumbering", .bool n)]
/-- `StructuredDataTag`. elements/structured_data_tag.rs:10-16. -/
def sdtJson (P : Leaves) : Sdt → Json
  | ⟨cs, pr, n⟩ => .obj [(c!"children", .arr (sdtChildrenJson P cs)), (c!"property", P.sdt pr), (c!"hasNumbering", .bool n)]
/-- `StructuredDataTagChild`. elements/structured_data_tag.rs:58-114. -/
def sdtChildJson (P : Leaves) : SdtChild → Json
  | .run r => tagged c!"run" (runJson P r)
  | .paragraph p => tagged c!"paragraph" (paragraphJson P p)
  | .table t => tagged c!"table" (tableJson P t)
  | .bookmarkStart i n => tagged c!"bookmarkStart" (bookmarkJson i n)
  | .bookmarkEnd i => tagged c!"bookmarkEnd" (idJson i)
  | .commentStart i c => tagged c!"commentRangeStart" (.obj [(c!"id", jnat i), (c!"comment", commentJson P c)])
  | .commentEnd i => tagged c!"commentRangeEnd" (idJson i)
  | .sdt s => tagged c!"structuredDataTag" (sdtJson P s)
/-- Lists of them. elements/structured_data_tag.rs:13. -/
def sdtChildrenJson (P : Leaves) : List SdtChild → List Json
  | [] => []
  | c :: cs => sdtChildJson P c :: sdtChildrenJson P cs
/-- `Table`. elements/table.rs:10-17. -/
def tableJson (P : Leaves) : Table → Json
  | ⟨rs, g, n, pr⟩ =>
    .obj [(c!"rows", .arr (rowsJson P rs)), (c!"grid", .arr (g.map jnat)), (c!"hasNumbering", .bool n), (c!"property", P.table pr)]
/-- `TableRow`. elements/table_row.rs:9-15. -/
def rowJson (P : Leaves) : Row → Json
  | ⟨cs, n, pr⟩ => .obj [(c!"cells", .arr (cellsJson P cs)), (c!"hasNumbering", .bool n), (c!"property", P.row pr)]
/-- `TableChild`, in a list. elements/table.rs:13,144-158. -/
def rowsJson (P : Leaves) : List Row → List Json
  | [] => []
  | c :: cs => tagged c!"tableRow" (rowJson P c) :: rowsJson P cs
/-- `TableCell`. elements/table_cell.rs:10-16. -/
def cellJson (P : Leaves) : Cell → Json
  | ⟨cs, pr, n⟩ => .obj [(c!"children", .arr (cellContentsJson P cs)), (c!"property", P.cell pr), (c!"hasNumbering", .bool n)]
/-- `TableRowChild`, in a list. elements/table_row.rs:12,105-119. -/
def cellsJson (P : Leaves) : List Cell → List Json
  | [] => []
  | c :: cs => tagged c!"tableCell" (cellJson P c) :: cellsJson P cs
/-- `TableCellContent`. elements/table_cell.rs:26-58. -/
def cellContentJson (P : Leaves) : CellContent → Json
  | .paragraph p => tagged c!"paragraph" (paragraphJson P p)
  | .table t => tagged c!"table" (tableJson P t)
  | .sdt s => tagged c!"structuredDataTag" (sdtJson P s)
  | .toc t => tagged c!"tableOfContents" (tocJson P t)
/-- Lists of them. elements/table_cell.rs:13. -/
def cellContentsJson (P : Leaves) : List CellContent → List Json
  | [] => []
  | c :: cs => cellContentJson P c :: cellContentsJson P cs
/-- `TableOfContents`, whose fields are not renamed. elements/table_of_contents.rs:45-66. -/
def tocJson (P : Leaves) : Toc → Json
  | ⟨instr, items, auto, dirty, without, al, placeholder, before, after, delete, property⟩ =>
    .obj ([(c!"instr", P.tocInstr instr), (c!"items", .arr (items.map (tocItemJson P))), (c!"auto", .bool auto), (c!"dirty", .bool dirty), (c!"without_sdt", .bool without), (c!"alias", jopt Json.str al), (c!"page_ref_placeholder", jopt Json.str placeholder)] ++
      listField c!"before_contents" (blocksJson P before) ++ listField c!"after_contents" (blocksJson P after) ++
      optField c!"delete" markJson delete ++ optField c!"paragraph_property" P.paragraph property)

end

/-- `HeaderChild`, `FooterChild`. documents/header.rs:55-81, documents/footer.rs:55-81. -/
def headerChildJson (P : Leaves) : HeaderChild → Json
  | .paragraph p => tagged c!"paragraph" (paragraphJson P p)
  | .table t => tagged c!"table" (tableJson P t)
  | .sdt s => tagged c!"structuredDataTag" (sdtJson P s)

/-- `Header`, `Footer`. documents/header.rs:9-14, documents/footer.rs:9-14. -/
def headerJson (P : Leaves) (h : Header) : Json :=
  .obj [(c!"hasNumbering", .bool h.hasNumbering), (c!"children", .arr (h.children.map (headerChildJson P)))]

/-- A header with its id: a tuple is an array. elements/section_property.rs:24,28,32,36,40,44. -/
def partJson (P : Leaves) (p : Str × Header) : Json := .arr [.str p.1, headerJson P p.2]

/-- `SectionProperty`. elements/section_property.rs:10-49. Simplification: the headers and footers come first, and all other fields after
them; the order of fields means nothing in JSON. -/
def sectionPropertyJson (P : Leaves) (p : SectionProperty) : Json :=
  .obj (optField c!"header" (partJson P) p.header ++ optField c!"firstHeader" (partJson P) p.firstHeader ++
    optField c!"evenHeader" (partJson P) p.evenHeader ++ optField c!"footer" (partJson P) p.footer ++
    optField c!"firstFooter" (partJson P) p.firstFooter ++ optField c!"evenFooter" (partJson P) p.evenFooter ++ P.section' p.base)

/-- `SectionChild`. elements/section.rs:24-80. -/
def sectionChildJson (P : Leaves) : SectionChild → Json
  | .paragraph p => tagged c!"paragraph" (paragraphJson P p)
  | .table t => tagged c!"table" (tableJson P t)
  | .bookmarkStart i n => tagged c!"bookmarkStart" (bookmarkJson i n)
  | .bookmarkEnd i => tagged c!"bookmarkEnd" (idJson i)
  | .commentStart i c => tagged c!"commentRangeStart" (.obj [(c!"id", jnat i), (c!"comment", commentJson P c)])
  | .commentEnd i => tagged c!"commentRangeEnd" (idJson i)
  | .sdt s => tagged c!"structuredDataTag" (sdtJson P s)
  | .toc t => tagged c!"tableOfContents" (tocJson P t)

/-- `Section`. elements/section.rs:100-112. -/
def sectionJson (P : Leaves) (s : Section) : Json :=
  .obj [(c!"property", sectionPropertyJson P s.property), (c!"children", .arr (s.children.map (sectionChildJson P))), (c!"hasNumbering", .bool s.hasNumbering), (c!"tempHeader", jopt (headerJson P) s.tempHeader), (c!"tempFirstHeader", jopt (headerJson P) s.tempFirstHeader), (c!"tempEvenHeader", jopt (headerJson P) s.tempEvenHeader), (c!"tempFooter", jopt (headerJson P) s.tempFooter), (c!"tempFirstFooter", jopt (headerJson P) s.tempFirstFooter), (c!"tempEvenFooter", jopt (headerJson P) s.tempEvenFooter)]

/-- `DocumentChild`. documents/document.rs:30-92. -/
def documentChildJson (P : Leaves) : DocumentChild → Json
  | .paragraph p => tagged c!"paragraph" (paragraphJson P p)
  | .table t => tagged c!"table" (tableJson P t)
  | .bookmarkStart i n => tagged c!"bookmarkStart" (bookmarkJson i n)
  | .bookmarkEnd i => tagged c!"bookmarkEnd" (idJson i)
  | .commentStart i c => tagged c!"commentRangeStart" (.obj [(c!"id", jnat i), (c!"comment", commentJson P c)])
  | .commentEnd i => tagged c!"commentRangeEnd" (idJson i)
  | .sdt s => tagged c!"structuredDataTag" (sdtJson P s)
  | .toc t => tagged c!"tableOfContents" (tocJson P t)
  | .section s => tagged c!"section" (sectionJson P s)

/-- `Document`. documents/document.rs:9-15. -/
def documentJson (P : Leaves) (d : Document) : Json :=
  .obj [(c!"children", .arr (d.children.map (documentChildJson P))), (c!"sectionProperty", sectionPropertyJson P d.sectionProperty), (c!"hasNumbering", .bool d.hasNumbering)]

/-! ## The printer of `serde_json` -/

/-- The two hexadecimal digits of a control character in `\u00xx`. -/
def hexPair (n : Nat) : Str := [Nat.digitChar (n / 16), Nat.digitChar (n % 16)]

/-- `format_escaped_str_contents` of `serde_json`: quotes, backslashes and control characters are escaped, everything else is copied. -/
def jsonChar (c : Char) : Str :=
  if c = '"' then ['\\', '"'] else if c = '\\' then ['\\', '\\']
  else if c.toNat = 8 then ['\\', 'b'] else if c.toNat = 9 then ['\\', 't'] else if c.toNat = 10 then ['\\', 'n']
  else if c.toNat = 12 then ['\\', 'f'] else if c.toNat = 13 then ['\\', 'r']
  else if c.toNat < 32 then ['\\', 'u', '0', '0'] ++ hexPair c.toNat else [c]

/-- A string in quotes. -/
def jsonStr (s : Str) : Str := '"' :: s.flatMap jsonChar ++ ['"']

/-- A new line, indented by two blanks per level: `PrettyFormatter` of `serde_json`. -/
def jsonLine (level : Nat) : Str := '\n' :: List.replicate (2 * level) ' '

mutual
/-- `serde_json::to_string_pretty` at a level of indentation. -/
def Json.pretty (level : Nat) : Json → Str
  | .null => c!"null"
  | .bool true => c!"true"
  | .bool false => c!"false"
  | .num n => n
  | .str s => jsonStr s
  | .arr [] => c!"[]"
  | .arr (v :: vs) => '[' :: (jsonLine (level + 1) ++ v.pretty (level + 1)) ++ prettyItems (level + 1) vs ++ jsonLine level ++ [']']
  | .obj [] => c!"{}"
  | .obj ((k, v) :: fs) =>
    '{' :: (jsonLine (level + 1) ++ jsonStr k ++ c!": " ++ v.pretty (level + 1)) ++ prettyFields (level + 1) fs ++ jsonLine level ++ ['}']
/-- The items after the first. -/
def prettyItems (level : Nat) : List Json → Str
  | [] => []
  | v :: vs => ',' :: (jsonLine level ++ v.pretty level) ++ prettyItems level vs
/-- The fields after the first. -/
def prettyFields (level : Nat) : List (Str × Json) → Str
  | [] => []
  | (k, v) :: fs => ',' :: (jsonLine level ++ jsonStr k ++ c!": " ++ v.pretty level) ++ prettyFields level fs
end

/-- `Docx::json`: the document among the other fields of the file, which are given. documents/mod.rs:143-177,772-776. -/
def DocxFile.json (P : Leaves) (before after : List (Str × Json)) (d : DocxFile) : Str :=
  (Json.obj (before ++ (c!"document", documentJson P d.document) :: after)).pretty 0

end Docx
