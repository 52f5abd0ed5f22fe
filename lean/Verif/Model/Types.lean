import Verif.Model.PropTypes

/-!
# Document content (`docx-core/src/documents/elements/*.rs`, `documents/{header,footer,document}.rs`)

The content types are mutually recursive exactly as in the Rust source: a run may hold a comment
anchor, whose comment holds paragraphs and tables, whose cells hold paragraphs, and so on.
Single-variant enums (`TableChild`, `TableRowChild`) are replaced by their payload.
`MoveFrom` has the fields of `Delete` and `MoveTo` the fields of `Insert`
(elements/move_from.rs:9-20, elements/move_to.rs:11-16,67-71), so the model reuses those two types.
-/

namespace Docx

/-- `Shape` and its `ImageData`. elements/shape.rs:7-21. -/
structure Shape where
  style : Option Str := none
  imageData : Option Str := none
deriving DecidableEq

mutual

/-- `Run`. elements/run.rs:12-15. -/
structure Run where
  property : RunProperty := {}
  children : List RunChild := []

/-- `RunChild`. elements/run.rs:28-47. `DrawingData` (elements/drawing.rs:10-19) is inlined:
`picture`, `textBox` (children only, elements/text_box.rs:8-22: the writer rejects text boxes, so
their geometry is not modelled) and `emptyDrawing`. -/
inductive RunChild where
  | text (t : Str)
  | sym (font char : Str)
  | deleteText (t : Str)
  | tab
  | ptab (t : PositionalTab)
  | brk (t : BreakType)
  | carriageReturn
  | picture (p : Pic)
  | textBox (children : List Block)
  | emptyDrawing
  | shape (s : Shape)
  | commentStart (id : Nat) (c : Comment)
  | commentEnd (id : Nat)
  | fieldChar (t : FieldCharType) (dirty : Bool)
  | instrText (i : InstrText)
  | deleteInstrText (i : DeleteInstrText)
  | instrTextString (s : Str)
  | footnoteReference (id : Nat) (style : Str) (content : List Paragraph)
  | shading (s : Shading)

/-- `Comment`. elements/comment.rs:10-16. -/
structure Comment where
  id : Nat
  author : Str := c!"unnamed"
  date : Str := c!"1970-01-01T00:00:00Z"
  children : List Block := []
  parent : Option Nat := none

/-- `CommentChild`, `TocContent`, `TextBoxContentChild`: a paragraph or a table.
elements/comment.rs:19-22, elements/table_of_contents.rs:10-13, elements/text_box_content.rs:16-19. -/
inductive Block where
  | paragraph (p : Paragraph)
  | table (t : Table)

/-- `Delete` (and `MoveFrom`). elements/delete.rs:9-13. -/
structure Delete where
  author : Str := c!"unnamed"
  date : Str := c!"1970-01-01T00:00:00Z"
  children : List DeleteChild := []

/-- `DeleteChild` (and `MoveFromChild`). elements/delete.rs:16-20. -/
inductive DeleteChild where
  | run (r : Run)
  | commentStart (id : Nat) (c : Comment)
  | commentEnd (id : Nat)

/-- `Insert` (and `MoveTo`). elements/insert.rs:67-71. -/
structure Insert where
  author : Str := c!"unnamed"
  date : Str := c!"1970-01-01T00:00:00Z"
  children : List InsertChild := []

/-- `InsertChild` (and `MoveToChild`). elements/insert.rs:11-16. -/
inductive InsertChild where
  | run (r : Run)
  | delete (d : Delete)
  | commentStart (id : Nat) (c : Comment)
  | commentEnd (id : Nat)

/-- `Hyperlink`. elements/hyperlink.rs:27-32. -/
structure Hyperlink where
  link : HyperlinkData
  history : Option Nat := none
  children : List ParagraphChild := []

/-- `ParagraphChild`. elements/paragraph.rs:31-45. -/
inductive ParagraphChild where
  | run (r : Run)
  | insert (i : Insert)
  | delete (d : Delete)
  | moveFrom (d : Delete)
  | moveTo (i : Insert)
  | bookmarkStart (id : Nat) (name : Str)
  | hyperlink (h : Hyperlink)
  | bookmarkEnd (id : Nat)
  | commentStart (id : Nat) (c : Comment)
  | commentEnd (id : Nat)
  | sdt (s : Sdt)
  | pageNum (instr : InstrText)
  | numPages (instr : InstrText)

/-- `Paragraph`. elements/paragraph.rs:12-17. -/
structure Paragraph where
  id : Str
  children : List ParagraphChild := []
  property : ParagraphProperty := {}
  hasNumbering : Bool := false

/-- `StructuredDataTag`. elements/structured_data_tag.rs:12-16. -/
structure Sdt where
  children : List SdtChild := []
  property : SdtProperty := {}
  hasNumbering : Bool := false

/-- `StructuredDataTagChild`. elements/structured_data_tag.rs:29-38. -/
inductive SdtChild where
  | run (r : Run)
  | paragraph (p : Paragraph)
  | table (t : Table)
  | bookmarkStart (id : Nat) (name : Str)
  | bookmarkEnd (id : Nat)
  | commentStart (id : Nat) (c : Comment)
  | commentEnd (id : Nat)
  | sdt (s : Sdt)

/-- `Table`. elements/table.rs:12-17. -/
structure Table where
  rows : List Row := []
  grid : List Nat := []
  hasNumbering : Bool := false
  property : TableProperty := {}

/-- `TableRow`. elements/table_row.rs:11-15. -/
structure Row where
  cells : List Cell := []
  hasNumbering : Bool := false
  property : TableRowProperty := {}

/-- `TableCell`. elements/table_cell.rs:12-16. -/
structure Cell where
  children : List CellContent := []
  property : TableCellProperty := {}
  hasNumbering : Bool := false

/-- `TableCellContent`. elements/table_cell.rs:19-24. -/
inductive CellContent where
  | paragraph (p : Paragraph)
  | table (t : Table)
  | sdt (s : Sdt)
  | toc (t : Toc)

/-- `TableOfContents`. elements/table_of_contents.rs:46-66. -/
structure Toc where
  instr : InstrToC := {}
  items : List TocItem := []
  auto : Bool := false
  dirty : Bool := false
  withoutSdt : Bool := false
  alias : Option Str := none
  pageRefPlaceholder : Option Str := none
  before : List Block := []
  after : List Block := []
  delete : Option Mark := none
  paragraphProperty : Option ParagraphProperty := none

end

/-- `HeaderChild` and `FooterChild`. documents/header.rs:49-53, documents/footer.rs:49-53. -/
inductive HeaderChild where
  | paragraph (p : Paragraph)
  | table (t : Table)
  | sdt (s : Sdt)

/-- `Header` and `Footer`. documents/header.rs:11-14, documents/footer.rs:11-14. -/
structure Header where
  hasNumbering : Bool := false
  children : List HeaderChild := []

/-- `SectionProperty`: the scalars and references (`base`) and the six header and footer bodies,
each with its relationship id. elements/section_property.rs:12-49. -/
structure SectionProperty where
  base : SectionBase := {}
  header : Option (Str × Header) := none
  firstHeader : Option (Str × Header) := none
  evenHeader : Option (Str × Header) := none
  footer : Option (Str × Header) := none
  firstFooter : Option (Str × Header) := none
  evenFooter : Option (Str × Header) := none

/-- `SectionChild`. elements/section.rs:13-22. -/
inductive SectionChild where
  | paragraph (p : Paragraph)
  | table (t : Table)
  | bookmarkStart (id : Nat) (name : Str)
  | bookmarkEnd (id : Nat)
  | commentStart (id : Nat) (c : Comment)
  | commentEnd (id : Nat)
  | sdt (s : Sdt)
  | toc (t : Toc)

/-- `Section`. elements/section.rs:102-112. -/
structure Section where
  property : SectionProperty := {}
  children : List SectionChild := []
  hasNumbering : Bool := false
  tempHeader : Option Header := none
  tempFirstHeader : Option Header := none
  tempEvenHeader : Option Header := none
  tempFooter : Option Header := none
  tempFirstFooter : Option Header := none
  tempEvenFooter : Option Header := none

/-- `DocumentChild`. documents/document.rs:18-28. -/
inductive DocumentChild where
  | paragraph (p : Paragraph)
  | table (t : Table)
  | bookmarkStart (id : Nat) (name : Str)
  | bookmarkEnd (id : Nat)
  | commentStart (id : Nat) (c : Comment)
  | commentEnd (id : Nat)
  | sdt (s : Sdt)
  | toc (t : Toc)
  | section (s : Section)

/-- `Document`. documents/document.rs:11-15. -/
structure Document where
  children : List DocumentChild := []
  sectionProperty : SectionProperty := {}
  hasNumbering : Bool := false

/-- `Footnote`. elements/footnote.rs:10-13. -/
structure Footnote where
  id : Nat
  content : List Paragraph := []

end Docx
