import Verif.Model.BuildProps

/-!
# Writers of the content (`BuildXML` of `docx-core/src/documents/elements/*.rs`, `documents/*.rs`)

See `BuildProps` for the conventions. Text boxes, drawings without data and shapes panic
(drawing.rs:147-150, run.rs:393-395), as do `HYPERLINK` instructions (instr_text.rs:32,
delete_instr_text.rs:28).
-/

namespace Docx

open Docx.Spec (Tag)

/-! Field instructions. -/

/-- `" \\x &quot;t&quot;"`. elements/instr_toc.rs:175-176. -/
def quotedSwitch (switch : Str) (t : Str) : Str := switch ++ c!" &quot;" ++ t ++ c!"&quot;"

/-- `format!("{}-{}", range.0, range.1)`. elements/instr_toc.rs:204. -/
def rangeText (r : Nat × Nat) : Str := dec r.1 ++ c!"-" ++ dec r.2

/-- `Vec<String>::join(",")`. -/
def joinComma : List Str → Str
  | [] => []
  | [s] => s
  | s :: ss => s ++ c!"," ++ joinComma ss

/-- The text of a `TOC` instruction. elements/instr_toc.rs:163-265. -/
def InstrToC.text (i : InstrToC) : Str :=
  c!"TOC"
  ++ (match i.captionLabel with | some t => quotedSwitch c!" \\a" t | none => [])
  ++ (match i.entryBookmarkName with | some t => quotedSwitch c!" \\b" t | none => [])
  ++ (match i.captionLabelIncludingNumbers with | some t => quotedSwitch c!" \\c" t | none => [])
  ++ (match i.sequenceAndPageNumbersSeparator with | some t => quotedSwitch c!" \\d" t | none => [])
  ++ (match i.tcFieldIdentifier with
      | some (some t) => quotedSwitch c!" \\f" t
      | some none => c!" \\f"
      | none => [])
  ++ (match i.tcFieldLevelRange with | some r => quotedSwitch c!" \\l" (rangeText r) | none => [])
  ++ (match i.omitPageNumbersLevelRange with
      | some r => quotedSwitch c!" \\n" (rangeText r)
      | none => [])
  ++ (match i.headingStylesRange with | some r => quotedSwitch c!" \\o" (rangeText r) | none => [])
  ++ (match i.entryAndPageNumberSeparator with | some t => quotedSwitch c!" \\p" t | none => [])
  ++ (match i.seqFieldIdentifierForPrefix with | some t => quotedSwitch c!" \\s" t | none => [])
  ++ (if i.stylesWithLevels ≠ [] then
        quotedSwitch c!" \\t" (joinComma (i.stylesWithLevels.map fun s => s.1 ++ c!"," ++ dec s.2))
      else [])
  ++ (if i.hyperlink then c!" \\h" else [])
  ++ (if i.useAppliedParagraphLineLevel then c!" \\u" else [])
  ++ (if i.preserveTab then c!" \\w" else [])
  ++ (if i.preserveNewLine then c!" \\x" else [])
  ++ (if i.hideTabAndPageNumbersInWebview then c!" \\z" else [])

/-- The text of a `TC` instruction. elements/instr_tc.rs:44-68. -/
def InstrTC.instr (i : InstrTC) : Str :=
  c!"TC \"" ++ i.text ++ c!"\""
  ++ (match i.itemTypeIdentifier with | some t => c!" \\f " ++ t | none => [])
  ++ (match i.level with | some l => c!" \\l " ++ dec l | none => [])
  ++ (if i.omitsPageNumber then c!" \\n" else [])

/-- elements/instr_pageref.rs:35-47. -/
def InstrPAGEREF.tags (i : InstrPAGEREF) : List Tag :=
  [.txt c!"PAGEREF ", .txt i.pageRef]
  ++ (if i.relativePosition then [.txt c!" \\p"] else [])
  ++ (if i.hyperlink then [.txt c!" \\h"] else [])

/-- elements/instr_text.rs:19-38; instr_page.rs:17-24, instr_num_pages.rs:17-26. -/
def InstrText.build (i : InstrText) : B :=
  cat
    [ emit [.opn c!"w:instrText" []],
      (match i with
        | .toc t => emit [.txt t.text]
        | .tc t => emit [.txt t.instr]
        | .pageRef p => emit p.tags
        | .page => emit [.txt c!"PAGE"]
        | .numPages => emit [.txt c!"NUMPAGES"]
        | .hyperlink _ => panicB
        | .unsupported s => emit [.txt s]),
      emit [.cls] ]

/-- elements/delete_instr_text.rs:17-34. -/
def DeleteInstrText.build (i : DeleteInstrText) : B :=
  cat
    [ emit [.opn c!"w:delInstrText" []],
      (match i with
        | .toc t => emit [.txt t.text]
        | .tc t => emit [.txt t.instr]
        | .pageRef p => emit p.tags
        | .hyperlink _ => panicB
        | .unsupported s => emit [.txt s]),
      emit [.cls] ]

/-! Pictures. -/

/-- elements/pic.rs:216-248, xml_builder/pic.rs. The rotation is multiplied in `u32`, which a `u16`
number of degrees cannot overflow. -/
def Pic.tags (p : Pic) : List Tag :=
  [.opn c!"pic:pic" [(c!"xmlns:pic", c!"http://schemas.openxmlformats.org/drawingml/2006/picture")],
   .opn c!"pic:nvPicPr" []]
  ++ leaf c!"pic:cNvPr" [(c!"id", c!"0"), (c!"name", c!"")]
  ++ [.opn c!"pic:cNvPicPr" []]
  ++ leaf c!"a:picLocks" [(c!"noChangeAspect", c!"1"), (c!"noChangeArrowheads", c!"1")]
  ++ [.cls, .cls, .opn c!"pic:blipFill" []]
  ++ leaf c!"a:blip" [(c!"r:embed", p.id)]
  ++ leaf c!"a:srcRect"
  ++ [.opn c!"a:stretch" []]
  ++ leaf c!"a:fillRect"
  ++ [.cls, .cls, .opn c!"pic:spPr" [(c!"bwMode", c!"auto")],
      .opn c!"a:xfrm" [(c!"rot", dec (p.rot * 60 * 1000))]]
  ++ leaf c!"a:off" [(c!"x", c!"0"), (c!"y", c!"0")]
  ++ leaf c!"a:ext" [(c!"cx", dec p.size.1), (c!"cy", dec p.size.2)]
  ++ [.cls, .opn c!"a:prstGeom" [(c!"prst", c!"rect")]]
  ++ leaf c!"a:avLst"
  ++ [.cls, .cls, .cls]

/-- The content of `wp:positionH`/`wp:positionV`: an offset is cast to `u32`.
elements/drawing.rs:96-104,108-116, xml_builder/drawing.rs:47-48. -/
def DrawingPosition.tags : DrawingPosition → List Tag
  | .offset x => [.opn c!"wp:posOffset" [], .txt (dec (asU32 x)), .cls]
  | .align a => [.opn c!"wp:align" [], .txt a.toStr, .cls]

/-- `Drawing::build_to` of a picture. elements/drawing.rs:59-154, xml_builder/drawing.rs:7-50. The
source passes `simple_pos` in the `allowOverlap` position. -/
def drawingTags (p : Pic) : List Tag :=
  [.opn c!"w:drawing" []]
  ++ (match p.positionType with
      | .inline =>
        [.opn c!"wp:inline" [(c!"distT", decInt p.distT), (c!"distB", decInt p.distB),
          (c!"distL", decInt p.distL), (c!"distR", decInt p.distR)]]
      | .anchor =>
        [.opn c!"wp:anchor" [(c!"distT", decInt p.distT), (c!"distB", decInt p.distB),
          (c!"distL", decInt p.distL), (c!"distR", decInt p.distR), (c!"simplePos", c!"0"),
          (c!"allowOverlap", bitText p.simplePos), (c!"behindDoc", c!"0"), (c!"locked", c!"0"),
          (c!"layoutInCell", bitText p.layoutInCell), (c!"relativeHeight", dec p.relativeHeight)]]
        ++ leaf c!"wp:simplePos" [(c!"x", decInt p.simplePosX), (c!"y", decInt p.simplePosY)]
        ++ [.opn c!"wp:positionH" [(c!"relativeFrom", p.relativeFromH.toStr)]]
        ++ p.positionH.tags
        ++ [.cls, .opn c!"wp:positionV" [(c!"relativeFrom", p.relativeFromV.toStr)]]
        ++ p.positionV.tags
        ++ [.cls])
  ++ leaf c!"wp:extent" [(c!"cx", dec p.size.1), (c!"cy", dec p.size.2)]
  ++ leaf c!"wp:effectExtent" [(c!"b", c!"0"), (c!"l", c!"0"), (c!"r", c!"0"), (c!"t", c!"0")]
  ++ (if p.allowOverlap then leaf c!"wp:wrapNone"
      else if p.positionType = .anchor then leaf c!"wp:wrapSquare" [(c!"wrapText", c!"bothSides")]
      else [])
  ++ leaf c!"wp:docPr" [(c!"id", c!"1"), (c!"name", c!"Figure")]
  ++ [.opn c!"wp:cNvGraphicFramePr" []]
  ++ leaf c!"a:graphicFrameLocks"
      [(c!"xmlns:a", c!"http://schemas.openxmlformats.org/drawingml/2006/main"),
       (c!"noChangeAspect", c!"1")]
  ++ [.cls,
      .opn c!"a:graphic" [(c!"xmlns:a", c!"http://schemas.openxmlformats.org/drawingml/2006/main")],
      .opn c!"a:graphicData"
        [(c!"uri", c!"http://schemas.openxmlformats.org/drawingml/2006/picture")]]
  ++ p.tags
  ++ [.cls, .cls, .cls, .cls]

/-! Runs. -/

/-- `CommentRangeStart`: only the id, the comment itself goes to the comments part.
elements/comment_range_start.rs:35-44. -/
def commentStartTags (id : Nat) : List Tag := leaf c!"w:commentRangeStart" [(c!"w:id", dec id)]

/-- elements/comment_range_end.rs:18-34. -/
def commentEndTags (id : Nat) : List Tag :=
  [.opn c!"w:r" [], .opn c!"w:rPr" [], .cls, .cls]
  ++ leaf c!"w:commentRangeEnd" [(c!"w:id", dec id)]
  ++ [.opn c!"w:r" []] ++ leaf c!"w:commentReference" [(c!"w:id", dec id)] ++ [.cls]

/-- elements/run.rs:379-410; text.rs:32-41, delete_text.rs:31-40, br.rs:20-29, cr.rs:23-30,
sym.rs:23-32, fld_char.rs:31-43, footnote_reference.rs:38-47, tab.rs:38-47,
xml_builder/elements.rs:16-25,77-86,176,407-409,758-761. -/
def RunChild.build : RunChild → B
  | .text t => emit [.opn c!"w:t" [(c!"xml:space", c!"preserve")], .txt t, .cls]
  | .sym font char => emit (leaf c!"w:sym" [(c!"w:font", font), (c!"w:char", char)])
  | .deleteText t => emit [.opn c!"w:delText" [(c!"xml:space", c!"preserve")], .txt t, .cls]
  | .tab => emit (leaf c!"w:tab")
  | .ptab t => emit t.tags
  | .brk t => emit (leaf c!"w:br" [(c!"w:type", t.toStr)])
  | .carriageReturn => emit (leaf c!"w:cr")
  | .picture p => emit (drawingTags p)
  | .textBox _ => panicB
  | .emptyDrawing => panicB
  | .shape _ => panicB
  | .commentStart id _ => emit (commentStartTags id)
  | .commentEnd id => emit (commentEndTags id)
  | .fieldChar t dirty =>
    emit (leaf c!"w:fldChar" [(c!"w:fldCharType", t.toStr), (c!"w:dirty", boolText dirty)])
  | .instrText i => i.build
  | .deleteInstrText i => i.build
  | .instrTextString s =>
    emit [.opn c!"w:instrText" [(c!"xml:space", c!"preserve")], .txt (escape s), .cls]
  | .footnoteReference id _ _ => emit (leaf c!"w:footnoteReference" [(c!"w:id", dec id)])
  | .shading s => emit s.tags

/-- elements/run.rs:412-424. -/
def Run.build (r : Run) : B :=
  cat [emit [.opn c!"w:r" []], r.property.build, eachB RunChild.build r.children, emit [.cls]]

/-! Revisions. -/

/-- elements/delete.rs:108-112, move_from.rs:107-111. -/
def DeleteChild.build : DeleteChild → B
  | .run r => r.build
  | .commentStart id _ => emit (commentStartTags id)
  | .commentEnd id => emit (commentEndTags id)

/-- `Delete` (`w:del`) and `MoveFrom` (`w:moveFrom`). elements/delete.rs:100-116,
move_from.rs:99-115. -/
def Delete.build (name : Str) (d : Delete) : B :=
  withHistory fun id =>
    cat [emit [revisionOpen name id d.author d.date], eachB DeleteChild.build d.children, emit [.cls]]

/-- elements/insert.rs:18-30, move_to.rs:18-30. -/
def InsertChild.build : InsertChild → B
  | .run r => r.build
  | .delete d => d.build c!"w:del"
  | .commentStart id _ => emit (commentStartTags id)
  | .commentEnd id => emit (commentEndTags id)

/-- `Insert` (`w:ins`) and `MoveTo` (`w:moveTo`). elements/insert.rs:146-158, move_to.rs:139-151. -/
def Insert.build (name : Str) (i : Insert) : B :=
  withHistory fun id =>
    cat [emit [revisionOpen name id i.author i.date], eachB InsertChild.build i.children, emit [.cls]]

/-! Bookmarks and page number fields. -/

/-- elements/bookmark_start.rs:22-31, xml_builder/elements.rs:456. -/
def bookmarkStartTags (id : Nat) (name : Str) : List Tag :=
  leaf c!"w:bookmarkStart" [(c!"w:id", dec id), (c!"w:name", name)]

/-- elements/bookmark_end.rs:18-27. -/
def bookmarkEndTags (id : Nat) : List Tag := leaf c!"w:bookmarkEnd" [(c!"w:id", dec id)]

/-- The text `Run::add_text` stores: line feeds removed, then escaped. elements/run.rs:166-170,
text.rs:16-22 (escape.rs). -/
def textOf (s : Str) : Str := escape (s.filter (· ≠ '\n'))

/-- `PageNum` and `NumPages`. elements/page_num.rs:26-39, num_pages.rs:26-39. -/
def pageFieldRun (i : InstrText) : Run :=
  { children := [.fieldChar .begin false, .instrText i, .fieldChar .separate false,
      .text (textOf c!"1"), .fieldChar .end_ false] }

/-! Hyperlinks. -/

/-- The attributes of `w:hyperlink`. elements/hyperlink.rs:107-118, xml_builder/elements.rs:107-123. -/
def hyperlinkAttrs (link : HyperlinkData) (history : Option Nat) : List (Str × Str) :=
  (match link with
    | .external rid _ => [(c!"r:id", rid)]
    | .anchor a => [(c!"w:anchor", a)])
  ++ [(c!"w:history", dec (history.getD 1))]

/-! Paragraphs. -/

/-- A paragraph with given children. elements/paragraph.rs:578-590, xml_builder/elements.rs:141. -/
def paragraphB (id : Str) (property : ParagraphProperty) (children : B) : B :=
  cat [emit [.opn c!"w:p" [(c!"w14:paraId", id)]], property.build, children, emit [.cls]]

/-- `Paragraph::new()` with given children. elements/paragraph.rs:19-28,158-161. -/
def newParagraphB (property : ParagraphProperty) (children : B) : B :=
  withParaId fun id => paragraphB id property children

/-- `ParagraphProperty::new().style(s)`: the style id is escaped. elements/paragraph_property.rs:73-76,
paragraph_style.rs:26-36. -/
def styleProperty (s : Str) (tabs : List Tab := []) : ParagraphProperty :=
  { base := { style := some (escape s), tabs := tabs } }

/-! Entries of a table of contents. -/

/-- The field that points at an entry's page. elements/table_of_contents_item.rs:85-92. -/
def pageRefRun (t : TocItem) : Run :=
  { children := [.fieldChar .begin false,
      .instrText (.pageRef { pageRef := t.tocKey, hyperlink := true }),
      .fieldChar .separate false, .text (textOf (t.pageRef.getD c!"1")), .fieldChar .end_ false] }

/-- The entry's text, a tab and the page reference. elements/table_of_contents_item.rs:84-105. -/
def tocItemRuns (t : TocItem) : B :=
  let runs : B := cat [Run.build { children := [.text (textOf t.text)] },
    Run.build { children := [.tab] }, (pageRefRun t).build]
  if t.instr.hyperlink then
    cat [emit [.opn c!"w:hyperlink" (hyperlinkAttrs (.anchor t.tocKey) none)], runs, emit [.cls]]
  else runs

/-- The `Right` tab with dot leader at 80000. elements/table_of_contents_item.rs:76-82. -/
def tocTab : Tab := { val := some .right, leader := some .dot, pos := some 80000 }

/-- The paragraph of an entry; the first one opens the `TOC` field.
elements/table_of_contents_item.rs:63-107. -/
def tocItemB (first : Bool) (t : TocItem) : B :=
  newParagraphB (styleProperty (c!"ToC" ++ dec t.level) [tocTab])
    (cat
      [ ifB first (Run.build { children := [.fieldChar .begin t.dirty, .instrText (.toc t.instr),
          .fieldChar .separate false] }),
        tocItemRuns t ])

/-- The paragraph with the end of the field, written after the last entry.
elements/table_of_contents_item.rs:110-114. -/
def tocEndB (t : TocItem) : B :=
  newParagraphB (styleProperty (c!"ToC" ++ dec t.level))
    (Run.build { children := [.fieldChar .end_ false] })

/-- The loop over the entries. elements/table_of_contents_item.rs:63-115. -/
def tocItemsB : Bool → List TocItem → B
  | _, [] => emit []
  | first, [t] => cat [tocItemB first t, tocEndB t]
  | first, t :: ts => cat [tocItemB first t, tocItemsB false ts]

/-- `Vec<TableOfContentsItem>::build_to`. elements/table_of_contents_item.rs:52-119. -/
def tocEntriesB (items : List TocItem) : B :=
  cat [emit [.opn c!"w:sdt" [], .opn c!"w:sdtPr" [], .cls, .opn c!"w:sdtContent" []],
    tocItemsB true items, emit [.cls, .cls]]

/-- The entries with the table's own settings. elements/table_of_contents.rs:263-275. -/
def tocPreparedItems (instr : InstrToC) (dirty : Bool) (placeholder : Option Str)
    (items : List TocItem) : List TocItem :=
  items.map fun t =>
    { t with instr := instr, dirty := dirty, pageRef := t.pageRef.or placeholder }

/-- The children of the paragraph that opens the `TOC` field. The author of a deleted table is
escaped a second time (`Delete::author`). elements/table_of_contents.rs:197-213, delete.rs:87-90. -/
def tocStartChildren (instr : InstrToC) (delete : Option Mark) : B :=
  match delete with
  | some m => Delete.build c!"w:del"
      { author := escape m.author, date := m.date,
        children := [.run { children := [.fieldChar .begin true, .deleteInstrText (.toc instr),
          .fieldChar .separate false] }] }
  | none => Run.build { children := [.fieldChar .begin true, .instrText (.toc instr),
      .fieldChar .separate false] }

/-- `Run::new().add_field_char(FieldCharType::End, false)`. elements/table_of_contents.rs:221,235. -/
def fieldEndRun : Run := { children := [.fieldChar .end_ false] }

/-- The empty line written before a leading table. elements/table_of_contents.rs:247-249,308. -/
def emptyLineB : B := newParagraphB {} (Run.build { children := [.text (textOf [])] })

/-- Is the element the first of the list after the field? -/
inductive TocPosition where
  | firstMerging | first | later

/-! The recursive content. -/

mutual
/-- elements/paragraph.rs:47-68. -/
def ParagraphChild.build : ParagraphChild → B
  | .run r => r.build
  | .insert i => i.build c!"w:ins"
  | .delete d => d.build c!"w:del"
  | .moveFrom d => d.build c!"w:moveFrom"
  | .moveTo i => i.build c!"w:moveTo"
  | .bookmarkStart id name => emit (bookmarkStartTags id name)
  | .hyperlink h => h.build
  | .bookmarkEnd id => emit (bookmarkEndTags id)
  | .commentStart id _ => emit (commentStartTags id)
  | .commentEnd id => emit (commentEndTags id)
  | .sdt s => s.build
  | .pageNum _ => (pageFieldRun .page).build
  | .numPages _ => (pageFieldRun .numPages).build
/-- `add_children` of a paragraph, a hyperlink. xml_builder/mod.rs:130-135. -/
def buildParagraphChildren : List ParagraphChild → B
  | [] => emit []
  | c :: cs => c.build.then (buildParagraphChildren cs)
/-- elements/hyperlink.rs:101-123. -/
def Hyperlink.build : Hyperlink → B
  | ⟨link, history, children⟩ =>
    cat [emit [.opn c!"w:hyperlink" (hyperlinkAttrs link history)], buildParagraphChildren children,
      emit [.cls]]
/-- elements/structured_data_tag.rs:156-170. -/
def Sdt.build : Sdt → B
  | ⟨children, property, _⟩ =>
    cat [emit [.opn c!"w:sdt" []], property.build, emit [.opn c!"w:sdtContent" []],
      buildSdtChildren children, emit [.cls, .cls]]
/-- `add_children` of a structured data tag. xml_builder/mod.rs:130-135. -/
def buildSdtChildren : List SdtChild → B
  | [] => emit []
  | c :: cs => c.build.then (buildSdtChildren cs)
/-- elements/structured_data_tag.rs:40-56. -/
def SdtChild.build : SdtChild → B
  | .run r => r.build
  | .paragraph p => p.build
  | .table t => t.build
  | .bookmarkStart id name => emit (bookmarkStartTags id name)
  | .bookmarkEnd id => emit (bookmarkEndTags id)
  | .commentStart id _ => emit (commentStartTags id)
  | .commentEnd id => emit (commentEndTags id)
  | .sdt s => s.build
/-- elements/paragraph.rs:578-590. -/
def Paragraph.build : Paragraph → B
  | ⟨id, children, property, _⟩ => paragraphB id property (buildParagraphChildren children)
/-- elements/table.rs:128-142. -/
def Table.build : Table → B
  | ⟨rows, grid, _, property⟩ =>
    cat [emit [.opn c!"w:tbl" []], emit property.tags, emit (gridTags grid), buildRows rows,
      emit [.cls]]
/-- `add_children` of a table. xml_builder/mod.rs:130-135. -/
def buildRows : List Row → B
  | [] => emit []
  | r :: rs => r.build.then (buildRows rs)
/-- elements/table_row.rs:91-103. -/
def Row.build : Row → B
  | ⟨cells, _, property⟩ =>
    cat [emit [.opn c!"w:tr" []], property.build, buildCells cells, emit [.cls]]
/-- `add_children` of a row. xml_builder/mod.rs:130-135. -/
def buildCells : List Cell → B
  | [] => emit []
  | c :: cs => c.build.then (buildCells cs)
/-- elements/table_cell.rs:156-181: a cell without content, or whose only content is a table, gets
an empty paragraph. -/
def Cell.build : Cell → B
  | ⟨children, property, _⟩ =>
    cat [emit [.opn c!"w:tc" []], emit property.tags,
      buildCellContents (decide (children.length = 1)) children,
      ifB children.isEmpty (newParagraphB {} (emit [])), emit [.cls]]
/-- The `apply_each` of elements/table_cell.rs:164-175; `only` is `self.children.len() == 1`. -/
def buildCellContents (only : Bool) : List CellContent → B
  | [] => emit []
  | c :: cs => (c.build only).then (buildCellContents only cs)
/-- elements/table_cell.rs:165-174. -/
def CellContent.build (only : Bool) : CellContent → B
  | .paragraph p => p.build
  | .table t => t.build.then (ifB only (newParagraphB {} (emit [])))
  | .sdt s => s.build
  | .toc t => t.build
/-- elements/table_of_contents.rs:166-321. The second paragraph takes an id even when it is not
written (line 221). -/
def Toc.build : Toc → B
  | ⟨instr, items, _, dirty, withoutSdt, alias, placeholder, before, after, delete, property⟩ =>
    let start : B := ifB (!withoutSdt)
      (cat [emit [.opn c!"w:sdt" []], SdtProperty.build { alias := alias },
        emit [.opn c!"w:sdtContent" []]])
    let finish : B := ifB (!withoutSdt) (emit [.cls, .cls])
    match items with
    | [] =>
      cat
        [ start,
          buildBlocks before,
          newParagraphB (property.getD {}) (tocStartChildren instr delete),
          (withParaId fun id =>
            cat
              [ ifB after.isEmpty (paragraphB id {} fieldEndRun.build),
                buildAfter .firstMerging after ]),
          finish ]
    | _ :: _ =>
      cat
        [ start,
          buildBlocks before,
          tocEntriesB (tocPreparedItems instr dirty placeholder items),
          buildAfter .first after,
          finish ]
/-- The loop over the contents before the field. elements/table_of_contents.rs:186-195,286-295. -/
def buildBlocks : List Block → B
  | [] => emit []
  | b :: bs => b.build.then (buildBlocks bs)
/-- elements/comment.rs:96-106, table_of_contents.rs:187-194. -/
def Block.build : Block → B
  | .paragraph p => p.build
  | .table t => t.build
/-- The loop over the contents after the field. elements/table_of_contents.rs:226-254 (`firstMerging`:
the end of the field goes into the first paragraph) and 299-313 (`first`). -/
def buildAfter (pos : TocPosition) : List Block → B
  | [] => emit []
  | b :: bs => (b.buildAfter pos).then (buildAfter .later bs)
/-- elements/table_of_contents.rs:227-253,300-312. -/
def Block.buildAfter (pos : TocPosition) : Block → B
  | .paragraph ⟨id, children, property, _⟩ =>
    paragraphB id property
      (cat [(match pos with | .firstMerging => fieldEndRun.build | _ => emit []),
        buildParagraphChildren children])
  | .table t =>
    cat [(match pos with | .later => emit [] | _ => emptyLineB), t.build]
end

/-! Parts. -/

/-- The attributes of `w:document`. xml_builder/document.rs:9-52. -/
def documentAttrs : List (Str × Str) :=
  [(c!"xmlns:o", c!"urn:schemas-microsoft-com:office:office"),
   (c!"xmlns:r", c!"http://schemas.openxmlformats.org/officeDocument/2006/relationships"),
   (c!"xmlns:v", c!"urn:schemas-microsoft-com:vml"),
   (c!"xmlns:w", c!"http://schemas.openxmlformats.org/wordprocessingml/2006/main"),
   (c!"xmlns:w10", c!"urn:schemas-microsoft-com:office:word"),
   (c!"xmlns:wp", c!"http://schemas.openxmlformats.org/drawingml/2006/wordprocessingDrawing"),
   (c!"xmlns:wps", c!"http://schemas.microsoft.com/office/word/2010/wordprocessingShape"),
   (c!"xmlns:wpg", c!"http://schemas.microsoft.com/office/word/2010/wordprocessingGroup"),
   (c!"xmlns:mc", c!"http://schemas.openxmlformats.org/markup-compatibility/2006"),
   (c!"xmlns:wp14", c!"http://schemas.microsoft.com/office/word/2010/wordprocessingDrawing"),
   (c!"xmlns:w14", c!"http://schemas.microsoft.com/office/word/2010/wordml"),
   (c!"xmlns:w15", c!"http://schemas.microsoft.com/office/word/2012/wordml"),
   (c!"mc:Ignorable", c!"w14 wp14")]

/-- The attributes of `w:hdr`. xml_builder/header.rs:8-48 (footer.rs:8-48 has the same). -/
def headerAttrs : List (Str × Str) :=
  [(c!"xmlns:r", c!"http://schemas.openxmlformats.org/officeDocument/2006/relationships"),
   (c!"xmlns:o", c!"urn:schemas-microsoft-com:office:office"),
   (c!"xmlns:v", c!"urn:schemas-microsoft-com:vml"),
   (c!"xmlns:w", c!"http://schemas.openxmlformats.org/wordprocessingml/2006/main"),
   (c!"xmlns:w10", c!"urn:schemas-microsoft-com:office:word"),
   (c!"xmlns:wp", c!"http://schemas.openxmlformats.org/drawingml/2006/wordprocessingDrawing"),
   (c!"xmlns:wps", c!"http://schemas.microsoft.com/office/word/2010/wordprocessingShape"),
   (c!"xmlns:wpg", c!"http://schemas.microsoft.com/office/word/2010/wordprocessingGroup"),
   (c!"xmlns:mc", c!"http://schemas.openxmlformats.org/markup-compatibility/2006"),
   (c!"xmlns:wp14", c!"http://schemas.microsoft.com/office/word/2010/wordprocessingDrawing"),
   (c!"xmlns:w14", c!"http://schemas.microsoft.com/office/word/2010/wordml"),
   (c!"mc:Ignorable", c!"w14 wp14")]

/-- The attributes of `w:comments`. xml_builder/comments.rs:7-47. -/
def commentsAttrs : List (Str × Str) :=
  [(c!"xmlns:o", c!"urn:schemas-microsoft-com:office:office"),
   (c!"xmlns:r", c!"http://schemas.openxmlformats.org/officeDocument/2006/relationships"),
   (c!"xmlns:v", c!"urn:schemas-microsoft-com:vml"),
   (c!"xmlns:w", c!"http://schemas.openxmlformats.org/wordprocessingml/2006/main"),
   (c!"xmlns:w10", c!"urn:schemas-microsoft-com:office:word"),
   (c!"xmlns:wp", c!"http://schemas.openxmlformats.org/drawingml/2006/wordprocessingDrawing"),
   (c!"xmlns:wps", c!"http://schemas.microsoft.com/office/word/2010/wordprocessingShape"),
   (c!"xmlns:wpg", c!"http://schemas.microsoft.com/office/word/2010/wordprocessingGroup"),
   (c!"xmlns:mc", c!"http://schemas.openxmlformats.org/markup-compatibility/2006"),
   (c!"xmlns:wp14", c!"http://schemas.microsoft.com/office/word/2010/wordprocessingDrawing"),
   (c!"xmlns:w14", c!"http://schemas.microsoft.com/office/word/2010/wordml"),
   (c!"mc:Ignorable", c!"w14 wp14")]

/-- The attributes of `w:footnotes`. xml_builder/footnotes.rs:8-143. -/
def footnotesAttrs : List (Str × Str) :=
  [(c!"xmlns:wpc", c!"http://schemas.microsoft.com/office/word/2010/wordprocessingCanvas"),
   (c!"xmlns:cx", c!"http://schemas.microsoft.com/office/drawing/2014/chartex"),
   (c!"xmlns:cx1", c!"http://schemas.microsoft.com/office/drawing/2015/9/8/chartex"),
   (c!"xmlns:cx2", c!"http://schemas.microsoft.com/office/drawing/2015/10/21/chartex"),
   (c!"xmlns:cx3", c!"http://schemas.microsoft.com/office/drawing/2016/5/9/chartex"),
   (c!"xmlns:cx4", c!"http://schemas.microsoft.com/office/drawing/2016/5/10/chartex"),
   (c!"xmlns:cx5", c!"http://schemas.microsoft.com/office/drawing/2016/5/11/chartex"),
   (c!"xmlns:cx6", c!"http://schemas.microsoft.com/office/drawing/2016/5/12/chartex"),
   (c!"xmlns:cx7", c!"http://schemas.microsoft.com/office/drawing/2016/5/13/chartex"),
   (c!"xmlns:cx8", c!"http://schemas.microsoft.com/office/drawing/2016/5/14/chartex"),
   (c!"xmlns:mc", c!"http://schemas.openxmlformats.org/markup-compatibility/2006"),
   (c!"xmlns:aink", c!"http://schemas.microsoft.com/office/drawing/2016/ink"),
   (c!"xmlns:am3d", c!"http://schemas.microsoft.com/office/drawing/2017/model3d"),
   (c!"xmlns:o", c!"urn:schemas-microsoft-com:office:office"),
   (c!"xmlns:oel", c!"http://schemas.microsoft.com/office/2019/extlst"),
   (c!"xmlns:r", c!"http://schemas.openxmlformats.org/officeDocument/2006/relationships"),
   (c!"xmlns:m", c!"http://schemas.openxmlformats.org/officeDocument/2006/math"),
   (c!"xmlns:v", c!"urn:schemas-microsoft-com:vml"),
   (c!"xmlns:wp14", c!"http://schemas.microsoft.com/office/word/2010/wordprocessingDrawing"),
   (c!"xmlns:wp", c!"http://schemas.openxmlformats.org/drawingml/2006/wordprocessingDrawing"),
   (c!"xmlns:w10", c!"urn:schemas-microsoft-com:office:word"),
   (c!"xmlns:w", c!"http://schemas.openxmlformats.org/wordprocessingml/2006/main"),
   (c!"xmlns:w14", c!"http://schemas.microsoft.com/office/word/2010/wordml"),
   (c!"xmlns:w15", c!"http://schemas.microsoft.com/office/word/2012/wordml"),
   (c!"xmlns:w16cex", c!"http://schemas.microsoft.com/office/word/2018/wordml/cex"),
   (c!"xmlns:w16cid", c!"http://schemas.microsoft.com/office/word/2016/wordml/cid"),
   (c!"xmlns:w16", c!"http://schemas.microsoft.com/office/word/2018/wordml"),
   (c!"xmlns:w16du", c!"http://schemas.microsoft.com/office/word/2023/wordml/word16du"),
   (c!"xmlns:w16sdtdh", c!"http://schemas.microsoft.com/office/word/2020/wordml/sdtdatahash"),
   (c!"xmlns:w16se", c!"http://schemas.microsoft.com/office/word/2015/wordml/symex"),
   (c!"xmlns:wpg", c!"http://schemas.microsoft.com/office/word/2010/wordprocessingGroup"),
   (c!"xmlns:wpi", c!"http://schemas.microsoft.com/office/word/2010/wordprocessingInk"),
   (c!"xmlns:wne", c!"http://schemas.microsoft.com/office/word/2006/wordml"),
   (c!"xmlns:wps", c!"http://schemas.microsoft.com/office/word/2010/wordprocessingShape"),
   (c!"mc:Ignorable", c!"w14 w15 w16se w16cid w16 w16cex w16sdtdh w16du wp14")]

/-- The attributes of `w15:commentsEx`. xml_builder/comments_extended.rs:8-123. -/
def commentsExtendedAttrs : List (Str × Str) :=
  [(c!"xmlns:wpc", c!"http://schemas.microsoft.com/office/word/2010/wordprocessingCanvas"),
   (c!"xmlns:cx", c!"http://schemas.microsoft.com/office/drawing/2014/chartex"),
   (c!"xmlns:cx1", c!"http://schemas.microsoft.com/office/drawing/2015/9/8/chartex"),
   (c!"xmlns:cx2", c!"http://schemas.microsoft.com/office/drawing/2015/10/21/chartex"),
   (c!"xmlns:cx3", c!"http://schemas.microsoft.com/office/drawing/2016/5/9/chartex"),
   (c!"xmlns:cx4", c!"http://schemas.microsoft.com/office/drawing/2016/5/10/chartex"),
   (c!"xmlns:cx5", c!"http://schemas.microsoft.com/office/drawing/2016/5/11/chartex"),
   (c!"xmlns:cx6", c!"http://schemas.microsoft.com/office/drawing/2016/5/12/chartex"),
   (c!"xmlns:cx7", c!"http://schemas.microsoft.com/office/drawing/2016/5/13/chartex"),
   (c!"xmlns:cx8", c!"http://schemas.microsoft.com/office/drawing/2016/5/14/chartex"),
   (c!"xmlns:mc", c!"http://schemas.openxmlformats.org/markup-compatibility/2006"),
   (c!"xmlns:aink", c!"http://schemas.microsoft.com/office/drawing/2016/ink"),
   (c!"xmlns:am3d", c!"http://schemas.microsoft.com/office/drawing/2017/model3d"),
   (c!"xmlns:o", c!"urn:schemas-microsoft-com:office:office"),
   (c!"xmlns:r", c!"http://schemas.openxmlformats.org/officeDocument/2006/relationships"),
   (c!"xmlns:m", c!"http://schemas.openxmlformats.org/officeDocument/2006/math"),
   (c!"xmlns:v", c!"urn:schemas-microsoft-com:vml"),
   (c!"xmlns:wp14", c!"http://schemas.microsoft.com/office/word/2010/wordprocessingDrawing"),
   (c!"xmlns:wp", c!"http://schemas.openxmlformats.org/drawingml/2006/wordprocessingDrawing"),
   (c!"xmlns:w10", c!"urn:schemas-microsoft-com:office:word"),
   (c!"xmlns:w", c!"http://schemas.openxmlformats.org/wordprocessingml/2006/main"),
   (c!"xmlns:w14", c!"http://schemas.microsoft.com/office/word/2010/wordml"),
   (c!"xmlns:w15", c!"http://schemas.microsoft.com/office/word/2012/wordml"),
   (c!"xmlns:w16cex", c!"http://schemas.microsoft.com/office/word/2018/wordml/cex"),
   (c!"xmlns:w16cid", c!"http://schemas.microsoft.com/office/word/2016/wordml/cid"),
   (c!"xmlns:w16", c!"http://schemas.microsoft.com/office/word/2018/wordml"),
   (c!"xmlns:w16se", c!"http://schemas.microsoft.com/office/word/2015/wordml/symex"),
   (c!"xmlns:wpg", c!"http://schemas.microsoft.com/office/word/2010/wordprocessingGroup"),
   (c!"xmlns:wpi", c!"http://schemas.microsoft.com/office/word/2010/wordprocessingInk"),
   (c!"xmlns:wne", c!"http://schemas.microsoft.com/office/word/2006/wordml"),
   (c!"xmlns:wps", c!"http://schemas.microsoft.com/office/word/2010")]

/-! The XML declaration is the writer's start-of-document event and no tag; see `Model/Parts.lean`. -/

/-- documents/header.rs:91-95, footer.rs:91-95. -/
def HeaderChild.build : HeaderChild → B
  | .paragraph p => p.build
  | .table t => t.build
  | .sdt s => s.build

/-- The root of a header or footer: `w:hdr` or `w:ftr`. documents/header.rs:83-99,
footer.rs:83-99. -/
def Header.build (name : Str) (h : Header) : B :=
  cat [emit [.opn name headerAttrs], eachB HeaderChild.build h.children, emit [.cls]]

/-- elements/section.rs:82-98. -/
def SectionChild.build : SectionChild → B
  | .paragraph p => p.build
  | .table t => t.build
  | .bookmarkStart id name => emit (bookmarkStartTags id name)
  | .bookmarkEnd id => emit (bookmarkEndTags id)
  | .commentStart id _ => emit (commentStartTags id)
  | .commentEnd id => emit (commentEndTags id)
  | .sdt s => s.build
  | .toc t => t.build

/-- elements/section.rs:230-245: the id of the last paragraph is drawn before the children are
written. -/
def Section.build (s : Section) : B :=
  withParaId fun id =>
    cat
      [ eachB SectionChild.build s.children,
        emit [.opn c!"w:p" [(c!"w14:paraId", id)], .opn c!"w:pPr" []],
        emit s.property.base.tags,
        emit [.cls, .cls] ]

/-- documents/document.rs:312-329. -/
def DocumentChild.build : DocumentChild → B
  | .paragraph p => p.build
  | .table t => t.build
  | .bookmarkStart id name => emit (bookmarkStartTags id name)
  | .bookmarkEnd id => emit (bookmarkEndTags id)
  | .commentStart id _ => emit (commentStartTags id)
  | .commentEnd id => emit (commentEndTags id)
  | .sdt s => s.build
  | .toc t => t.build
  | .«section» s => s.build

/-- documents/document.rs:331-346. -/
def Document.build (d : Document) : B :=
  cat
    [ emit [.opn c!"w:document" documentAttrs, .opn c!"w:body" []],
      eachB DocumentChild.build d.children,
      emit d.sectionProperty.base.tags,
      emit [.cls, .cls] ]

/-- elements/comment.rs:108-119, xml_builder/elements.rs:462-469. -/
def Comment.build (c : Comment) : B :=
  cat
    [ emit [.opn c!"w:comment" [(c!"w:id", dec c.id), (c!"w:author", c.author), (c!"w:date", c.date),
        (c!"w:initials", [])]],
      buildBlocks c.children,
      emit [.cls] ]

/-- documents/comments.rs:32-44. -/
def commentsB (cs : List Comment) : B :=
  cat [emit [.opn c!"w:comments" commentsAttrs], eachB Comment.build cs, emit [.cls]]

/-- elements/footnote.rs:50-68: a footnote without content gets an empty paragraph. -/
def Footnote.build (f : Footnote) : B :=
  cat
    [ emit [.opn c!"w:footnote" [(c!"w:id", dec f.id)]],
      eachB Paragraph.build f.content,
      ifB f.content.isEmpty (newParagraphB {} (emit [])),
      emit [.cls] ]

/-- documents/footnotes.rs:24-36. -/
def footnotesB (fs : List Footnote) : B :=
  cat [emit [.opn c!"w:footnotes" footnotesAttrs], eachB Footnote.build fs, emit [.cls]]

end Docx
