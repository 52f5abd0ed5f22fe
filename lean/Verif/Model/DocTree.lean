import Verif.Model.Types

/-!
# The shared document traversal (`docx-core/src/documents/document_tree.rs`)

`DocumentTreeVisitor` has four hooks. The two visitors in the code base use `visit_picture` and
`visit_footnote_reference` only, so the other two (empty default bodies) are left out.
A hook that updates `&mut` data becomes a function returning the new data and the new visitor state.
The traversal does not enter comments, text boxes or the text of footnotes.
-/

namespace Docx

/-- `DocumentTreeVisitor`. documents/document_tree.rs:20-32. `visit_footnote_reference` is given the
footnote that `From<&FootnoteReference>` builds (elements/footnote.rs:40-47). -/
structure Visitor (σ : Type) where
  picture : Pic → σ → Pic × σ
  footnote : Footnote → σ → σ

/-- A stateful update of a value. -/
abbrev Visit (σ α : Type) := σ → α × σ

mutual

/-- `visit_run`. documents/document_tree.rs:210-237. -/
def visitRun {σ : Type} (v : Visitor σ) : Run → Visit σ Run
  | ⟨pr, cs⟩, s => let r := visitRunChildren v cs s; (⟨pr, r.1⟩, r.2)
/-- The match on `RunChild` in `visit_run`. documents/document_tree.rs:213-235. -/
def visitRunChild {σ : Type} (v : Visitor σ) : RunChild → Visit σ RunChild
  | .commentStart i c, s => (.commentStart i c, s)
  | .text t, s => (.text t, s)
  | .sym f c, s => (.sym f c, s)
  | .deleteText t, s => (.deleteText t, s)
  | .tab, s => (.tab, s)
  | .ptab t, s => (.ptab t, s)
  | .brk t, s => (.brk t, s)
  | .carriageReturn, s => (.carriageReturn, s)
  | .picture p, s => let r := v.picture p s; (.picture r.1, r.2)
  | .textBox bs, s => (.textBox bs, s)
  | .emptyDrawing, s => (.emptyDrawing, s)
  | .shape x, s => (.shape x, s)
  | .commentEnd i, s => (.commentEnd i, s)
  | .fieldChar t d, s => (.fieldChar t d, s)
  | .instrText i, s => (.instrText i, s)
  | .deleteInstrText i, s => (.deleteInstrText i, s)
  | .instrTextString x, s => (.instrTextString x, s)
  | .footnoteReference i x ps, s => (.footnoteReference i x ps, v.footnote ⟨i, ps⟩ s)
  | .shading x, s => (.shading x, s)
/-- The loop of `visit_run`. documents/document_tree.rs:212-236. -/
def visitRunChildren {σ : Type} (v : Visitor σ) : List RunChild → Visit σ (List RunChild)
  | [], s => ([], s)
  | c :: cs, s =>
    let a := visitRunChild v c s
    let b := visitRunChildren v cs a.2
    (a.1 :: b.1, b.2)
/-- The match on `TocContent` in `visit_table_of_contents`. documents/document_tree.rs:118-121. -/
def visitBlock {σ : Type} (v : Visitor σ) : Block → Visit σ Block
  | .paragraph p, s => let r := visitParagraph v p s; (.paragraph r.1, r.2)
  | .table t, s => let r := visitTable v t s; (.table r.1, r.2)
/-- The loop of `visit_table_of_contents`. documents/document_tree.rs:113-122. -/
def visitBlocks {σ : Type} (v : Visitor σ) : List Block → Visit σ (List Block)
  | [], s => ([], s)
  | c :: cs, s =>
    let a := visitBlock v c s
    let b := visitBlocks v cs a.2
    (a.1 :: b.1, b.2)
/-- `visit_delete`, `visit_move_from`. documents/document_tree.rs:184-190,192-198. -/
def visitDelete {σ : Type} (v : Visitor σ) : Delete → Visit σ Delete
  | ⟨a, d, cs⟩, s => let r := visitDeleteChildren v cs s; (⟨a, d, r.1⟩, r.2)
/-- `if let DeleteChild::Run(run)`. documents/document_tree.rs:186-188. -/
def visitDeleteChild {σ : Type} (v : Visitor σ) : DeleteChild → Visit σ DeleteChild
  | .run x, s => let r := visitRun v x s; (.run r.1, r.2)
  | .commentStart i c, s => (.commentStart i c, s)
  | .commentEnd i, s => (.commentEnd i, s)
/-- The loop of `visit_delete`. documents/document_tree.rs:185-189. -/
def visitDeleteChildren {σ : Type} (v : Visitor σ) : List DeleteChild → Visit σ (List DeleteChild)
  | [], s => ([], s)
  | c :: cs, s =>
    let a := visitDeleteChild v c s
    let b := visitDeleteChildren v cs a.2
    (a.1 :: b.1, b.2)
/-- `visit_insert`, `visit_move_to`. documents/document_tree.rs:174-182,200-208. -/
def visitInsert {σ : Type} (v : Visitor σ) : Insert → Visit σ Insert
  | ⟨a, d, cs⟩, s => let r := visitInsertChildren v cs s; (⟨a, d, r.1⟩, r.2)
/-- The match on `InsertChild`. documents/document_tree.rs:176-180,202-206. -/
def visitInsertChild {σ : Type} (v : Visitor σ) : InsertChild → Visit σ InsertChild
  | .run x, s => let r := visitRun v x s; (.run r.1, r.2)
  | .delete d, s => let r := visitDelete v d s; (.delete r.1, r.2)
  | .commentStart i c, s => (.commentStart i c, s)
  | .commentEnd i, s => (.commentEnd i, s)
/-- The loop of `visit_insert`. documents/document_tree.rs:175-181. -/
def visitInsertChildren {σ : Type} (v : Visitor σ) : List InsertChild → Visit σ (List InsertChild)
  | [], s => ([], s)
  | c :: cs, s =>
    let a := visitInsertChild v c s
    let b := visitInsertChildren v cs a.2
    (a.1 :: b.1, b.2)
/-- `visit_hyperlink`. documents/document_tree.rs:170-172. -/
def visitHyperlink {σ : Type} (v : Visitor σ) : Hyperlink → Visit σ Hyperlink
  | ⟨l, h, cs⟩, s => let r := visitParagraphChildren v cs s; (⟨l, h, r.1⟩, r.2)
/-- The match on `ParagraphChild`. documents/document_tree.rs:152-166. -/
def visitParagraphChild {σ : Type} (v : Visitor σ) : ParagraphChild → Visit σ ParagraphChild
  | .run x, s => let r := visitRun v x s; (.run r.1, r.2)
  | .commentStart i c, s => (.commentStart i c, s)
  | .insert x, s => let r := visitInsert v x s; (.insert r.1, r.2)
  | .delete x, s => let r := visitDelete v x s; (.delete r.1, r.2)
  | .moveFrom x, s => let r := visitDelete v x s; (.moveFrom r.1, r.2)
  | .moveTo x, s => let r := visitInsert v x s; (.moveTo r.1, r.2)
  | .hyperlink x, s => let r := visitHyperlink v x s; (.hyperlink r.1, r.2)
  | .sdt x, s => let r := visitSdt v x s; (.sdt r.1, r.2)
  | .bookmarkStart i n, s => (.bookmarkStart i n, s)
  | .bookmarkEnd i, s => (.bookmarkEnd i, s)
  | .commentEnd i, s => (.commentEnd i, s)
  | .pageNum i, s => (.pageNum i, s)
  | .numPages i, s => (.numPages i, s)
/-- `visit_paragraph_children`. documents/document_tree.rs:147-168. -/
def visitParagraphChildren {σ : Type} (v : Visitor σ) : List ParagraphChild → Visit σ (List ParagraphChild)
  | [], s => ([], s)
  | c :: cs, s =>
    let a := visitParagraphChild v c s
    let b := visitParagraphChildren v cs a.2
    (a.1 :: b.1, b.2)
/-- `visit_paragraph`. documents/document_tree.rs:142-145. -/
def visitParagraph {σ : Type} (v : Visitor σ) : Paragraph → Visit σ Paragraph
  | ⟨i, cs, pr, n⟩, s =>
    let r := visitParagraphChildren v cs s
    (⟨i, r.1, pr, n⟩, r.2)
/-- `visit_structured_data_tag`. documents/document_tree.rs:125-140. -/
def visitSdt {σ : Type} (v : Visitor σ) : Sdt → Visit σ Sdt
  | ⟨cs, pr, n⟩, s => let r := visitSdtChildren v cs s; (⟨r.1, pr, n⟩, r.2)
/-- The match on `StructuredDataTagChild`. documents/document_tree.rs:127-138. -/
def visitSdtChild {σ : Type} (v : Visitor σ) : SdtChild → Visit σ SdtChild
  | .run x, s => let r := visitRun v x s; (.run r.1, r.2)
  | .paragraph x, s => let r := visitParagraph v x s; (.paragraph r.1, r.2)
  | .table x, s => let r := visitTable v x s; (.table r.1, r.2)
  | .commentStart i c, s => (.commentStart i c, s)
  | .sdt x, s => let r := visitSdt v x s; (.sdt r.1, r.2)
  | .bookmarkStart i n, s => (.bookmarkStart i n, s)
  | .bookmarkEnd i, s => (.bookmarkEnd i, s)
  | .commentEnd i, s => (.commentEnd i, s)
/-- The loop of `visit_structured_data_tag`. documents/document_tree.rs:126-139. -/
def visitSdtChildren {σ : Type} (v : Visitor σ) : List SdtChild → Visit σ (List SdtChild)
  | [], s => ([], s)
  | c :: cs, s =>
    let a := visitSdtChild v c s
    let b := visitSdtChildren v cs a.2
    (a.1 :: b.1, b.2)
/-- `visit_table`. documents/document_tree.rs:95-110. -/
def visitTable {σ : Type} (v : Visitor σ) : Table → Visit σ Table
  | ⟨rs, g, n, pr⟩, s => let r := visitRows v rs s; (⟨r.1, g, n, pr⟩, r.2)
/-- The row loop body of `visit_table`. documents/document_tree.rs:97-108. -/
def visitRow {σ : Type} (v : Visitor σ) : Row → Visit σ Row
  | ⟨cs, n, pr⟩, s => let r := visitCells v cs s; (⟨r.1, n, pr⟩, r.2)
/-- The row loop of `visit_table`. documents/document_tree.rs:96-109. -/
def visitRows {σ : Type} (v : Visitor σ) : List Row → Visit σ (List Row)
  | [], s => ([], s)
  | c :: cs, s =>
    let a := visitRow v c s
    let b := visitRows v cs a.2
    (a.1 :: b.1, b.2)
/-- The cell loop body of `visit_table`. documents/document_tree.rs:98-107. -/
def visitCell {σ : Type} (v : Visitor σ) : Cell → Visit σ Cell
  | ⟨cs, pr, n⟩, s => let r := visitCellContents v cs s; (⟨r.1, pr, n⟩, r.2)
/-- The cell loop of `visit_table`. documents/document_tree.rs:97-108. -/
def visitCells {σ : Type} (v : Visitor σ) : List Cell → Visit σ (List Cell)
  | [], s => ([], s)
  | c :: cs, s =>
    let a := visitCell v c s
    let b := visitCells v cs a.2
    (a.1 :: b.1, b.2)
/-- The match on `TableCellContent`. documents/document_tree.rs:99-106. -/
def visitCellContent {σ : Type} (v : Visitor σ) : CellContent → Visit σ CellContent
  | .paragraph x, s => let r := visitParagraph v x s; (.paragraph r.1, r.2)
  | .table x, s => let r := visitTable v x s; (.table r.1, r.2)
  | .sdt x, s => let r := visitSdt v x s; (.sdt r.1, r.2)
  | .toc x, s => let r := visitToc v x s; (.toc r.1, r.2)
/-- The content loop of `visit_table`. documents/document_tree.rs:98-107. -/
def visitCellContents {σ : Type} (v : Visitor σ) : List CellContent → Visit σ (List CellContent)
  | [], s => ([], s)
  | c :: cs, s =>
    let a := visitCellContent v c s
    let b := visitCellContents v cs a.2
    (a.1 :: b.1, b.2)
/-- `visit_table_of_contents`. documents/document_tree.rs:112-123. -/
def visitToc {σ : Type} (v : Visitor σ) : Toc → Visit σ Toc
  | ⟨a, b, c, d, e, f, g, bs, as, j, k⟩, s =>
    let r := visitBlocks v bs s
    let q := visitBlocks v as r.2
    (⟨a, b, c, d, e, f, g, r.1, q.1, j, k⟩, q.2)

end


/-- `for child in &mut children`. documents/document_tree.rs:39-41,46-52,57-63,81-92. -/
def visitEach {σ α : Type} (f : α → Visit σ α) : List α → Visit σ (List α)
  | [], s => ([], s)
  | c :: cs, s =>
    let a := f c s
    let b := visitEach f cs a.2
    (a.1 :: b.1, b.2)

/-- The match on `HeaderChild`/`FooterChild`. documents/document_tree.rs:47-51,58-62. -/
def visitHeaderChild {σ : Type} (v : Visitor σ) : HeaderChild → Visit σ HeaderChild
  | .paragraph x, s => let r := visitParagraph v x s; (.paragraph r.1, r.2)
  | .table x, s => let r := visitTable v x s; (.table r.1, r.2)
  | .sdt x, s => let r := visitSdt v x s; (.sdt r.1, r.2)

/-- `visit_header`, `visit_footer`. documents/document_tree.rs:45-53,56-64. -/
def visitHeader {σ : Type} (v : Visitor σ) (h : Header) : Visit σ Header := fun s =>
  let r := visitEach (visitHeaderChild v) h.children s
  ({ h with children := r.1 }, r.2)

/-- The match on `SectionChild`. documents/document_tree.rs:82-91. -/
def visitSectionChild {σ : Type} (v : Visitor σ) : SectionChild → Visit σ SectionChild
  | .paragraph x, s => let r := visitParagraph v x s; (.paragraph r.1, r.2)
  | .table x, s => let r := visitTable v x s; (.table r.1, r.2)
  | .sdt x, s => let r := visitSdt v x s; (.sdt r.1, r.2)
  | .toc x, s => let r := visitToc v x s; (.toc r.1, r.2)
  | .bookmarkStart i n, s => (.bookmarkStart i n, s)
  | .bookmarkEnd i, s => (.bookmarkEnd i, s)
  | .commentStart i c, s => (.commentStart i c, s)
  | .commentEnd i, s => (.commentEnd i, s)

/-- `visit_section`. documents/document_tree.rs:80-93. -/
def visitSection {σ : Type} (v : Visitor σ) (x : Section) : Visit σ Section := fun s =>
  let r := visitEach (visitSectionChild v) x.children s
  ({ x with children := r.1 }, r.2)

/-- `visit_document_child`. documents/document_tree.rs:66-78. -/
def visitDocumentChild {σ : Type} (v : Visitor σ) : DocumentChild → Visit σ DocumentChild
  | .paragraph x, s => let r := visitParagraph v x s; (.paragraph r.1, r.2)
  | .table x, s => let r := visitTable v x s; (.table r.1, r.2)
  | .sdt x, s => let r := visitSdt v x s; (.sdt r.1, r.2)
  | .toc x, s => let r := visitToc v x s; (.toc r.1, r.2)
  | .section x, s => let r := visitSection v x s; (.section r.1, r.2)
  | .bookmarkStart i n, s => (.bookmarkStart i n, s)
  | .bookmarkEnd i, s => (.bookmarkEnd i, s)
  | .commentStart i c, s => (.commentStart i c, s)
  | .commentEnd i, s => (.commentEnd i, s)

/-- `visit_document`. documents/document_tree.rs:38-42. -/
def visitDocument {σ : Type} (v : Visitor σ) (d : Document) : Visit σ Document := fun s =>
  let r := visitEach (visitDocumentChild v) d.children s
  ({ d with children := r.1 }, r.2)

end Docx
