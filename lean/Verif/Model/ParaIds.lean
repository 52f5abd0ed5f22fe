import Verif.Model.Types

/-!
# Paragraph id normalisation (`docx-core/src/documents/mod.rs:900-918,1568-2265`)

`collect_para_ids_in_*` counts ids in a `HashMap`; the model returns the list of the ids counted, in
traversal order. `refresh_para_ids_in_*` updates paragraphs in place with three pieces of state; the
model returns the new value and the new state. `MoveFrom`/`MoveTo`/`Footer` share the functions of
`Delete`/`Insert`/`Header`, whose Rust bodies are the same.
-/

namespace Docx

/-- The mutable state of a refresh. `used` and `seen` are `HashSet<String>`s, kept without repetition;
`next` is the thread-local `PARA_ID`. -/
structure IdState where
  used : List Str
  seen : List Str
  next : Nat
deriving DecidableEq

/-- `format!("{id:08x}")`. paragraph_id.rs:18. -/
def paraIdText (n : Nat) : Str := pad0 8 (hex n)

/-- `generate_para_id`. paragraph_id.rs:12-19. Simplification: the panic at the end of the `u32` range
(more than 2^32 - 1 paragraphs) is not modelled. -/
def generateParaId (next : Nat) : Str × Nat := (paraIdText next, next + 1)

/-- The scan `(first..).map(format).find(|c| !used.contains(c))` in `next_unique_paragraph_id`.
documents/mod.rs:2251-2265. The range is cut after `fuel` candidates; `Lemmas/ParaIds.lean` shows that
a candidate is always found among the first `used.len() + 1`. -/
def scanParaId (used : List Str) : Nat → Nat → Option Str
  | 0, _ => none
  | fuel + 1, v => if paraIdText v ∈ used then scanParaId used fuel (v + 1) else some (paraIdText v)

/-- `next_unique_paragraph_id`. documents/mod.rs:2251-2265. Returns the id and the new counter. -/
def nextUniqueParagraphId (used : List Str) (next : Nat) : Str × Nat :=
  let g := generateParaId next
  if g.1 ∈ used then
    ((scanParaId used (used.length + 1) (used.length + 1)).getD [], g.2)
  else g

/-- `ensure_unique_paragraph_id`. documents/mod.rs:2227-2243. -/
def ensureUniqueParagraphId (dup : List Str) (id : Str) (s : IdState) : Str × IdState :=
  if id ≠ [] ∧ id ∉ dup then (id, s)
  else if id ≠ [] ∧ id ∉ s.seen then (id, { s with seen := id :: s.seen })
  else
    let n := nextUniqueParagraphId s.used s.next
    (n.1, { s with used := n.1 :: s.used, next := n.2 })

mutual

/-- `collect_para_ids_in_run`. documents/mod.rs:1790-1796. -/
def collectRun : Run → List Str
  | ⟨_, cs⟩ => collectRunChildren cs
/-- Loop or match inside the function above. documents/mod.rs:1790-1796. -/
def collectRunChild : RunChild → List Str
  | .commentStart _ c => collectComment c
  | .text _ => []
  | .sym _ _ => []
  | .deleteText _ => []
  | .tab => []
  | .ptab _ => []
  | .brk _ => []
  | .carriageReturn => []
  | .picture _ => []
  | .textBox _ => []
  | .emptyDrawing => []
  | .shape _ => []
  | .commentEnd _ => []
  | .fieldChar _ _ => []
  | .instrText _ => []
  | .deleteInstrText _ => []
  | .instrTextString _ => []
  | .footnoteReference _ _ _ => []
  | .shading _ => []
/-- Loop or match inside the function above. documents/mod.rs:1790-1796. -/
def collectRunChildren : List RunChild → List Str
  | [] => []
  | c :: cs => collectRunChild c ++ collectRunChildren cs
/-- `collect_para_ids_in_comment`. documents/mod.rs:1820-1827. -/
def collectComment : Comment → List Str
  | ⟨_, _, _, bs, _⟩ => collectBlocks bs
/-- The two-armed matches on `CommentChild` and `TocContent`. -/
def collectBlock : Block → List Str
  | .paragraph p => collectParagraph p
  | .table t => collectTable t
/-- Loop or match inside the function above. documents/mod.rs:1820-1827. -/
def collectBlocks : List Block → List Str
  | [] => []
  | b :: bs => collectBlock b ++ collectBlocks bs
/-- `collect_para_ids_in_delete`, `collect_para_ids_in_move_from`. documents/mod.rs:1759-1767,1769-1777. -/
def collectDelete : Delete → List Str
  | ⟨_, _, cs⟩ => collectDeleteChildren cs
/-- Loop or match inside the function above. documents/mod.rs:1759-1767,1769-1777. -/
def collectDeleteChild : DeleteChild → List Str
  | .run r => collectRun r
  | .commentStart _ c => collectComment c
  | .commentEnd _ => []
/-- Loop or match inside the function above. documents/mod.rs:1759-1767,1769-1777. -/
def collectDeleteChildren : List DeleteChild → List Str
  | [] => []
  | c :: cs => collectDeleteChild c ++ collectDeleteChildren cs
/-- `collect_para_ids_in_insert`, `collect_para_ids_in_move_to`. documents/mod.rs:1748-1757,1779-1788. -/
def collectInsert : Insert → List Str
  | ⟨_, _, cs⟩ => collectInsertChildren cs
/-- Loop or match inside the function above. documents/mod.rs:1748-1757,1779-1788. -/
def collectInsertChild : InsertChild → List Str
  | .run r => collectRun r
  | .delete d => collectDelete d
  | .commentStart _ c => collectComment c
  | .commentEnd _ => []
/-- Loop or match inside the function above. documents/mod.rs:1748-1757,1779-1788. -/
def collectInsertChildren : List InsertChild → List Str
  | [] => []
  | c :: cs => collectInsertChild c ++ collectInsertChildren cs
/-- `collect_para_ids_in_hyperlink`. documents/mod.rs:1725-1746. -/
def collectHyperlink : Hyperlink → List Str
  | ⟨_, _, cs⟩ => collectParagraphChildren cs
/-- The match on `ParagraphChild` in `collect_para_ids_in_paragraph` and `.._in_hyperlink`.
documents/mod.rs:1706-1722,1729-1745. -/
def collectParagraphChild : ParagraphChild → List Str
  | .run r => collectRun r
  | .commentStart _ c => collectComment c
  | .insert i => collectInsert i
  | .delete d => collectDelete d
  | .moveFrom d => collectDelete d
  | .moveTo i => collectInsert i
  | .hyperlink h => collectHyperlink h
  | .sdt s => collectSdt s
  | .bookmarkStart _ _ => []
  | .bookmarkEnd _ => []
  | .commentEnd _ => []
  | .pageNum _ => []
  | .numPages _ => []
/-- Loop or match inside the function above. documents/mod.rs:1706-1722,1729-1745. -/
def collectParagraphChildren : List ParagraphChild → List Str
  | [] => []
  | c :: cs => collectParagraphChild c ++ collectParagraphChildren cs
/-- `collect_para_ids_in_paragraph`. documents/mod.rs:1700-1723. -/
def collectParagraph : Paragraph → List Str
  | ⟨i, cs, _, _⟩ => i :: collectParagraphChildren cs
/-- `collect_para_ids_in_structured_data_tag`. documents/mod.rs:1798-1818. -/
def collectSdt : Sdt → List Str
  | ⟨cs, _, _⟩ => collectSdtChildren cs
/-- Loop or match inside the function above. documents/mod.rs:1798-1818. -/
def collectSdtChild : SdtChild → List Str
  | .run r => collectRun r
  | .paragraph p => collectParagraph p
  | .table t => collectTable t
  | .commentStart _ c => collectComment c
  | .sdt s => collectSdt s
  | .bookmarkStart _ _ => []
  | .bookmarkEnd _ => []
  | .commentEnd _ => []
/-- Loop or match inside the function above. documents/mod.rs:1798-1818. -/
def collectSdtChildren : List SdtChild → List Str
  | [] => []
  | c :: cs => collectSdtChild c ++ collectSdtChildren cs
/-- `collect_para_ids_in_table`. documents/mod.rs:1681-1698. -/
def collectTable : Table → List Str
  | ⟨rs, _, _, _⟩ => collectRows rs
/-- Loop or match inside the function above. documents/mod.rs:1681-1698. -/
def collectRow : Row → List Str
  | ⟨cs, _, _⟩ => collectCells cs
/-- Loop or match inside the function above. documents/mod.rs:1681-1698. -/
def collectRows : List Row → List Str
  | [] => []
  | r :: rs => collectRow r ++ collectRows rs
/-- Loop or match inside the function above. documents/mod.rs:1681-1698. -/
def collectCell : Cell → List Str
  | ⟨cs, _, _⟩ => collectCellContents cs
/-- Loop or match inside the function above. documents/mod.rs:1681-1698. -/
def collectCells : List Cell → List Str
  | [] => []
  | c :: cs => collectCell c ++ collectCells cs
/-- Loop or match inside the function above. documents/mod.rs:1681-1698. -/
def collectCellContent : CellContent → List Str
  | .paragraph p => collectParagraph p
  | .table t => collectTable t
  | .sdt s => collectSdt s
  | .toc t => collectToc t
/-- Loop or match inside the function above. documents/mod.rs:1681-1698. -/
def collectCellContents : List CellContent → List Str
  | [] => []
  | c :: cs => collectCellContent c ++ collectCellContents cs
/-- `collect_para_ids_in_toc`. documents/mod.rs:1666-1679. -/
def collectToc : Toc → List Str
  | ⟨_, _, _, _, _, _, _, bs, as, _, _⟩ => collectBlocks bs ++ collectBlocks as

end

/-- The match on `HeaderChild`/`FooterChild`. documents/mod.rs:1644-1650,1656-1662. -/
def collectHeaderChild : HeaderChild → List Str
  | .paragraph p => collectParagraph p
  | .table t => collectTable t
  | .sdt s => collectSdt s

/-- `collect_para_ids_in_header`, `collect_para_ids_in_footer`. documents/mod.rs:1642-1652,1654-1664. -/
def collectHeader (h : Header) : List Str := h.children.flatMap collectHeaderChild

/-- `if let Some((_, header)) = ... { collect(header) }`. documents/mod.rs:1622-1639. -/
def collectPart : Option (Str × Header) → List Str
  | some (_, h) => collectHeader h
  | none => []

/-- `collect_para_ids_in_section_property`. documents/mod.rs:1618-1640. -/
def collectSectionProperty (p : SectionProperty) : List Str :=
  collectPart p.header ++ collectPart p.firstHeader ++ collectPart p.evenHeader ++
    collectPart p.footer ++ collectPart p.firstFooter ++ collectPart p.evenFooter

/-- The match on `SectionChild`. documents/mod.rs:1604-1613. -/
def collectSectionChild : SectionChild → List Str
  | .paragraph p => collectParagraph p
  | .table t => collectTable t
  | .sdt s => collectSdt s
  | .toc t => collectToc t
  | .commentStart _ c => collectComment c
  | _ => []

/-- `collect_para_ids_in_section`. documents/mod.rs:1602-1616. -/
def collectSection (s : Section) : List Str :=
  s.children.flatMap collectSectionChild ++ collectSectionProperty s.property

/-- `collect_para_ids_in_document_child`. documents/mod.rs:1585-1600. -/
def collectDocumentChild : DocumentChild → List Str
  | .paragraph p => collectParagraph p
  | .table t => collectTable t
  | .sdt s => collectSdt s
  | .toc t => collectToc t
  | .section s => collectSection s
  | .commentStart _ c => collectComment c
  | _ => []

/-- `for paragraph in &footnote.content`. documents/mod.rs:1578-1582. -/
def collectFootnote (f : Footnote) : List Str := f.content.flatMap collectParagraph

/-- `collect_para_ids_in_docx`. documents/mod.rs:1568-1583. The three arguments are the fields of
`Docx` that the function reads. -/
def collectDocx (d : Document) (comments : List Comment) (footnotes : List Footnote) : List Str :=
  d.children.flatMap collectDocumentChild ++ collectSectionProperty d.sectionProperty ++
    comments.flatMap collectComment ++ footnotes.flatMap collectFootnote

/-- A stateful update of a value. -/
abbrev Refresh (α : Type) := IdState → α × IdState

mutual

/-- `refresh_para_ids_in_run`. documents/mod.rs:2170-2181. -/
def refreshRun (dup : List Str) : Run → Refresh Run
  | ⟨pr, cs⟩, s => let r := refreshRunChildren dup cs s; (⟨pr, r.1⟩, r.2)
/-- Loop or match inside the function above. documents/mod.rs:2170-2181. -/
def refreshRunChild (dup : List Str) : RunChild → Refresh RunChild
  | .commentStart i c, s => let r := refreshComment dup c s; (.commentStart i r.1, r.2)
  | .text t, s => (.text t, s)
  | .sym f c, s => (.sym f c, s)
  | .deleteText t, s => (.deleteText t, s)
  | .tab, s => (.tab, s)
  | .ptab t, s => (.ptab t, s)
  | .brk t, s => (.brk t, s)
  | .carriageReturn, s => (.carriageReturn, s)
  | .picture p, s => (.picture p, s)
  | .textBox bs, s => (.textBox bs, s)
  | .emptyDrawing, s => (.emptyDrawing, s)
  | .shape x, s => (.shape x, s)
  | .commentEnd i, s => (.commentEnd i, s)
  | .fieldChar t d, s => (.fieldChar t d, s)
  | .instrText i, s => (.instrText i, s)
  | .deleteInstrText i, s => (.deleteInstrText i, s)
  | .instrTextString x, s => (.instrTextString x, s)
  | .footnoteReference i x ps, s => (.footnoteReference i x ps, s)
  | .shading x, s => (.shading x, s)
/-- Loop or match inside the function above. documents/mod.rs:2170-2181. -/
def refreshRunChildren (dup : List Str) : List RunChild → Refresh (List RunChild)
  | [], s => ([], s)
  | c :: cs, s =>
    let a := refreshRunChild dup c s
    let b := refreshRunChildren dup cs a.2
    (a.1 :: b.1, b.2)
/-- `refresh_para_ids_in_comment`. documents/mod.rs:2211-2225. -/
def refreshComment (dup : List Str) : Comment → Refresh Comment
  | ⟨i, a, d, bs, p⟩, s => let r := refreshBlocks dup bs s; (⟨i, a, d, r.1, p⟩, r.2)
/-- Loop or match inside the function above. documents/mod.rs:2211-2225. -/
def refreshBlock (dup : List Str) : Block → Refresh Block
  | .paragraph p, s => let r := refreshParagraph dup p s; (.paragraph r.1, r.2)
  | .table t, s => let r := refreshTable dup t s; (.table r.1, r.2)
/-- Loop or match inside the function above. documents/mod.rs:2211-2225. -/
def refreshBlocks (dup : List Str) : List Block → Refresh (List Block)
  | [], s => ([], s)
  | c :: cs, s =>
    let a := refreshBlock dup c s
    let b := refreshBlocks dup cs a.2
    (a.1 :: b.1, b.2)
/-- `refresh_para_ids_in_delete`, `refresh_para_ids_in_move_from`. documents/mod.rs:2116-2131,2133-2148. -/
def refreshDelete (dup : List Str) : Delete → Refresh Delete
  | ⟨a, d, cs⟩, s => let r := refreshDeleteChildren dup cs s; (⟨a, d, r.1⟩, r.2)
/-- Loop or match inside the function above. documents/mod.rs:2116-2131,2133-2148. -/
def refreshDeleteChild (dup : List Str) : DeleteChild → Refresh DeleteChild
  | .run x, s => let r := refreshRun dup x s; (.run r.1, r.2)
  | .commentStart i c, s => let r := refreshComment dup c s; (.commentStart i r.1, r.2)
  | .commentEnd i, s => (.commentEnd i, s)
/-- Loop or match inside the function above. documents/mod.rs:2116-2131,2133-2148. -/
def refreshDeleteChildren (dup : List Str) : List DeleteChild → Refresh (List DeleteChild)
  | [], s => ([], s)
  | c :: cs, s =>
    let a := refreshDeleteChild dup c s
    let b := refreshDeleteChildren dup cs a.2
    (a.1 :: b.1, b.2)
/-- `refresh_para_ids_in_insert`, `refresh_para_ids_in_move_to`. documents/mod.rs:2096-2114,2150-2168. -/
def refreshInsert (dup : List Str) : Insert → Refresh Insert
  | ⟨a, d, cs⟩, s => let r := refreshInsertChildren dup cs s; (⟨a, d, r.1⟩, r.2)
/-- Loop or match inside the function above. documents/mod.rs:2096-2114,2150-2168. -/
def refreshInsertChild (dup : List Str) : InsertChild → Refresh InsertChild
  | .run x, s => let r := refreshRun dup x s; (.run r.1, r.2)
  | .delete d, s => let r := refreshDelete dup d s; (.delete r.1, r.2)
  | .commentStart i c, s => let r := refreshComment dup c s; (.commentStart i r.1, r.2)
  | .commentEnd i, s => (.commentEnd i, s)
/-- Loop or match inside the function above. documents/mod.rs:2096-2114,2150-2168. -/
def refreshInsertChildren (dup : List Str) : List InsertChild → Refresh (List InsertChild)
  | [], s => ([], s)
  | c :: cs, s =>
    let a := refreshInsertChild dup c s
    let b := refreshInsertChildren dup cs a.2
    (a.1 :: b.1, b.2)
/-- `refresh_para_ids_in_hyperlink`. documents/mod.rs:2061-2094. -/
def refreshHyperlink (dup : List Str) : Hyperlink → Refresh Hyperlink
  | ⟨l, h, cs⟩, s => let r := refreshParagraphChildren dup cs s; (⟨l, h, r.1⟩, r.2)
/-- The match on `ParagraphChild` in `refresh_para_ids_in_paragraph` and `.._in_hyperlink`.
documents/mod.rs:2032-2058,2067-2093. -/
def refreshParagraphChild (dup : List Str) : ParagraphChild → Refresh ParagraphChild
  | .run x, s => let r := refreshRun dup x s; (.run r.1, r.2)
  | .commentStart i c, s => let r := refreshComment dup c s; (.commentStart i r.1, r.2)
  | .insert x, s => let r := refreshInsert dup x s; (.insert r.1, r.2)
  | .delete x, s => let r := refreshDelete dup x s; (.delete r.1, r.2)
  | .moveFrom x, s => let r := refreshDelete dup x s; (.moveFrom r.1, r.2)
  | .moveTo x, s => let r := refreshInsert dup x s; (.moveTo r.1, r.2)
  | .hyperlink x, s => let r := refreshHyperlink dup x s; (.hyperlink r.1, r.2)
  | .sdt x, s => let r := refreshSdt dup x s; (.sdt r.1, r.2)
  | .bookmarkStart i n, s => (.bookmarkStart i n, s)
  | .bookmarkEnd i, s => (.bookmarkEnd i, s)
  | .commentEnd i, s => (.commentEnd i, s)
  | .pageNum i, s => (.pageNum i, s)
  | .numPages i, s => (.numPages i, s)
/-- Loop or match inside the function above. documents/mod.rs:2032-2058,2067-2093. -/
def refreshParagraphChildren (dup : List Str) : List ParagraphChild → Refresh (List ParagraphChild)
  | [], s => ([], s)
  | c :: cs, s =>
    let a := refreshParagraphChild dup c s
    let b := refreshParagraphChildren dup cs a.2
    (a.1 :: b.1, b.2)
/-- `refresh_para_ids_in_paragraph`. documents/mod.rs:2024-2059. -/
def refreshParagraph (dup : List Str) : Paragraph → Refresh Paragraph
  | ⟨i, cs, pr, n⟩, s =>
    let e := ensureUniqueParagraphId dup i s
    let r := refreshParagraphChildren dup cs e.2
    (⟨e.1, r.1, pr, n⟩, r.2)
/-- `refresh_para_ids_in_structured_data_tag`. documents/mod.rs:2183-2209. -/
def refreshSdt (dup : List Str) : Sdt → Refresh Sdt
  | ⟨cs, pr, n⟩, s => let r := refreshSdtChildren dup cs s; (⟨r.1, pr, n⟩, r.2)
/-- Loop or match inside the function above. documents/mod.rs:2183-2209. -/
def refreshSdtChild (dup : List Str) : SdtChild → Refresh SdtChild
  | .run x, s => let r := refreshRun dup x s; (.run r.1, r.2)
  | .paragraph x, s => let r := refreshParagraph dup x s; (.paragraph r.1, r.2)
  | .table x, s => let r := refreshTable dup x s; (.table r.1, r.2)
  | .commentStart i c, s => let r := refreshComment dup c s; (.commentStart i r.1, r.2)
  | .sdt x, s => let r := refreshSdt dup x s; (.sdt r.1, r.2)
  | .bookmarkStart i n, s => (.bookmarkStart i n, s)
  | .bookmarkEnd i, s => (.bookmarkEnd i, s)
  | .commentEnd i, s => (.commentEnd i, s)
/-- Loop or match inside the function above. documents/mod.rs:2183-2209. -/
def refreshSdtChildren (dup : List Str) : List SdtChild → Refresh (List SdtChild)
  | [], s => ([], s)
  | c :: cs, s =>
    let a := refreshSdtChild dup c s
    let b := refreshSdtChildren dup cs a.2
    (a.1 :: b.1, b.2)
/-- `refresh_para_ids_in_table`. documents/mod.rs:1996-2022. -/
def refreshTable (dup : List Str) : Table → Refresh Table
  | ⟨rs, g, n, pr⟩, s => let r := refreshRows dup rs s; (⟨r.1, g, n, pr⟩, r.2)
/-- Loop or match inside the function above. documents/mod.rs:1996-2022. -/
def refreshRow (dup : List Str) : Row → Refresh Row
  | ⟨cs, n, pr⟩, s => let r := refreshCells dup cs s; (⟨r.1, n, pr⟩, r.2)
/-- Loop or match inside the function above. documents/mod.rs:1996-2022. -/
def refreshRows (dup : List Str) : List Row → Refresh (List Row)
  | [], s => ([], s)
  | c :: cs, s =>
    let a := refreshRow dup c s
    let b := refreshRows dup cs a.2
    (a.1 :: b.1, b.2)
/-- Loop or match inside the function above. documents/mod.rs:1996-2022. -/
def refreshCell (dup : List Str) : Cell → Refresh Cell
  | ⟨cs, pr, n⟩, s => let r := refreshCellContents dup cs s; (⟨r.1, pr, n⟩, r.2)
/-- Loop or match inside the function above. documents/mod.rs:1996-2022. -/
def refreshCells (dup : List Str) : List Cell → Refresh (List Cell)
  | [], s => ([], s)
  | c :: cs, s =>
    let a := refreshCell dup c s
    let b := refreshCells dup cs a.2
    (a.1 :: b.1, b.2)
/-- Loop or match inside the function above. documents/mod.rs:1996-2022. -/
def refreshCellContent (dup : List Str) : CellContent → Refresh CellContent
  | .paragraph x, s => let r := refreshParagraph dup x s; (.paragraph r.1, r.2)
  | .table x, s => let r := refreshTable dup x s; (.table r.1, r.2)
  | .sdt x, s => let r := refreshSdt dup x s; (.sdt r.1, r.2)
  | .toc x, s => let r := refreshToc dup x s; (.toc r.1, r.2)
/-- Loop or match inside the function above. documents/mod.rs:1996-2022. -/
def refreshCellContents (dup : List Str) : List CellContent → Refresh (List CellContent)
  | [], s => ([], s)
  | c :: cs, s =>
    let a := refreshCellContent dup c s
    let b := refreshCellContents dup cs a.2
    (a.1 :: b.1, b.2)
/-- `refresh_para_ids_in_toc`. documents/mod.rs:1972-1994. -/
def refreshToc (dup : List Str) : Toc → Refresh Toc
  | ⟨a, b, c, d, e, f, g, bs, as, j, k⟩, s =>
    let r := refreshBlocks dup bs s
    let q := refreshBlocks dup as r.2
    (⟨a, b, c, d, e, f, g, r.1, q.1, j, k⟩, q.2)

end

/-- A loop over a vector of mutable elements. -/
def refreshEach {α : Type} (f : α → Refresh α) : List α → Refresh (List α)
  | [], s => ([], s)
  | c :: cs, s =>
    let a := f c s
    let b := refreshEach f cs a.2
    (a.1 :: b.1, b.2)

/-- The match on `HeaderChild`/`FooterChild`. documents/mod.rs:1941-1949,1960-1968. -/
def refreshHeaderChild (dup : List Str) : HeaderChild → Refresh HeaderChild
  | .paragraph x, s => let r := refreshParagraph dup x s; (.paragraph r.1, r.2)
  | .table x, s => let r := refreshTable dup x s; (.table r.1, r.2)
  | .sdt x, s => let r := refreshSdt dup x s; (.sdt r.1, r.2)

/-- `refresh_para_ids_in_header`, `refresh_para_ids_in_footer`. documents/mod.rs:1934-1951,1953-1970. -/
def refreshHeader (dup : List Str) (h : Header) : Refresh Header := fun s =>
  let r := refreshEach (refreshHeaderChild dup) h.children s
  ({ h with children := r.1 }, r.2)

/-- `if let Some((_, header)) = ... { refresh(header) }`. documents/mod.rs:1914-1931. -/
def refreshPart (dup : List Str) : Option (Str × Header) → Refresh (Option (Str × Header))
  | some (i, h), s => let r := refreshHeader dup h s; (some (i, r.1), r.2)
  | none, s => (none, s)

/-- `refresh_para_ids_in_section_property`. documents/mod.rs:1908-1932. -/
def refreshSectionProperty (dup : List Str) (p : SectionProperty) : Refresh SectionProperty := fun s =>
  let a := refreshPart dup p.header s
  let b := refreshPart dup p.firstHeader a.2
  let c := refreshPart dup p.evenHeader b.2
  let d := refreshPart dup p.footer c.2
  let e := refreshPart dup p.firstFooter d.2
  let f := refreshPart dup p.evenFooter e.2
  ({ p with header := a.1, firstHeader := b.1, evenHeader := c.1, footer := d.1,
            firstFooter := e.1, evenFooter := f.1 }, f.2)

/-- The match on `SectionChild`. documents/mod.rs:1888-1903. -/
def refreshSectionChild (dup : List Str) : SectionChild → Refresh SectionChild
  | .paragraph x, s => let r := refreshParagraph dup x s; (.paragraph r.1, r.2)
  | .table x, s => let r := refreshTable dup x s; (.table r.1, r.2)
  | .sdt x, s => let r := refreshSdt dup x s; (.sdt r.1, r.2)
  | .toc x, s => let r := refreshToc dup x s; (.toc r.1, r.2)
  | .commentStart i c, s => let r := refreshComment dup c s; (.commentStart i r.1, r.2)
  | x, s => (x, s)

/-- `refresh_para_ids_in_section`. documents/mod.rs:1881-1906. -/
def refreshSection (dup : List Str) (x : Section) : Refresh Section := fun s =>
  let r := refreshEach (refreshSectionChild dup) x.children s
  let q := refreshSectionProperty dup x.property r.2
  ({ x with children := r.1, property := q.1 }, q.2)

/-- `refresh_para_ids_in_document_child`. documents/mod.rs:1856-1879. -/
def refreshDocumentChild (dup : List Str) : DocumentChild → Refresh DocumentChild
  | .paragraph x, s => let r := refreshParagraph dup x s; (.paragraph r.1, r.2)
  | .table x, s => let r := refreshTable dup x s; (.table r.1, r.2)
  | .sdt x, s => let r := refreshSdt dup x s; (.sdt r.1, r.2)
  | .toc x, s => let r := refreshToc dup x s; (.toc r.1, r.2)
  | .section x, s => let r := refreshSection dup x s; (.section r.1, r.2)
  | .commentStart i c, s => let r := refreshComment dup c s; (.commentStart i r.1, r.2)
  | x, s => (x, s)

/-- `for paragraph in &mut footnote.content`. documents/mod.rs:1849-1853. -/
def refreshFootnote (dup : List Str) (f : Footnote) : Refresh Footnote := fun s =>
  let r := refreshEach (refreshParagraph dup) f.content s
  ({ f with content := r.1 }, r.2)

/-- The fields of `Docx` that hold paragraphs. documents/mod.rs:145-177. -/
structure Story where
  document : Document
  comments : List Comment := []
  footnotes : List Footnote := []

/-- `refresh_para_ids_in_docx`. documents/mod.rs:1829-1854. -/
def refreshStory (dup : List Str) (x : Story) : Refresh Story := fun s =>
  let a := refreshEach (refreshDocumentChild dup) x.document.children s
  let b := refreshSectionProperty dup x.document.sectionProperty a.2
  let c := refreshEach (refreshComment dup) x.comments b.2
  let d := refreshEach (refreshFootnote dup) x.footnotes c.2
  ({ document := { x.document with children := a.1, sectionProperty := b.1 },
     comments := c.1, footnotes := d.1 }, d.2)

/-- The distinct elements of a list: the keys of the `counts` map. -/
def keysOf : List Str → List Str
  | [] => []
  | x :: xs => if x ∈ keysOf xs then keysOf xs else x :: keysOf xs

/-- `refresh_duplicate_para_ids`. documents/mod.rs:900-918. `next` is the value of the thread-local
counter when the step starts; the result carries its value after the step. -/
def refreshDuplicateParaIds (x : Story) (next : Nat) : Story × Nat :=
  let ids := collectDocx x.document x.comments x.footnotes
  let keys := keysOf ids
  let dup := keys.filter (fun i => decide (ids.count i > 1))
  if dup = [] ∧ [] ∉ keys then (x, next)
  else
    let r := refreshStory dup x { used := keys, seen := [], next := next }
    (r.1, r.2.next)

end Docx
