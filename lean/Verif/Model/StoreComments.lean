import Verif.Model.Docx

/-!
# Comments put where they start (`documents/mod.rs`)
-/

namespace Docx

/-- The comment that takes the place of the empty one of a range: the last one with the id, if there is one. documents/mod.rs:1154-1157,
1163-1167. -/
def storedComment (cs : List Comment) (id : Nat) (c : Comment) : Comment := ((cs.filter fun c => c.id = id).getLast?).getD c

/-- One child of a deletion. documents/mod.rs:1178-1190,1198-1207,1508-1518. -/
def storeInDeleteChild (cs : List Comment) : DeleteChild → DeleteChild
  | .commentStart id c => .commentStart id (storedComment cs id c)
  | c => c

/-- One child of an insertion; `deep` for a paragraph at the top of the body, where deletions in insertions are looked into.
documents/mod.rs:1169-1196,1497-1507. -/
def storeInInsertChild (cs : List Comment) (deep : Bool) : InsertChild → InsertChild
  | .commentStart id c => .commentStart id (storedComment cs id c)
  | .delete ⟨a, t, children⟩ => .delete ⟨a, t, if deep then children.map (storeInDeleteChild cs) else children⟩
  | c => c

/-- One child of a paragraph. documents/mod.rs:1161-1208,1489-1519. -/
def storeInParagraphChild (cs : List Comment) (deep : Bool) : ParagraphChild → ParagraphChild
  | .commentStart id c => .commentStart id (storedComment cs id c)
  | .insert ⟨a, t, children⟩ => .insert ⟨a, t, children.map (storeInInsertChild cs deep)⟩
  | .delete ⟨a, t, children⟩ => .delete ⟨a, t, children.map (storeInDeleteChild cs)⟩
  | c => c

/-- `store_comments_in_paragraph`, and the part of `store_comments` for a paragraph. documents/mod.rs:1160-1209,1485-1520. -/
def storeInParagraph (cs : List Comment) (deep : Bool) (p : Paragraph) : Paragraph :=
  { p with children := p.children.map (storeInParagraphChild cs deep) }

mutual
/-- `store_comments_in_table`. documents/mod.rs:1522-1564. -/
def storeInTable (cs : List Comment) : Table → Table
  | ⟨rows, grid, n, p⟩ => ⟨storeInRows cs rows, grid, n, p⟩
/-- The rows. documents/mod.rs:1523. -/
def storeInRows (cs : List Comment) : List Row → List Row
  | [] => []
  | ⟨cells, n, p⟩ :: rs => ⟨storeInCells cs cells, n, p⟩ :: storeInRows cs rs
/-- The cells. documents/mod.rs:1524. -/
def storeInCells (cs : List Comment) : List Cell → List Cell
  | [] => []
  | ⟨children, p, n⟩ :: l => ⟨storeInContents cs children, p, n⟩ :: storeInCells cs l
/-- The content of a cell. documents/mod.rs:1525-1562. -/
def storeInContents (cs : List Comment) : List CellContent → List CellContent
  | [] => []
  | .paragraph p :: l => .paragraph (storeInParagraph cs false p) :: storeInContents cs l
  | .table t :: l => .table (storeInTable cs t) :: storeInContents cs l
  | .sdt ⟨children, p, n⟩ :: l => .sdt ⟨storeInSdtChildren cs children, p, n⟩ :: storeInContents cs l
  | .toc ⟨i, items, a, d, w, al, pl, before, after, del, pp⟩ :: l =>
    .toc ⟨i, items, a, d, w, al, pl, storeInBlocks cs before, storeInBlocks cs after, del, pp⟩ :: storeInContents cs l
/-- The children of a content control in a cell: not those of a content control in it. documents/mod.rs:1533-1542. -/
def storeInSdtChildren (cs : List Comment) : List SdtChild → List SdtChild
  | [] => []
  | .paragraph p :: l => .paragraph (storeInParagraph cs false p) :: storeInSdtChildren cs l
  | .table t :: l => .table (storeInTable cs t) :: storeInSdtChildren cs l
  | c :: l => c :: storeInSdtChildren cs l
/-- What is before or behind the items of a table of contents in a cell. documents/mod.rs:1543-1561. -/
def storeInBlocks (cs : List Comment) : List Block → List Block
  | [] => []
  | .paragraph p :: l => .paragraph (storeInParagraph cs false p) :: storeInBlocks cs l
  | .table t :: l => .table (storeInTable cs t) :: storeInBlocks cs l
end

/-- One thing in the body: paragraphs and tables only. documents/mod.rs:1158-1212. -/
def storeInChild (cs : List Comment) : DocumentChild → DocumentChild
  | .paragraph p => .paragraph (storeInParagraph cs true p)
  | .table t => .table (storeInTable cs t)
  | c => c

/-- `Docx::store_comments`. documents/mod.rs:1153-1218. -/
def DocxFile.storeComments (d : DocxFile) (cs : List Comment) : DocxFile :=
  { d with
    document := { d.document with children := d.document.children.map (storeInChild cs) }
    documentRels := { d.documentRels with hasComments := d.documentRels.hasComments || !cs.isEmpty } }

end Docx
