import Verif.Model.Json
import Verif.Model.ReadBody
import Verif.Spec.Pictures

/-!
# Specification: reading JSON, the text in it, and what it says of a document
-/

namespace Docx.Spec

open Docx

/-! ## JSON (RFC 8259) -/

/-- White space. -/
def jsonBlank (c : Char) : Bool := c = ' ' || c = '\n' || c = '\t' || c = '\r'

/-- What a number is made of. -/
def numberChar (c : Char) : Bool := c.isDigit || c = '-' || c = '+' || c = '.' || c = 'e' || c = 'E'

/-- The value of a hexadecimal digit. -/
def hexValue (c : Char) : Option Nat :=
  if c.isDigit then some (c.toNat - 48)
  else if 'a' ≤ c ∧ c ≤ 'f' then some (c.toNat - 87)
  else if 'A' ≤ c ∧ c ≤ 'F' then some (c.toNat - 55)
  else none

/-- What a backslash and a letter stand for. -/
def unescaped : Char → Option Char
  | '"' => some '"'
  | '\\' => some '\\'
  | '/' => some '/'
  | 'b' => some (Char.ofNat 8)
  | 'f' => some (Char.ofNat 12)
  | 'n' => some '\n'
  | 'r' => some '\r'
  | 't' => some '\t'
  | _ => none

/-- How a string is read: what stands before the closing quote, and the rest. Pairs of surrogates are not read. -/
inductive StringMode where
  | plain
  | escape
  | code (digits : Nat) (value : Nat)

/-- The rest of a string. -/
def readChars : StringMode → Str → Option (Str × Str)
  | _, [] => none
  | .plain, c :: r =>
    if c = '"' then some ([], r)
    else if c = '\\' then readChars .escape r
    else if c.toNat < 32 then none
    else (readChars .plain r).map fun x => (c :: x.1, x.2)
  | .escape, c :: r =>
    if c = 'u' then readChars (.code 4 0) r
    else match unescaped c with
      | some d => (readChars .plain r).map fun x => (d :: x.1, x.2)
      | none => none
  | .code k v, c :: r =>
    match hexValue c with
    | none => none
    | some x =>
      if k ≤ 1 then
        if 0xD800 ≤ 16 * v + x ∧ 16 * v + x ≤ 0xDFFF then none
        else (readChars .plain r).map fun y => (Char.ofNat (16 * v + x) :: y.1, y.2)
      else readChars (.code (k - 1) (16 * v + x)) r

mutual
/-- A value, and what comes after it. The first argument bounds the steps. -/
def readJson : Nat → Str → Option (Json × Str)
  | 0, _ => none
  | n + 1, s =>
    match s.dropWhile jsonBlank with
    | [] => none
    | c :: r =>
      if c = '"' then (readChars .plain r).map fun x => (.str x.1, x.2)
      else if c = '[' then
        if (r.dropWhile jsonBlank).head? = some ']' then some (.arr [], (r.dropWhile jsonBlank).tail)
        else (readElements n r).map fun x => (.arr x.1, x.2)
      else if c = '{' then
        if (r.dropWhile jsonBlank).head? = some '}' then some (.obj [], (r.dropWhile jsonBlank).tail)
        else (readMembers n r).map fun x => (.obj x.1, x.2)
      else if c!"null" <+: c :: r then some (.null, r.drop 3)
      else if c!"true" <+: c :: r then some (.bool true, r.drop 3)
      else if c!"false" <+: c :: r then some (.bool false, r.drop 4)
      else if numberChar c then some (.num ((c :: r).takeWhile numberChar), (c :: r).dropWhile numberChar)
      else none
/-- The elements of an array, up to its end. -/
def readElements : Nat → Str → Option (List Json × Str)
  | 0, _ => none
  | n + 1, s =>
    match readJson n s with
    | none => none
    | some (v, r) =>
      match r.dropWhile jsonBlank with
      | ',' :: r => (readElements n r).map fun x => (v :: x.1, x.2)
      | ']' :: r => some ([v], r)
      | _ => none
/-- The members of an object, up to its end. -/
def readMembers : Nat → Str → Option (List (Str × Json) × Str)
  | 0, _ => none
  | n + 1, s =>
    match s.dropWhile jsonBlank with
    | '"' :: r =>
      match readChars .plain r with
      | none => none
      | some (k, r) =>
        match r.dropWhile jsonBlank with
        | ':' :: r =>
          match readJson n r with
          | none => none
          | some (v, r) =>
            match r.dropWhile jsonBlank with
            | ',' :: r => (readMembers n r).map fun x => ((k, v) :: x.1, x.2)
            | '}' :: r => some ([(k, v)], r)
            | _ => none
        | _ => none
    | _ => none
end

mutual
/-- Every number is written with at least one character, all of them such as numbers are made of. -/
def Json.Ok : Json → Prop
  | .num n => n ≠ [] ∧ ∀ c ∈ n, numberChar c = true
  | .arr l => allOk l
  | .obj fs => fieldsOk fs
  | .null | .bool _ | .str _ => True
def allOk : List Json → Prop
  | [] => True
  | v :: vs => Json.Ok v ∧ allOk vs
def fieldsOk : List (Str × Json) → Prop
  | [] => True
  | (_, v) :: fs => Json.Ok v ∧ fieldsOk fs
end

/-- The value of a field. -/
def Json.field (key : Str) : Json → Option Json
  | .obj fs => fs.lookup key
  | _ => none

/-! ## The text in the JSON form of a document, as a consumer would look for it -/

/-- The kinds of content that hold other content. -/
def containers : List Str :=
  [c!"paragraph", c!"table", c!"tableRow", c!"tableCell", c!"run", c!"insert", c!"delete", c!"moveFrom", c!"moveTo", c!"hyperlink", c!"external", c!"anchor", c!"structuredDataTag", c!"tableOfContents", c!"section"]

/-- The fields that hold content. -/
def contentKeys : List Str := [c!"data", c!"children", c!"rows", c!"cells", c!"before_contents", c!"after_contents"]

/-- The kind of an object, if it says one. -/
def kindOf (fs : List (Str × Json)) : Option Str :=
  match fs.lookup c!"type" with
  | some (.str t) => some t
  | _ => none

mutual
/-- The texts in a value, in order: a `text` and a `deleteText` have one, containers are searched, everything else is skipped. -/
def Json.texts : Json → List Str
  | .obj fs =>
    if kindOf fs = some c!"text" ∨ kindOf fs = some c!"deleteText" then
      match ((fs.lookup c!"data").bind (Json.field c!"text")) with
      | some (.str s) => [s]
      | _ => []
    else if ∀ t, kindOf fs = some t → t ∈ containers then jsonTextsIn fs
    else []
  | .arr l => jsonTextsOf l
  | _ => []
/-- In the elements of an array. -/
def jsonTextsOf : List Json → List Str
  | [] => []
  | v :: vs => Json.texts v ++ jsonTextsOf vs
/-- In the fields that hold content. -/
def jsonTextsIn : List (Str × Json) → List Str
  | [] => []
  | (k, v) :: fs => (if k ∈ contentKeys then Json.texts v else []) ++ jsonTextsIn fs
end

/-- The texts of a document as it is kept, deleted ones too, in order: not those in comments, footnotes, text boxes, headers and footers. -/
def keptTexts (d : Document) : List Str :=
  ((walkDocument d).within inPart).filterMap fun
    | .runChild (.text t) => some t
    | .runChild (.deleteText t) => some t
    | _ => none

/-! ## A document up to what its JSON form leaves out -/

/-- What of the leaves is compared. -/
structure Blur where
  run : RunProperty → RunProperty
  paragraph : ParagraphProperty → ParagraphProperty
  sdt : SdtProperty → SdtProperty
  table : TableProperty → TableProperty
  row : TableRowProperty → TableRowProperty
  cell : TableCellProperty → TableCellProperty
  base : SectionBase → SectionBase
  ptab : PositionalTab → PositionalTab
  picture : Pic → Pic
  shape : Shape → Shape
  instr : InstrText → InstrText
  deleteInstr : DeleteInstrText → DeleteInstrText
  tocInstr : InstrToC → InstrToC
  shading : Shading → Shading

/-- Leaves are compared as they are. -/
def Blur.nothing : Blur := ⟨id, id, id, id, id, id, id, id, id, id, id, id, id, id⟩

/-- Leaves are not compared. -/
def Blur.leaves : Blur :=
  ⟨fun _ => {}, fun _ => {}, fun _ => {}, fun _ => {}, fun _ => {}, fun _ => {}, fun _ => {}, fun _ => {}, fun _ => Pic.empty, fun _ => {},
    fun _ => .page, fun _ => .unsupported [], fun _ => {}, fun _ => {}⟩

def blurTocItem (B : Blur) (i : TocItem) : TocItem := { i with instr := B.tocInstr i.instr }

mutual

def blurRun (B : Blur) : Run → Run
  | ⟨pr, cs⟩ => ⟨B.run pr, blurRunChildren B cs⟩
/-- The style and the text of a footnote are left out. -/
def blurRunChild (B : Blur) : RunChild → RunChild
  | .text t => .text t
  | .sym f c => .sym f c
  | .deleteText t => .deleteText t
  | .tab => .tab
  | .ptab t => .ptab (B.ptab t)
  | .brk t => .brk t
  | .carriageReturn => .carriageReturn
  | .picture p => .picture (B.picture p)
  | .textBox bs => .textBox (blurBlocks B bs)
  | .emptyDrawing => .emptyDrawing
  | .shape s => .shape (B.shape s)
  | .commentStart i c => .commentStart i (blurComment B c)
  | .commentEnd i => .commentEnd i
  | .fieldChar t d => .fieldChar t d
  | .instrText i => .instrText (B.instr i)
  | .deleteInstrText i => .deleteInstrText (B.deleteInstr i)
  | .instrTextString s => .instrTextString s
  | .footnoteReference i _ _ => .footnoteReference i [] []
  | .shading s => .shading (B.shading s)
def blurRunChildren (B : Blur) : List RunChild → List RunChild
  | [] => []
  | c :: cs => blurRunChild B c :: blurRunChildren B cs
def blurComment (B : Blur) : Comment → Comment
  | ⟨i, a, d, bs, p⟩ => ⟨i, a, d, blurBlocks B bs, p⟩
def blurBlock (B : Blur) : Block → Block
  | .paragraph p => .paragraph (blurParagraph B p)
  | .table t => .table (blurTable B t)
def blurBlocks (B : Blur) : List Block → List Block
  | [] => []
  | c :: cs => blurBlock B c :: blurBlocks B cs
def blurDelete (B : Blur) : Delete → Delete
  | ⟨a, d, cs⟩ => ⟨a, d, blurDeleteChildren B cs⟩
def blurDeleteChild (B : Blur) : DeleteChild → DeleteChild
  | .run r => .run (blurRun B r)
  | .commentStart i c => .commentStart i (blurComment B c)
  | .commentEnd i => .commentEnd i
def blurDeleteChildren (B : Blur) : List DeleteChild → List DeleteChild
  | [] => []
  | c :: cs => blurDeleteChild B c :: blurDeleteChildren B cs
def blurInsert (B : Blur) : Insert → Insert
  | ⟨a, d, cs⟩ => ⟨a, d, blurInsertChildren B cs⟩
def blurInsertChild (B : Blur) : InsertChild → InsertChild
  | .run r => .run (blurRun B r)
  | .delete d => .delete (blurDelete B d)
  | .commentStart i c => .commentStart i (blurComment B c)
  | .commentEnd i => .commentEnd i
def blurInsertChildren (B : Blur) : List InsertChild → List InsertChild
  | [] => []
  | c :: cs => blurInsertChild B c :: blurInsertChildren B cs
def blurHyperlink (B : Blur) : Hyperlink → Hyperlink
  | ⟨l, h, cs⟩ => ⟨l, h, blurParagraphChildren B cs⟩
def blurParagraphChild (B : Blur) : ParagraphChild → ParagraphChild
  | .run r => .run (blurRun B r)
  | .insert i => .insert (blurInsert B i)
  | .delete d => .delete (blurDelete B d)
  | .moveFrom d => .moveFrom (blurDelete B d)
  | .moveTo i => .moveTo (blurInsert B i)
  | .hyperlink h => .hyperlink (blurHyperlink B h)
  | .bookmarkStart i n => .bookmarkStart i n
  | .bookmarkEnd i => .bookmarkEnd i
  | .commentStart i c => .commentStart i (blurComment B c)
  | .commentEnd i => .commentEnd i
  | .sdt s => .sdt (blurSdt B s)
  | .pageNum _ => .pageNum .page
  | .numPages _ => .numPages .numPages
def blurParagraphChildren (B : Blur) : List ParagraphChild → List ParagraphChild
  | [] => []
  | c :: cs => blurParagraphChild B c :: blurParagraphChildren B cs
def blurParagraph (B : Blur) : Paragraph → Paragraph
  | ⟨i, cs, pr, n⟩ => ⟨i, blurParagraphChildren B cs, B.paragraph pr, n⟩
def blurSdt (B : Blur) : Sdt → Sdt
  | ⟨cs, pr, n⟩ => ⟨blurSdtChildren B cs, B.sdt pr, n⟩
def blurSdtChild (B : Blur) : SdtChild → SdtChild
  | .run r => .run (blurRun B r)
  | .paragraph p => .paragraph (blurParagraph B p)
  | .table t => .table (blurTable B t)
  | .bookmarkStart i n => .bookmarkStart i n
  | .bookmarkEnd i => .bookmarkEnd i
  | .commentStart i c => .commentStart i (blurComment B c)
  | .commentEnd i => .commentEnd i
  | .sdt s => .sdt (blurSdt B s)
def blurSdtChildren (B : Blur) : List SdtChild → List SdtChild
  | [] => []
  | c :: cs => blurSdtChild B c :: blurSdtChildren B cs
def blurTable (B : Blur) : Table → Table
  | ⟨rs, g, n, pr⟩ => ⟨blurRows B rs, g, n, B.table pr⟩
def blurRow (B : Blur) : Row → Row
  | ⟨cs, n, pr⟩ => ⟨blurCells B cs, n, B.row pr⟩
def blurRows (B : Blur) : List Row → List Row
  | [] => []
  | c :: cs => blurRow B c :: blurRows B cs
def blurCell (B : Blur) : Cell → Cell
  | ⟨cs, pr, n⟩ => ⟨blurCellContents B cs, B.cell pr, n⟩
def blurCells (B : Blur) : List Cell → List Cell
  | [] => []
  | c :: cs => blurCell B c :: blurCells B cs
def blurCellContent (B : Blur) : CellContent → CellContent
  | .paragraph p => .paragraph (blurParagraph B p)
  | .table t => .table (blurTable B t)
  | .sdt s => .sdt (blurSdt B s)
  | .toc t => .toc (blurToc B t)
def blurCellContents (B : Blur) : List CellContent → List CellContent
  | [] => []
  | c :: cs => blurCellContent B c :: blurCellContents B cs
def blurToc (B : Blur) : Toc → Toc
  | ⟨a, b, c, d, e, f, g, bs, as, j, k⟩ =>
    ⟨B.tocInstr a, b.map (blurTocItem B), c, d, e, f, g, blurBlocks B bs, blurBlocks B as, j, k.map B.paragraph⟩

end

def blurHeaderChild (B : Blur) : HeaderChild → HeaderChild
  | .paragraph p => .paragraph (blurParagraph B p)
  | .table t => .table (blurTable B t)
  | .sdt s => .sdt (blurSdt B s)

def blurHeader (B : Blur) (h : Header) : Header := ⟨h.hasNumbering, h.children.map (blurHeaderChild B)⟩

def blurPart (B : Blur) (p : Str × Header) : Str × Header := (p.1, blurHeader B p.2)

def blurSectionProperty (B : Blur) (p : SectionProperty) : SectionProperty :=
  ⟨B.base p.base, p.header.map (blurPart B), p.firstHeader.map (blurPart B), p.evenHeader.map (blurPart B), p.footer.map (blurPart B),
    p.firstFooter.map (blurPart B), p.evenFooter.map (blurPart B)⟩

def blurSectionChild (B : Blur) : SectionChild → SectionChild
  | .paragraph p => .paragraph (blurParagraph B p)
  | .table t => .table (blurTable B t)
  | .bookmarkStart i n => .bookmarkStart i n
  | .bookmarkEnd i => .bookmarkEnd i
  | .commentStart i c => .commentStart i (blurComment B c)
  | .commentEnd i => .commentEnd i
  | .sdt s => .sdt (blurSdt B s)
  | .toc t => .toc (blurToc B t)

def blurSection (B : Blur) (s : Section) : Section :=
  ⟨blurSectionProperty B s.property, s.children.map (blurSectionChild B), s.hasNumbering, s.tempHeader.map (blurHeader B),
    s.tempFirstHeader.map (blurHeader B), s.tempEvenHeader.map (blurHeader B), s.tempFooter.map (blurHeader B),
    s.tempFirstFooter.map (blurHeader B), s.tempEvenFooter.map (blurHeader B)⟩

def blurDocumentChild (B : Blur) : DocumentChild → DocumentChild
  | .paragraph p => .paragraph (blurParagraph B p)
  | .table t => .table (blurTable B t)
  | .bookmarkStart i n => .bookmarkStart i n
  | .bookmarkEnd i => .bookmarkEnd i
  | .commentStart i c => .commentStart i (blurComment B c)
  | .commentEnd i => .commentEnd i
  | .sdt s => .sdt (blurSdt B s)
  | .toc t => .toc (blurToc B t)
  | .section s => .section (blurSection B s)

/-- The document up to what is not compared: the texts of footnotes, and of the leaves what `B` leaves out. -/
def blurDocument (B : Blur) (d : Document) : Document :=
  ⟨d.children.map (blurDocumentChild B), blurSectionProperty B d.sectionProperty, d.hasNumbering⟩

/-! ## What is asked of the leaves -/

/-- The fields of a section other than headers and footers have other names than these. -/
def Leaves.Apart (P : Leaves) : Prop :=
  ∀ b, ∀ f ∈ P.section' b, f.1 ∉ [c!"header", c!"firstHeader", c!"evenHeader", c!"footer", c!"firstFooter", c!"evenFooter"]

/-- The JSON forms of the leaves say what `B` compares. -/
structure Leaves.Say (P : Leaves) (B : Blur) : Prop where
  run : ∀ a b, P.run a = P.run b → B.run a = B.run b
  paragraph : ∀ a b, P.paragraph a = P.paragraph b → B.paragraph a = B.paragraph b
  sdt : ∀ a b, P.sdt a = P.sdt b → B.sdt a = B.sdt b
  table : ∀ a b, P.table a = P.table b → B.table a = B.table b
  row : ∀ a b, P.row a = P.row b → B.row a = B.row b
  cell : ∀ a b, P.cell a = P.cell b → B.cell a = B.cell b
  base : ∀ a b, P.section' a = P.section' b → B.base a = B.base b
  ptab : ∀ a b, P.ptab a = P.ptab b → B.ptab a = B.ptab b
  picture : ∀ a b, P.picture a = P.picture b → B.picture a = B.picture b
  shape : ∀ a b, P.shape a = P.shape b → B.shape a = B.shape b
  instr : ∀ a b, P.instr a = P.instr b → B.instr a = B.instr b
  deleteInstr : ∀ a b, P.deleteInstr a = P.deleteInstr b → B.deleteInstr a = B.deleteInstr b
  tocInstr : ∀ a b, P.tocInstr a = P.tocInstr b → B.tocInstr a = B.tocInstr b
  shading : ∀ a b, P.shading a = P.shading b → B.shading a = B.shading b

/-- Numbers in the leaves are written as numbers. -/
structure Leaves.Ok (P : Leaves) : Prop where
  run : ∀ a, Json.Ok (P.run a)
  paragraph : ∀ a, Json.Ok (P.paragraph a)
  sdt : ∀ a, Json.Ok (P.sdt a)
  table : ∀ a, Json.Ok (P.table a)
  row : ∀ a, Json.Ok (P.row a)
  cell : ∀ a, Json.Ok (P.cell a)
  base : ∀ a, fieldsOk (P.section' a)
  ptab : ∀ a, Json.Ok (P.ptab a)
  picture : ∀ a, Json.Ok (P.picture a)
  box : fieldsOk P.box
  shape : ∀ a, Json.Ok (P.shape a)
  instr : ∀ a, Json.Ok (P.instr a)
  deleteInstr : ∀ a, Json.Ok (P.deleteInstr a)
  tocInstr : ∀ a, Json.Ok (P.tocInstr a)
  shading : ∀ a, Json.Ok (P.shading a)

end Docx.Spec
