import Verif.Model.Build

/-!
# The tables of contents of a document, spread out

A table of contents is written as paragraphs: those given before it, those of its entries (or one with nothing but the instruction), and
those given behind it, some of them in a content control. The numbers `ids n` are those drawn for the paragraphs that have none yet.
-/

namespace Docx.Spec

/-- The run that opens the field. -/
def tocFieldRun (dirty : Bool) (i : InstrToC) : Run :=
  { children := [.fieldChar .begin dirty, .instrText (.toc i), .fieldChar .separate false] }

/-- The paragraph that opens the field of a table without entries. -/
def tocStart (id : Str) (t : Toc) : Paragraph where
  id := id
  property := t.paragraphProperty.getD {}
  children := match t.delete with
    | none => [.run (tocFieldRun true t.instr)]
    | some m => [.delete {
        author := escape m.author, date := m.date
        children := [.run { children := [.fieldChar .begin true, .deleteInstrText (.toc t.instr), .fieldChar .separate false] }] }]

/-- Text, tab and number of the page of an entry. -/
def tocEntryRuns (t : TocItem) : List ParagraphChild :=
  [.run { children := [.text (textOf t.text)] }, .run { children := [.tab] }, .run (pageRefRun t)]

/-- The paragraph of an entry. -/
def entryParagraph (id : Str) (first : Bool) (t : TocItem) : Paragraph where
  id := id
  property := styleProperty (c!"ToC" ++ dec t.level) [tocTab]
  children := (if first then [.run (tocFieldRun t.dirty t.instr)] else []) ++
    (if t.instr.hyperlink then [.hyperlink { link := .anchor t.tocKey, children := tocEntryRuns t }] else tocEntryRuns t)

/-- The paragraph behind the last entry, which ends the field. -/
def closingParagraph (id : Str) (t : TocItem) : Paragraph where
  id := id
  property := styleProperty (c!"ToC" ++ dec t.level)
  children := [.run fieldEndRun]

/-- The paragraphs of the entries. -/
def entryParagraphs : (Nat → Str) → Bool → List TocItem → List Paragraph
  | _, _, [] => []
  | ids, first, [t] => [entryParagraph (ids 0) first t, closingParagraph (ids 1) t]
  | ids, first, t :: ts => entryParagraph (ids 0) first t :: entryParagraphs (fun n => ids (n + 1)) false ts

/-- A line with nothing in it. -/
def emptyLine (id : Str) : Paragraph := { id := id, children := [.run { children := [.text (textOf [])] }] }

/-- What is behind the entries: a line is put before a table. -/
def tocBehind (id : Str) : List Block → List Block
  | .table t :: bs => .paragraph (emptyLine id) :: .table t :: bs
  | bs => bs

/-- What is behind the instruction of a table without entries: the field ends in the first paragraph, in one of its own if there is
nothing, and not at all if there is a table. -/
def fieldTail (id id' : Str) : List Block → List Block
  | [] => [.paragraph { id := id, children := [.run fieldEndRun] }]
  | .paragraph p :: bs => .paragraph { p with children := .run fieldEndRun :: p.children } :: bs
  | .table t :: bs => .paragraph (emptyLine id') :: .table t :: bs

/-- The same, in the body. -/
def _root_.Docx.Block.inBody : Block → DocumentChild
  | .paragraph p => .paragraph p
  | .table t => .table t

/-- The same, in a content control. -/
def _root_.Docx.Block.inControl : Block → SdtChild
  | .paragraph p => .paragraph p
  | .table t => .table t

/-- The content control around it. -/
def tocControl (alias : Option Str) (bs : List Block) : DocumentChild :=
  .sdt { children := bs.map Block.inControl, property := { alias := alias } }

/-- The table of contents, as paragraphs and content controls. -/
def _root_.Docx.Toc.spread (ids : Nat → Str) (t : Toc) : List DocumentChild :=
  match t.items with
  | [] =>
    let all := t.before ++ .paragraph (tocStart (ids 0) t) :: fieldTail (ids 1) (ids 2) t.after
    if t.withoutSdt then all.map Block.inBody else [tocControl t.alias all]
  | item :: items =>
    let entries := (entryParagraphs (fun n => ids (n + 1)) true (tocPreparedItems t.instr t.dirty t.pageRefPlaceholder (item :: items))).map Block.paragraph
    let behind := (tocBehind (ids 0) t.after).map Block.inBody
    if t.withoutSdt then t.before.map Block.inBody ++ tocControl none entries :: behind
    else tocControl t.alias (t.before ++ entries) :: behind

/-- A table of contents becomes paragraphs and content controls; everything else stays as it is. -/
def _root_.Docx.DocumentChild.flatAs (ids : Nat → Str) : DocumentChild → List DocumentChild
  | .toc t => t.spread ids
  | c => [c]

/-- The same for everything in a body. -/
def flatAll : (Nat → Nat → Str) → List DocumentChild → List DocumentChild
  | _, [] => []
  | ids, c :: cs => c.flatAs (ids 0) ++ flatAll (fun n => ids (n + 1)) cs

end Docx.Spec
