import Verif.Model.Api
import Verif.Spec.KeptParagraph

/-!
# Specification: a body as the caller thinks of it

`BodyItem` says what is in a body: paragraphs with runs, tracked changes, bookmarks and links, and tables of
cells that hold such items again. `bodyOf` puts a body together through the building interface.
`seenItems` says what is in a given document. Nothing here refers to the writer or the reader.
-/

namespace Docx.Spec

/-- What is in a run. -/
inductive RunPiece where
  | text (t : Str)
  | deletedText (t : Str)
  | tab
  | brk (kind : BreakType)
  | carriageReturn
deriving DecidableEq

/-- A run: its formatting and its pieces. -/
abbrev RunItem := RunProperty × List RunPiece

/-- What is in a paragraph. -/
inductive ParagraphPart where
  | run (r : RunItem)
  | inserted (author date : Str) (runs : List RunItem)
  | deleted (author date : Str) (runs : List RunItem)
  | bookmarkStart (id : Nat) (name : Str)
  | bookmarkEnd (id : Nat)
  | link (anchor : Str) (runs : List RunItem)

/-- What is in a body: a paragraph with its id, formatting and parts, or a table given by its rows, each a list
of cells, each a list of items. -/
inductive BodyItem where
  | paragraph (id : Str) (property : ParagraphProperty) (parts : List ParagraphPart)
  | table (rows : List (List (List BodyItem)))

/-! ## Building -/

/-- One piece added to a run. -/
def RunPiece.add (r : Run) : RunPiece → Run
  | .text t => r.addText t
  | .deletedText t => r.addDeleteText t
  | .tab => r.addTab
  | .brk kind => r.addBreak kind
  | .carriageReturn => r.addCarriageReturn

/-- The run. -/
def runOfItem (r : RunItem) : Run := r.2.foldl RunPiece.add { property := r.1 }

/-- One part added to a paragraph. -/
def ParagraphPart.add (p : Paragraph) : ParagraphPart → Paragraph
  | .run r => p.addRun (runOfItem r)
  | .inserted author date runs =>
    p.addChild (.insert ((runs.foldl (fun i r => i.addRun (runOfItem r)) ({} : Insert)).setAuthor author |>.setDate date))
  | .deleted author date runs =>
    p.addChild (.delete ((runs.foldl (fun i r => i.addRun (runOfItem r)) ({} : Delete)).setAuthor author |>.setDate date))
  | .bookmarkStart id name => p.addChild (.bookmarkStart id name)
  | .bookmarkEnd id => p.addChild (.bookmarkEnd id)
  | .link anchor runs =>
    p.addChild (.hyperlink (runs.foldl (fun h r => h.addChild (.run (runOfItem r))) (Hyperlink.new 0 anchor .anchor)))

/-- The paragraph. -/
def paragraphOf (id : Str) (property : ParagraphProperty) (parts : List ParagraphPart) : Paragraph :=
  parts.foldl ParagraphPart.add ((Paragraph.new id).format fun _ => property)

mutual
/-- One item added to a cell. -/
def BodyItem.addTo (c : Cell) : BodyItem → Cell
  | .paragraph id property parts => c.addParagraph (paragraphOf id property parts)
  | .table rows => c.addTable (Table.new (rowsOf rows))
/-- Items added to a cell. -/
def addItems (c : Cell) : List BodyItem → Cell
  | [] => c
  | i :: is => addItems (i.addTo c) is
/-- The cells. -/
def cellsOf : List (List BodyItem) → List Cell
  | [] => []
  | c :: cs => addItems {} c :: cellsOf cs
/-- The rows. -/
def rowsOf : List (List (List BodyItem)) → List Row
  | [] => []
  | r :: rs => Row.new (cellsOf r) :: rowsOf rs
end

/-- The document with these items. -/
def bodyOf (items : List BodyItem) : Document :=
  items.foldl (fun d i => match i with
    | .paragraph id property parts => d.addParagraph (paragraphOf id property parts)
    | .table rows => d.addTable (Table.new (rowsOf rows))) {}

/-! ## Looking -/

/-- All of them, if each is there. -/
def allThere {α : Type} : List (Option α) → Option (List α)
  | [] => some []
  | a :: l => match a, allThere l with
    | some a, some l => some (a :: l)
    | _, _ => none

/-- The piece a child of a run stands for, its text taken as it is. -/
def seenPiece : RunChild → Option RunPiece
  | .text t => some (.text t)
  | .deleteText t => some (.deletedText t)
  | .tab => some .tab
  | .brk kind => some (.brk kind)
  | .carriageReturn => some .carriageReturn
  | _ => none

/-- The run. -/
def seenRun (r : Run) : Option RunItem := (allThere (r.children.map seenPiece)).map fun ps => (r.property, ps)

/-- The part of a paragraph. -/
def seenPart : ParagraphChild → Option ParagraphPart
  | .run r => (seenRun r).map .run
  | .insert ⟨author, date, children⟩ =>
    (allThere (children.map fun | .run r => seenRun r | _ => none)).map (.inserted author date)
  | .delete ⟨author, date, children⟩ =>
    (allThere (children.map fun | .run r => seenRun r | _ => none)).map (.deleted author date)
  | .bookmarkStart id name => some (.bookmarkStart id name)
  | .bookmarkEnd id => some (.bookmarkEnd id)
  | .hyperlink ⟨.anchor a, _, children⟩ =>
    (allThere (children.map fun | .run r => seenRun r | _ => none)).map (.link a)
  | _ => none

/-- The paragraph. -/
def seenParagraph (p : Paragraph) : Option BodyItem :=
  (allThere (p.children.map seenPart)).map (.paragraph p.id p.property)

mutual
/-- The rows of a table. -/
def seenRows : List Row → Option (List (List (List BodyItem)))
  | [] => some []
  | ⟨cells, _, _⟩ :: rs => match seenCells cells, seenRows rs with
    | some r, some rs => some (r :: rs)
    | _, _ => none
/-- The cells of a row. -/
def seenCells : List Cell → Option (List (List BodyItem))
  | [] => some []
  | ⟨children, _, _⟩ :: cs => match seenContents children, seenCells cs with
    | some c, some cs => some (c :: cs)
    | _, _ => none
/-- The content of a cell. -/
def seenContents : List CellContent → Option (List BodyItem)
  | [] => some []
  | .paragraph p :: cs => match seenParagraph p, seenContents cs with
    | some c, some cs => some (c :: cs)
    | _, _ => none
  | .table ⟨rows, _, _, _⟩ :: cs => match seenRows rows, seenContents cs with
    | some t, some cs => some (.table t :: cs)
    | _, _ => none
  | _ :: _ => none
end

/-- The item a child of a document stands for. -/
def seenChild : DocumentChild → Option BodyItem
  | .paragraph p => seenParagraph p
  | .table ⟨rows, _, _, _⟩ => (seenRows rows).map .table
  | _ => none

/-- The items of a document. -/
def seenItems (d : Document) : Option (List BodyItem) := allThere (d.children.map seenChild)

/-! ## What can be read back -/

/-- A run that can be read back: its formatting survives. -/
def KeptRun (r : RunItem) : Prop := RunProperty.Kept r.1

/-- A part of a paragraph that can be read back: no character in a name that would have to be escaped. -/
def KeptPart : ParagraphPart → Prop
  | .run r => KeptRun r
  | .inserted author date runs => PlainName author ∧ PlainValue date ∧ ∀ r ∈ runs, KeptRun r
  | .deleted author date runs => PlainName author ∧ PlainValue date ∧ ∀ r ∈ runs, KeptRun r
  | .bookmarkStart id name => id < 2 ^ 64 ∧ PlainValue name
  | .bookmarkEnd id => id < 2 ^ 64
  | .link anchor runs => PlainValue anchor ∧ ∀ r ∈ runs, KeptRun r
where
  /-- A name without characters that are escaped. -/
  PlainName (s : Str) : Prop := PlainValue s ∧ '>' ∉ s ∧ '\'' ∉ s

mutual
/-- An item that can be read back. -/
def KeptItem : BodyItem → Prop
  | .paragraph id property parts => PlainValue id ∧ ParagraphProperty.Kept property ∧ ∀ p ∈ parts, KeptPart p
  | .table rows => KeptRows rows
/-- Rows that can be read back. -/
def KeptRows : List (List (List BodyItem)) → Prop
  | [] => True
  | r :: rs => KeptCells r ∧ KeptRows rs
/-- Cells that can be read back: they hold something other than a single table. -/
def KeptCells : List (List BodyItem) → Prop
  | [] => True
  | c :: cs => (c ≠ [] ∧ ∀ rows, c ≠ [.table rows]) ∧ KeptItems c ∧ KeptCells cs
/-- Items that can be read back. -/
def KeptItems : List BodyItem → Prop
  | [] => True
  | i :: is => KeptItem i ∧ KeptItems is
end

/-! ## Texts -/

/-- The text in a piece. -/
def RunPiece.texts : RunPiece → List Str
  | .text t | .deletedText t => [t]
  | _ => []

/-- The texts in a part of a paragraph. -/
def ParagraphPart.texts : ParagraphPart → List Str
  | .run r => r.2.flatMap RunPiece.texts
  | .inserted _ _ runs | .deleted _ _ runs | .link _ runs => runs.flatMap fun r => r.2.flatMap RunPiece.texts
  | .bookmarkStart _ _ | .bookmarkEnd _ => []

mutual
/-- The texts in items. -/
def textsOf : List BodyItem → List Str
  | [] => []
  | .paragraph _ _ parts :: is => parts.flatMap ParagraphPart.texts ++ textsOf is
  | .table rows :: is => textsOfRows rows ++ textsOf is
/-- The texts in rows. -/
def textsOfRows : List (List (List BodyItem)) → List Str
  | [] => []
  | r :: rs => textsOfCells r ++ textsOfRows rs
/-- The texts in cells. -/
def textsOfCells : List (List BodyItem) → List Str
  | [] => []
  | c :: cs => textsOf c ++ textsOfCells cs
end

/-- No entity reference, taken literally, anywhere in the text. -/
def NoEntity (t : Str) : Prop :=
  ∀ e ∈ [c!"&lt;", c!"&gt;", c!"&amp;", c!"&quot;", c!"&#39;", c!"&apos;", c!"&nbsp;"], ¬ e <:+: t

/-- A text that survives: not empty, one line, no literal entity reference. -/
def BodyText (t : Str) : Prop := t ≠ [] ∧ '\n' ∉ t ∧ '\r' ∉ t ∧ NoEntity t

/-- What becomes of a text: line ends are gone, entity references that the text shows are taken for the characters they
name, and a text of which nothing is left is left out. -/
def afterText (t : Str) : List Str :=
  let u := t.filter fun c => c ≠ '\n' ∧ c ≠ '\r'
  if u = [] then [] else [replaceEscaped u]

/-- What becomes of a piece. -/
def RunPiece.after : RunPiece → List RunPiece
  | .text t => (afterText t).map .text
  | .deletedText t => (afterText t).map .deletedText
  | a => [a]

/-- What becomes of a run. -/
def afterRun (r : RunItem) : RunItem := (r.1, r.2.flatMap RunPiece.after)

/-- What becomes of a part of a paragraph. -/
def ParagraphPart.after : ParagraphPart → ParagraphPart
  | .run r => .run (afterRun r)
  | .inserted author date runs => .inserted author date (runs.map afterRun)
  | .deleted author date runs => .deleted author date (runs.map afterRun)
  | .link anchor runs => .link anchor (runs.map afterRun)
  | a => a

mutual
/-- What becomes of items. -/
def afterItems : List BodyItem → List BodyItem
  | [] => []
  | .paragraph id property parts :: is => .paragraph id property (parts.map ParagraphPart.after) :: afterItems is
  | .table rows :: is => .table (afterRows rows) :: afterItems is
/-- What becomes of rows. -/
def afterRows : List (List (List BodyItem)) → List (List (List BodyItem))
  | [] => []
  | r :: rs => afterCells r :: afterRows rs
/-- What becomes of cells. -/
def afterCells : List (List BodyItem) → List (List BodyItem)
  | [] => []
  | c :: cs => afterItems c :: afterCells cs
end

end Docx.Spec
