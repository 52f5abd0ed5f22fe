import Verif.Spec.SectionItems
import Verif.Spec.Instr
import Verif.Model.Instr
import Verif.Spec.TocSpread
import Verif.Spec.Bare

/-!
# Tables of contents as they are given, and as they are read
-/

namespace Docx.Spec

/-- A paragraph or a table given by an item. -/
def blockOf : BodyItem → Block
  | .paragraph id property parts => .paragraph (paragraphOf id property parts)
  | .table rows => .table (Table.new (rowsOf rows))

/-- What is needed of a table of contents: it has entries or is not to be filled in, it was not deleted, what is before and behind it is given by
items that can be read back, the instruction can be read, and names have no character that would have to be escaped. -/
structure KeptToc (t : Toc) (before after : List BodyItem) : Prop where
  isBefore : t.before = before.map blockOf
  isAfter : t.after = after.map blockOf
  keptBefore : ∀ i ∈ before, KeptItem i
  keptAfter : ∀ i ∈ after, KeptItem i
  given : t.items ≠ [] ∨ t.auto = false
  still : t.delete = none
  instr : TocReadable t.instr
  names : ∀ s ∈ t.instr.strings, PlainValue s
  keys : ∀ i ∈ t.items, PlainValue i.tocKey
  «alias» : ∀ s, t.alias = some s → PlainValue s
  property : ∀ p, t.paragraphProperty = some p → ParagraphProperty.Kept p

/-- The run that opens the field of a table of contents. Parsing the instruction in it gives `i`. -/
def OpensField (dirty : Bool) (i : InstrToC) (c : ParagraphChild) : Prop :=
  ∃ s, c = .run { children := [.fieldChar .begin dirty, .instrTextString s, .fieldChar .separate false] } ∧ InstrToC.fromStr s = i

/-- The run that ends a field. -/
def endOfField : ParagraphChild := .run { children := [.fieldChar .end_ false] }

/-- The text of an entry, a tab, and the number of its page in a field that refers to the page. -/
def entryRuns (key text page : Str) : List ParagraphChild :=
  [.run { children := (afterText text).map .text },
   .run { children := [.tab] },
   .run { children := [.fieldChar .begin false, .instrTextString (c!"PAGEREF " ++ key ++ c!" \\h"), .fieldChar .separate false]
      ++ (afterText page).map .text ++ [.fieldChar .end_ false] }]

/-- The paragraph of an entry: `opening` is before what it shows, which is a link if the instruction asks for links. -/
def EntryRead (t : Toc) (opening : List ParagraphChild) (i : TocItem) (p : Paragraph) : Prop :=
  let page := (i.pageRef.or t.pageRefPlaceholder).getD c!"1"
  let shown := entryRuns i.tocKey i.text page
  p.property.base.style = some (c!"ToC" ++ dec i.level) ∧
  p.children = opening ++ (if t.instr.hyperlink then [.hyperlink { link := .anchor i.tocKey, history := some 1, children := shown }] else shown)

/-- The paragraphs of the entries: the first one opens the field, and a last one, in the style of the last entry, ends it. -/
def EntriesRead (t : Toc) (i : InstrToC) (ps : List Paragraph) : Prop :=
  ∃ first rest last, ps = first :: rest ++ [last] ∧
    (∃ c e, t.items.head? = some e ∧ OpensField t.dirty i c ∧ EntryRead t [c] e first) ∧
    List.Forall₂ (EntryRead t []) t.items.tail rest ∧
    (∃ e, t.items.getLast? = some e ∧ last.property.base.style = some (c!"ToC" ++ dec e.level)) ∧ last.children = [endOfField]

/-- The items of paragraphs and tables. -/
def seenBlocks (bs : List Block) : Option (List BodyItem) := allThere (bs.map fun b => seenChild b.inBody)

/-- What is behind the entries: a line with nothing in it is put before a table. -/
def behindEntries (after : List BodyItem) : List BodyItem :=
  match after with
  | .table rows :: is => .paragraph [] {} [.run ({}, [])] :: .table rows :: is
  | is => is

/-- A table of contents with entries, as it is read: what is before it, the entries and what is behind it, in this order. The entries are in a content
control. What is before them is in it too, if the table is to be in a content control; what is behind them is not. -/
def TableRead (t : Toc) (i : InstrToC) (before after : List BodyItem) (cs : List DocumentChild) : Prop :=
  ∃ front entries back, seenBlocks front = some before ∧ EntriesRead t i entries ∧ seenBlocks back = some after ∧
    cs = if t.withoutSdt then front.map Block.inBody ++ .sdt { children := entries.map .paragraph } :: back.map Block.inBody
      else .sdt { children := front.map Block.inControl ++ entries.map .paragraph } :: back.map Block.inBody

/-- What is behind the instruction of a table of contents without entries: the field ends at the start of the first paragraph, or in a paragraph of its
own. If there is a table, the field does not end. -/
def TailRead (after : List BodyItem) (back : List Block) : Prop :=
  match after with
  | [] => ∃ p, back = [.paragraph p] ∧ p.children = [endOfField]
  | .paragraph id property parts :: is =>
    ∃ (p : Paragraph) (cs : List ParagraphChild) (bs : List Block), back = .paragraph { p with children := endOfField :: cs } :: bs ∧
      seenBlocks (.paragraph { p with children := cs } :: bs) = some (.paragraph id property parts :: is)
  | .table rows :: is => seenBlocks back = some (.paragraph [] {} [.run ({}, [])] :: .table rows :: is)

/-- A table of contents without entries, as it is read: what is before it, a paragraph that opens the field, and what is behind it. -/
def FieldRead (t : Toc) (i : InstrToC) (before after : List BodyItem) (cs : List DocumentChild) : Prop :=
  ∃ front start back c, seenBlocks front = some before ∧ start.children = [c] ∧ OpensField true i c ∧
    start.property = t.paragraphProperty.getD {} ∧ TailRead after back ∧
    cs = if t.withoutSdt then (front ++ .paragraph start :: back).map Block.inBody
      else [.sdt { children := (front ++ .paragraph start :: back).map Block.inControl }]

/-- A paragraph or a table, or a table of contents with what is given before and behind it. -/
inductive TocBook where
  | item (i : BodyItem)
  | toc (t : Toc) (before after : List BodyItem)

/-- The child of a document is this. -/
def TocBook.Is : TocBook → DocumentChild → Prop
  | .item i, c => BookItem.Is (.item i) c
  | .toc t _ _, c => c = .toc t

/-- This can be read back. -/
def TocBook.Kept : TocBook → Prop
  | .item i => KeptItem i
  | .toc t before after => KeptToc t before after

/-- What is read, without ids of paragraphs; `instr` is what is read of an instruction. -/
def TocBook.ReadAs (instr : InstrToC → InstrToC) : TocBook → List DocumentChild → Prop
  | .item i, cs => allThere (cs.map seenChild) = some (dropIds (afterItems [i]))
  | .toc t before after, cs =>
    if t.items = [] then FieldRead t (instr t.instr) (dropIds (afterItems before)) (dropIds (afterItems after)) cs
    else TableRead t (instr t.instr) (dropIds (afterItems before)) (behindEntries (dropIds (afterItems after))) cs

end Docx.Spec
