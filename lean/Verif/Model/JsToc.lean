import Verif.Model.JsStyle
import Verif.Model.Instr

/-!
# Tables of contents made in JavaScript

`TableOfContents` and `TableOfContentsItem` of docx-wasm/js and how they are handed to the Rust library.
-/

namespace Docx

/-- `TableOfContentsItem`. docx-wasm/js/table-of-contents-item.ts:3-7. -/
structure JsTocItem where
  text : Str := []
  tocKey : Str := []
  level : Nat := 1
  pageRef : Str := []

/-- Its methods. docx-wasm/js/table-of-contents-item.ts:9-27. -/
inductive JsTocItemCall where
  | text (s : Str) | tocKey (s : Str) | level (n : Nat) | pageRef (s : Str)

/-- One of them. docx-wasm/js/table-of-contents-item.ts:9-27. -/
def JsTocItem.call (i : JsTocItem) : JsTocItemCall → JsTocItem
  | .text s => { i with text := s }
  | .tocKey s => { i with tocKey := s }
  | .level n => { i with level := n }
  | .pageRef s => { i with pageRef := s }

/-- `TableOfContentsItem.buildWasmObject`: what is empty or 0 is not handed over. docx-wasm/js/table-of-contents-item.ts:29-48,
docx-wasm/src/table_of_contents_item.rs:7-40, elements/table_of_contents_item.rs:19-24. -/
def JsTocItem.build (i : JsTocItem) : TocItem :=
  ({} : TocItem)
    |> onSome (truthy (some i.text)) (fun t s => { t with text := s })
    |> onSome (truthy (some i.tocKey)) (fun t s => { t with tocKey := s })
    |> onSome ((some i.level).filter (· ≠ 0)) (fun t n => { t with level := n })
    |> onSome (truthy (some i.pageRef)) (fun t s => { t with pageRef := some s })

/-- What may stand before and behind the entries. docx-wasm/js/table-of-contents.ts:21-22. -/
inductive JsBlock where
  | paragraph (p : JsParagraph)
  | table (t : JsTable)

/-- `TableOfContents`. docx-wasm/js/table-of-contents.ts:11-30. -/
structure JsToc where
  instrText : Option Str := none
  headingStylesRange : Option (Nat × Nat) := none
  styleWithLevels : List (Str × Nat) := []
  hyperlink : Bool := false
  «alias» : Str := []
  auto : Bool := false
  withoutSdt : Bool := false
  dirty : Bool := false
  items : List JsTocItem := []
  pageRefPlaceholder : Str := []
  before : List JsBlock := []
  after : List JsBlock := []
  delete : Option (Str × Str) := none
  paragraphProperty : Option JsParagraphProperty := none
  tcFieldIdentifier : Option (Option Str) := none

/-- The methods of `TableOfContents`. docx-wasm/js/table-of-contents.ts:32-110. Simplification: an item and the record given to
`paragraphProperty` are given by the methods called on a new one, all of them before it is handed over. -/
inductive JsTocCall where
  | addBeforeParagraph (p : JsParagraph) | addBeforeTable (t : JsTable) | addAfterParagraph (p : JsParagraph) | addAfterTable (t : JsTable)
  | headingStylesRange (a b : Nat) | tcFieldIdentifier (s : Option Str) | addStyleWithLevel (s : Str) (level : Nat) | hyperlink
  | alias (s : Str) | pageRefPlaceholder (s : Str) | auto | dirty | withoutSdt | delete (author date : Str)
  | addItem (calls : List JsTocItemCall) | paragraphProperty (calls : List JsFormatCall)

/-- One of them. docx-wasm/js/table-of-contents.ts:32-110. -/
def JsToc.call (t : JsToc) : JsTocCall → JsToc
  | .addBeforeParagraph p => { t with before := t.before ++ [.paragraph p] }
  | .addBeforeTable b => { t with before := t.before ++ [.table b] }
  | .addAfterParagraph p => { t with after := t.after ++ [.paragraph p] }
  | .addAfterTable b => { t with after := t.after ++ [.table b] }
  | .headingStylesRange a b => { t with headingStylesRange := some (a, b) }
  | .tcFieldIdentifier s => { t with tcFieldIdentifier := some s }
  | .addStyleWithLevel s n => { t with styleWithLevels := t.styleWithLevels ++ [(s, n)] }
  | .hyperlink => { t with hyperlink := true }
  | .alias s => { t with «alias» := s }
  | .pageRefPlaceholder s => { t with pageRefPlaceholder := s }
  | .auto => { t with auto := true }
  | .dirty => { t with dirty := true }
  | .withoutSdt => { t with withoutSdt := true }
  | .delete a d => { t with delete := some (a, d) }
  | .addItem cs => { t with items := t.items ++ [cs.foldl JsTocItem.call {}] }
  | .paragraphProperty cs => { t with paragraphProperty := some (cs.foldl JsParagraphProperty.ownCall {}) }

variable (lib : ImageLib)

/-- One paragraph or table before or behind the entries. docx-wasm/js/table-of-contents.ts:163-177. -/
def JsBlock.build : JsBlock → Making Block
  | .paragraph p => fun n => let x := jsParagraph lib p n; (.paragraph x.1, x.2)
  | .table t => fun n => let x := jsTable lib t n; (.table x.1, x.2)

/-- The loops over them. docx-wasm/js/table-of-contents.ts:163-177, docx-wasm/src/table_of_contents.rs:84-102,
elements/table_of_contents.rs:134-154. -/
def jsBlocks : List JsBlock → Making (List Block)
  | [], n => ([], n)
  | b :: bs, n => let x := b.build lib n; let y := jsBlocks bs x.2; (x.1 :: y.1, y.2)

/-- How the Rust object begins: with the instruction, if one was given. docx-wasm/js/table-of-contents.ts:113-115,
elements/table_of_contents.rs:69-80, elements/instr_toc.rs:78-80. -/
def JsToc.start (t : JsToc) : Toc :=
  match truthy t.instrText with
  | some s => { instr := .fromStr s }
  | none => {}

/-- `TableOfContents.buildWasmObject`. docx-wasm/js/table-of-contents.ts:112-187, docx-wasm/src/table_of_contents.rs:7-109,
elements/table_of_contents.rs:69-80,106-112, elements/instr_toc.rs:73-101,160-163. -/
def JsToc.build (t : JsToc) : Making Toc := fun n =>
  let made := t.start
    |> onSome t.headingStylesRange (fun m x => { m with instr := { m.instr with headingStylesRange := some x } })
    |> onTrue (some t.hyperlink) (fun m => { m with instr := { m.instr with hyperlink := true } })
    |> onSome (truthy (some t.alias)) (fun m s => { m with «alias» := some s })
    |> onTrue (some t.auto) (fun m => { m with auto := true })
    |> onTrue (some t.dirty) (fun m => { m with dirty := true })
    |> onTrue (some t.withoutSdt) (fun m => { m with withoutSdt := true })
    |> onSome (truthy (some t.pageRefPlaceholder)) (fun m s => { m with pageRefPlaceholder := some s })
    |> onSome t.delete (fun m x => { m with delete := some ⟨escapeOwned x.1, x.2⟩ })
    |> onSome t.tcFieldIdentifier (fun m x => { m with instr := { m.instr with tcFieldIdentifier := some x } })
  let made := t.styleWithLevels.foldl (fun (m : Toc) x => { m with instr := { m.instr with stylesWithLevels := m.instr.stylesWithLevels ++ [x] } }) made
  let made := t.items.foldl (fun (m : Toc) x => { m with items := m.items ++ [x.build] }) made
  let x := jsBlocks lib t.before n
  let y := jsBlocks lib t.after x.2
  (onSome t.paragraphProperty (fun m p => { m with paragraphProperty := some (createParagraphProperty p) }) { made with before := x.1, after := y.1 }, y.2)

end Docx
