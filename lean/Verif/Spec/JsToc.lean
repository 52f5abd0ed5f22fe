import Verif.Model.JsToc
import Verif.Spec.JsStyle
import Verif.Spec.Js

/-!
# Specification: what the methods of a table of contents of the JavaScript interface stand for
-/

namespace Docx.Spec

open Docx

/-- What a method of an entry stands for. -/
def JsTocItemCall.wanted (i : TocItem) : JsTocItemCall → TocItem
  | .text s => { i with text := s }
  | .tocKey s => { i with tocKey := s }
  | .level n => { i with level := n }
  | .pageRef s => { i with pageRef := some s }

/-- What a method of a table of contents stands for, what is put before and behind it aside. -/
def JsTocCall.wanted (t : Toc) : JsTocCall → Toc
  | .headingStylesRange a b => { t with instr := { t.instr with headingStylesRange := some (a, b) } }
  | .tcFieldIdentifier s => { t with instr := { t.instr with tcFieldIdentifier := some s } }
  | .addStyleWithLevel s n => { t with instr := { t.instr with stylesWithLevels := t.instr.stylesWithLevels ++ [(s, n)] } }
  | .hyperlink => { t with instr := { t.instr with hyperlink := true } }
  | .alias s => { t with «alias» := some s }
  | .pageRefPlaceholder s => { t with pageRefPlaceholder := some s }
  | .auto => { t with auto := true }
  | .dirty => { t with dirty := true }
  | .withoutSdt => { t with withoutSdt := true }
  | .delete a d => { t with delete := some ⟨escapeOwned a, d⟩ }
  | .addItem cs => { t with items := t.items ++ [cs.foldl JsTocItemCall.wanted { level := 1 }] }
  | .paragraphProperty cs => { t with paragraphProperty := some (cs.foldl JsFormatCall.wanted {}) }
  | .addBeforeParagraph _ | .addBeforeTable _ | .addAfterParagraph _ | .addAfterTable _ => t

/-- The instruction a table of contents begins with. -/
def startInstr : Option Str → InstrToC
  | some s => .fromStr s
  | none => {}

/-- The table of contents asked for by an instruction and the methods called. -/
def wantedToc (instr : Option Str) (calls : List JsTocCall) : Toc :=
  calls.foldl JsTocCall.wanted { instr := startInstr instr }

/-- The calls on an entry that come through: not the level 0, no empty page. -/
def JsTocItemCall.comesThrough : JsTocItemCall → Prop
  | .level n => n ≠ 0
  | .pageRef s => s ≠ []
  | _ => True

/-- The calls on a table of contents that come through: no empty name and no empty text in place of pages, and
the entries and formatting as they come through. -/
def JsTocCall.comesThrough : JsTocCall → Prop
  | .alias s => s ≠ []
  | .pageRefPlaceholder s => s ≠ []
  | .addItem cs => ∀ c ∈ cs, JsTocItemCall.comesThrough c
  | .paragraphProperty cs => ∀ c ∈ cs, JsFormatCall.comesThrough c
  | _ => True

variable (lib : ImageLib)

/-- What a call puts before a table of contents at a place. -/
def JsTocCall.before (w : List Place) : JsTocCall → List Shown
  | .addBeforeParagraph p => JsParagraph.content lib p
  | .addBeforeTable t => jsTableContent lib (.tocBefore :: w) t
  | _ => []

/-- What a call puts behind a table of contents at a place. -/
def JsTocCall.after (w : List Place) : JsTocCall → List Shown
  | .addAfterParagraph p => JsParagraph.content lib p
  | .addAfterTable t => jsTableContent lib (.tocAfter :: w) t
  | _ => []

/-- What is seen in paragraphs and tables at a place. -/
def blocksContent (w : List Place) (bs : List Block) : List Shown := (Walk.within inPart (walkBlocks w bs)).flatMap Item.shown

end Docx.Spec
