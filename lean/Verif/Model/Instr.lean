import Verif.Model.Build
import Verif.Model.Numbers

/-!
# Field instructions read from text (`FromStr` of `docx-core/src/documents/elements/instr_*.rs`)
-/

namespace Docx

/-- `r.replace("&quot;", "").replace('\"', "")`. elements/instr_toc.rs:291. -/
def unquote (s : Str) : Str := removeAll ['"'] (removeAll c!"&quot;" s)

/-- `parse_level_range`. elements/instr_toc.rs:268-281. -/
def parseLevelRange (s : Str) : Option (Nat × Nat) :=
  match splitOn '-' (unquote s) with
  | a :: b :: _ =>
    match parseUsize a, parseUsize b with
    | some x, some y => some (x, y)
    | _, _ => none
  | _ => none

/-- The loop over the comma-separated pairs of `\t`: it ends at the first pair without a level.
elements/instr_toc.rs:364-378. -/
def stylePairs : List Str → List (Str × Nat)
  | style :: level :: r =>
    match parseUsize level with
    | some l => (style, l) :: stylePairs r
    | none => []
  | _ => []

/-- The switches that take the next piece as their argument, apart from `\f`. elements/instr_toc.rs:289-381. -/
def tocArgSwitches : List Str :=
  [c!"\\a", c!"\\b", c!"\\c", c!"\\d", c!"\\l", c!"\\n", c!"\\o", c!"\\p", c!"\\s", c!"\\t"]

/-- A switch with its argument. elements/instr_toc.rs:289-312,332-381. -/
def tocArgument (switch r : Str) (t : InstrToC) : InstrToC :=
  if switch = c!"\\a" then { t with captionLabel := some (unquote r) }
  else if switch = c!"\\b" then { t with entryBookmarkName := some (unquote r) }
  else if switch = c!"\\c" then { t with captionLabelIncludingNumbers := some (unquote r) }
  else if switch = c!"\\d" then { t with sequenceAndPageNumbersSeparator := some (unquote r) }
  else if switch = c!"\\l" then
    { t with tcFieldLevelRange := (parseLevelRange r).or t.tcFieldLevelRange }
  else if switch = c!"\\n" then
    { t with omitPageNumbersLevelRange := (parseLevelRange r).or t.omitPageNumbersLevelRange }
  else if switch = c!"\\o" then
    { t with headingStylesRange := (parseLevelRange r).or t.headingStylesRange }
  else if switch = c!"\\p" then { t with entryAndPageNumberSeparator := some (unquote r) }
  else if switch = c!"\\s" then { t with seqFieldIdentifierForPrefix := some (unquote r) }
  else if switch = c!"\\t" then
    { t with stylesWithLevels := t.stylesWithLevels ++ stylePairs (splitOn ',' (unquote r)) }
  else t

/-- A switch without argument; anything else is ignored. elements/instr_toc.rs:331,382-386. -/
def tocFlag (switch : Str) (t : InstrToC) : InstrToC :=
  if switch = c!"\\h" then { t with hyperlink := true }
  else if switch = c!"\\u" then { t with useAppliedParagraphLineLevel := true }
  else if switch = c!"\\w" then { t with preserveTab := true }
  else if switch = c!"\\x" then { t with preserveNewLine := true }
  else if switch = c!"\\z" then { t with hideTabAndPageNumbersInWebview := true }
  else t

/-- The loop over the pieces between spaces. `\f` looks at the next piece and does nothing when there is none.
elements/instr_toc.rs:285-391. -/
def tocPieces : List Str → InstrToC → InstrToC
  | [], t => t
  | [i], t => tocFlag i t
  | i :: r :: s, t =>
    if i ∈ tocArgSwitches then tocPieces s (tocArgument i r t)
    else if i = c!"\\f" then
      if r.head? = some '\\' then tocPieces (r :: s) { t with tcFieldIdentifier := some none }
      else tocPieces s { t with tcFieldIdentifier := some (if unquote r = [] then none else some (unquote r)) }
    else tocPieces (r :: s) (tocFlag i t)

/-- `InstrToC::from_str`. elements/instr_toc.rs:283-393. -/
def InstrToC.fromStr (s : Str) : InstrToC := tocPieces (splitOn ' ' s) {}

/-- The loop of `InstrTC::from_str`. elements/instr_tc.rs:86-108; `parse_level` 70-76. -/
def tcPieces : List Str → InstrTC → InstrTC
  | [], t => t
  | [i], t => if i = c!"\\n" then { t with omitsPageNumber := true } else t
  | i :: r :: s, t =>
    if i = c!"\\f" then tcPieces s { t with itemTypeIdentifier := some (unquote r) }
    else if i = c!"\\l" then tcPieces s { t with level := (parseUsize (unquote r)).or t.level }
    else if i = c!"\\n" then tcPieces (r :: s) { t with omitsPageNumber := true }
    else tcPieces (r :: s) t

/-- `InstrTC::from_str`: the first piece is taken as the text. elements/instr_tc.rs:81-109. -/
def InstrTC.fromStr (s : Str) : InstrTC :=
  match splitOn ' ' s with
  | [] => { text := escapeOwned [] }
  | text :: r => tcPieces r { text := escapeOwned text }

/-- The loop of `InstrHyperlink::from_str`. elements/instr_hyperlink.rs:36-60. -/
def hyperlinkPieces : List Str → Str → Bool → Str × Bool
  | [], target, anchor => (target, anchor)
  | [i], target, anchor =>
    if i = c!"\\l" then (target, true)
    else if i ∈ [c!"\\m", c!"\\n", c!"\\o", c!"\\t"] then (target, anchor)
    else (unquote i, anchor)
  | i :: r :: s, target, anchor =>
    if i = c!"\\l" then hyperlinkPieces (r :: s) target true
    else if i = c!"\\m" ∨ i = c!"\\n" then hyperlinkPieces (r :: s) target anchor
    else if i = c!"\\o" ∨ i = c!"\\t" then hyperlinkPieces s target anchor
    else hyperlinkPieces (r :: s) (unquote i) anchor

/-- `InstrHyperlink::from_str`: fails when no target is found. elements/instr_hyperlink.rs:31-69. -/
def InstrHyperlink.fromStr (s : Str) : Option InstrHyperlink :=
  let r := hyperlinkPieces (splitOn ' ' s) [] false
  if r.1 = [] then none else some { target := r.1, anchor := r.2 }

end Docx
