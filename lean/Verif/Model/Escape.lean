import Verif.Model.Base

/-!
# `docx-core/src/escape/mod.rs`
-/

namespace Docx

/-- The body of the loop of `escape`. escape/mod.rs:4-14. -/
def escapeChar (ch : Char) : Str :=
  if ch = '&' then c!"&amp;"
  else if ch = '<' then c!"&lt;"
  else if ch = '>' then c!"&gt;"
  else if ch = '"' then c!"&quot;"
  else if ch = '\'' then c!"&apos;"
  else if ch = '\n' then c!"&#xA;"
  else if ch = '\r' then []
  else [ch]

/-- `escape`. escape/mod.rs:1-17. The `for` loop that pushes onto `escaped` is the left fold. -/
def escape (text : Str) : Str :=
  text.foldl (fun escaped ch => escaped ++ escapeChar ch) []

/-- The byte set tested by `escape_owned`. escape/mod.rs:27. -/
def needsEscape (ch : Char) : Bool :=
  ch == '&' || ch == '<' || ch == '>' || ch == '"' || ch == '\'' || ch == '\n' || ch == '\r'

/-- `escape_owned`. escape/mod.rs:23-33. -/
def escapeOwned (text : Str) : Str :=
  if text.any needsEscape then escape text else text

/-- The `if … else if …` chain of `replace_escaped`: replacement and number of consumed
characters for a `rest` that starts with `&`. escape/mod.rs:42-58. -/
def entityAt (rest : Str) : Option Str × Nat :=
  if c!"&lt;".isPrefixOf rest then (some c!"<", 4)
  else if c!"&gt;".isPrefixOf rest then (some c!">", 4)
  else if c!"&amp;".isPrefixOf rest then (some c!"&", 5)
  else if c!"&quot;".isPrefixOf rest then (some c!"\"", 6)
  else if c!"&#39;".isPrefixOf rest then (some c!"'", 5)
  else if c!"&apos;".isPrefixOf rest then (some c!"'", 6)
  else if c!"&nbsp;".isPrefixOf rest then (some c!" ", 6)
  else (none, 1)

/-- The `while let` loop of `replace_escaped`. escape/mod.rs:39-63. `fuel` bounds the number of
iterations; every iteration consumes at least one character, so the length of the text is enough
(`replaceLoop_fuel`). -/
def replaceLoop : Nat → Str → Str → Str
  | 0, decoded, rest => decoded ++ rest
  | fuel + 1, decoded, rest =>
    if '&' ∈ rest then
      let decoded := decoded ++ rest.takeWhile (· ≠ '&')
      let rest := rest.dropWhile (· ≠ '&')
      let (replacement, consumed) := entityAt rest
      replaceLoop fuel (decoded ++ replacement.getD c!"&") (rest.drop consumed)
    else decoded ++ rest

/-- `replace_escaped`. escape/mod.rs:35-64. -/
def replaceEscaped (text : Str) : Str := replaceLoop text.length [] text

end Docx
