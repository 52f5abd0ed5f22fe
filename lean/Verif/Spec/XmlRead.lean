import Verif.Model.XmlParser
import Verif.Model.Escape
import Verif.Spec.XmlTree

/-!
# Specification: what reading a written document must report

`expect` gives the events for a sequence of tags directly: one start event per opened element with
the decoded attributes, one end event per closed element, and adjacent character data merged and
decoded. It does not mention the text of the document or the lexer.
-/

namespace Docx.Spec

open Docx Docx.Xml

/-- Characters that never occur in names: white space and markup delimiters. -/
def delimiters : List Char := [' ', '\t', '\n', '\r', '<', '>', '/', '"', '\'', '=', '&', '!', '?']

/-- A name: non-empty and free of delimiters. -/
def NameOk (n : Str) : Prop := n ≠ [] ∧ ∀ c ∈ n, c ∉ delimiters

/-- A tag a conforming reader accepts. -/
def TagOk : Tag → Prop
  | .opn n as => NameOk n ∧ ∀ a ∈ as, NameOk a.1 ∧ (decodeAttr a.2).isSome
  | .cls => True
  | .txt s => (decodeText s).isSome ∧ '\r' ∉ s

/-- Decoded attributes of a start tag. -/
def expectAttrs : List (Str × Str) → List (QName × Str)
  | [] => []
  | (k, v) :: as =>
    match decodeAttr v with
    | some v' => (splitQName k, v') :: expectAttrs as
    | none => []

/-- The event for merged character data. -/
def expectText : Option Str → List REvent
  | none => []
  | some t => if ∀ c ∈ t, c = ' ' ∨ c = '\t' ∨ c = '\n' ∨ c = '\r' then [.whitespace t] else [.chars t]

/-- The events for a sequence of tags, given the names of the open elements and the character data
seen since the last tag. -/
def expect : List Str → Option Str → List Tag → List REvent
  | _, acc, [] => expectText acc ++ [.endDocument]
  | open_, acc, .txt s :: r =>
    match decodeText s with
    | some [] => expect open_ acc r
    | some d => expect open_ (some (acc.getD [] ++ d)) r
    | none => [.error]
  | open_, acc, .opn n as :: r =>
    expectText acc ++ .start (splitQName n) (expectAttrs as) :: expect (n :: open_) none r
  | n :: open_, acc, .cls :: r => expectText acc ++ .«end» (splitQName n) :: expect open_ none r
  | [], _, .cls :: _ => [.error]

/-! Reading when the tags carry plain (unescaped) strings. -/

/-- A tag with every attribute value and text escaped. -/
def escapeTag : Tag → Tag
  | .opn n as => .opn n (as.map fun a => (a.1, escape a.2))
  | .cls => .cls
  | .txt s => .txt (escape s)

/-- The events for a sequence of tags whose strings are plain: every attribute value and text is
reported as it stands. -/
def expectPlain : List Str → Option Str → List Tag → List REvent
  | _, acc, [] => expectText acc ++ [.endDocument]
  | open_, acc, .txt [] :: r => expectPlain open_ acc r
  | open_, acc, .txt (c :: s) :: r => expectPlain open_ (some (acc.getD [] ++ c :: s)) r
  | open_, acc, .opn n as :: r =>
    expectText acc ++ .start (splitQName n) (as.map fun a => (splitQName a.1, a.2)) ::
      expectPlain (n :: open_) none r
  | n :: open_, acc, .cls :: r =>
    expectText acc ++ .«end» (splitQName n) :: expectPlain open_ none r
  | [], _, .cls :: _ => [.error]

/-- Plain strings a file can carry exactly: no carriage return, and no tab in an attribute. -/
def PlainOk : Tag → Prop
  | .opn n as => NameOk n ∧ ∀ a ∈ as, NameOk a.1 ∧ '\r' ∉ a.2 ∧ '\t' ∉ a.2
  | .cls => True
  | .txt s => '\r' ∉ s

end Docx.Spec
