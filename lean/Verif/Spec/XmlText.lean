import Verif.Model.Base

/-!
# Specification: how an XML 1.0 reader decodes character data

Written from the XML recommendation (sections 2.4, 4.1, 4.6), independently of the code.
-/

namespace Docx.Spec

open Docx

/-- Value of a hexadecimal digit. -/
def hexVal (c : Char) : Option Nat :=
  if '0' ≤ c ∧ c ≤ '9' then some (c.toNat - '0'.toNat)
  else if 'a' ≤ c ∧ c ≤ 'f' then some (c.toNat - 'a'.toNat + 10)
  else if 'A' ≤ c ∧ c ≤ 'F' then some (c.toNat - 'A'.toNat + 10)
  else none

/-- Value of a decimal digit. -/
def decVal (c : Char) : Option Nat :=
  if '0' ≤ c ∧ c ≤ '9' then some (c.toNat - '0'.toNat) else none

/-- Number written with the given digits in base `b`; fails on the empty string. -/
def number (digit : Char → Option Nat) (b : Nat) : Str → Option Nat
  | [] => none
  | s => s.foldl (fun acc c => do some ((← acc) * b + (← digit c))) (some 0)

/-- The character with a code point, if it is a Unicode scalar value. -/
def scalar (n : Nat) : Option Char :=
  if n.isValidChar then some (Char.ofNat n) else none

/-- What stands between `&` and `;` denotes one character: the five predefined entities and
decimal or hexadecimal character references. Anything else is undeclared. -/
def resolveRef (name : Str) : Option Char :=
  if name = c!"amp" then some '&'
  else if name = c!"lt" then some '<'
  else if name = c!"gt" then some '>'
  else if name = c!"quot" then some '"'
  else if name = c!"apos" then some '\''
  else match name with
    | '#' :: 'x' :: h => (number hexVal 16 h).bind scalar
    | '#' :: d => (number decVal 10 d).bind scalar
    | _ => none

/-- Character data with references decoded. The first argument is the part of a reference read so
far, if inside one. A raw `<` is not character data, and neither is an unterminated reference. -/
def decodeFrom : Option Str → Str → Option Str
  | none, [] => some []
  | some _, [] => none
  | none, c :: r =>
    if c = '&' then decodeFrom (some []) r
    else if c = '<' then none
    else (decodeFrom none r).map (c :: ·)
  | some acc, c :: r =>
    if c = ';' then (resolveRef acc).bind fun ch => (decodeFrom none r).map (ch :: ·)
    else if c = '&' ∨ c = '<' then none
    else decodeFrom (some (acc ++ [c])) r

/-- Character data of an element. -/
def decodeText (s : Str) : Option Str := decodeFrom none s

/-- Attribute-value normalisation of a literal white-space character (recommendation 3.3.3);
white space written as a character reference is not affected. -/
def attrSpace (c : Char) : Char := if c = '\t' ∨ c = '\n' ∨ c = '\r' then ' ' else c

/-- Value of an attribute from the text between its double quotes. -/
def decodeAttr (s : Str) : Option Str :=
  if '"' ∈ s then none else decodeText (s.map attrSpace)

/-- The references the escaping layer is allowed to produce. -/
def references : List Str :=
  [c!"amp;", c!"lt;", c!"gt;", c!"quot;", c!"apos;", c!"#xA;"]

/-- A string that can be placed in element content or between double or single quotes without
being markup: none of the delimiters or line breaks occurs, and every `&` starts a reference. -/
def MarkupFree (s : Str) : Prop :=
  (∀ c ∈ s, c ≠ '<' ∧ c ≠ '>' ∧ c ≠ '"' ∧ c ≠ '\'' ∧ c ≠ '\n' ∧ c ≠ '\r') ∧
  (∀ a b, s = a ++ '&' :: b → ∃ r ∈ references, r <+: b)

end Docx.Spec
