import Verif.Model.Base

/-!
# Text functions of the Rust standard library the code relies on

Models of `str::parse`, `str::split`, `str::replace` and `to_ascii_lowercase` as documented. They are part of
the trusted base.
-/

namespace Docx

/-- The decimal digit `c` stands for. -/
def digit? (c : Char) : Option Nat := if '0' ≤ c ∧ c ≤ '9' then some (c.toNat - 48) else none

/-- The value of a string of decimal digits after `acc`. -/
def digits? : Str → Nat → Option Nat
  | [], acc => some acc
  | c :: s, acc =>
    match digit? c with
    | none => none
    | some d => digits? s (acc * 10 + d)

/-- Without a leading `+`. -/
def stripPlus : Str → Str
  | [] => []
  | c :: s => if c = '+' then s else c :: s

/-- `str::parse` for an unsigned integer type with values below `bound`: an optional `+`, then at least one
digit, no overflow. -/
def parseUnsigned (bound : Nat) (s : Str) : Option Nat :=
  if stripPlus s = [] then none
  else
    match digits? (stripPlus s) 0 with
    | none => none
    | some n => if n < bound then some n else none

/-- `usize::from_str`. -/
def parseUsize (s : Str) : Option Nat := parseUnsigned (2 ^ 64) s

/-- `str::replace(pat, "")`: matches are found from the left and do not overlap. The second argument counts
the characters of a match still to be dropped. -/
def removeAllAux (pat : Str) : Nat → Str → Str
  | _, [] => []
  | k + 1, _ :: s => removeAllAux pat k s
  | 0, c :: s => if pat.isPrefixOf (c :: s) then removeAllAux pat (pat.length - 1) s else c :: removeAllAux pat 0 s

/-- `str::replace(pat, "")` for a non-empty pattern. -/
def removeAll (pat s : Str) : Str := removeAllAux pat 0 s

/-- `str::split(c)`: the pieces between the separators, at least one. -/
def splitOn (sep : Char) : Str → List Str
  | [] => [[]]
  | c :: s =>
    if c = sep then [] :: splitOn sep s
    else
      match splitOn sep s with
      | [] => [[c]]
      | w :: ws => (c :: w) :: ws

/-- `to_ascii_lowercase`. -/
def asciiLower (s : Str) : Str := s.map Char.toLower

/-- `HashMap` lookup in a map collected from a list of pairs: a later pair replaces an earlier one. -/
def hashGet {α} (l : List (Str × α)) (k : Str) : Option α := l.reverse.lookup k

end Docx
