/-!
# Basic types shared by the model

A Rust `String`/`&str` is modelled as a list of Unicode scalar values. All byte-level scans of the
code look for ASCII bytes only, which in UTF-8 occur exactly where the ASCII character occurs, so a
scan over characters gives the same result.
-/

namespace Docx

/-- A Rust `String` or `&str`. -/
abbrev Str := List Char

/-- `c!"abc"` is the list of characters of the literal. -/
macro:max "c!" s:str : term => `((String.toList $s : List Char))

/-- Digits of `n` in base `b`, most significant first, prepended to `acc`; `fuel` bounds the number
of digits. Model of Rust's integer formatting (`{}` and `{:x}`), which is in the standard library. -/
def digitsAux (b : Nat) : Nat → Nat → Str → Str
  | 0, _, acc => acc
  | fuel + 1, n, acc =>
    let acc' := Nat.digitChar (n % b) :: acc
    if n / b = 0 then acc' else digitsAux b fuel (n / b) acc'

/-- Rust `format!("{}", n)` for an unsigned integer. -/
def dec (n : Nat) : Str := digitsAux 10 (n + 1) n []

/-- Rust `format!("{:x}", n)`. -/
def hex (n : Nat) : Str := digitsAux 16 (n + 1) n []

/-- Left-pad with `'0'` to width `w`: the `0w` flag of Rust's formatter. -/
def pad0 (w : Nat) (s : Str) : Str := List.replicate (w - s.length) '0' ++ s

/-- Rust `format!("{}", i)` for a signed integer. -/
def decInt : Int → Str
  | .ofNat n => dec n
  | .negSucc n => '-' :: dec (n + 1)

end Docx
