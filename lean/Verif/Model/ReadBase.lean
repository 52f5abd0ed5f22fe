import Verif.Model.XmlElement
import Verif.Model.XmlParser
import Verif.Model.Types

/-!
# Common parts of the element readers (`docx-core/src/reader/*.rs`)

Every reader is a `loop` around `next_event`. A reader takes the events that are still to come and
returns its value and the events left. A loop of the source may run for ever, so a loop of the model
is given a number of steps; `running` says that they were not enough. What the code does is what the
model does for every large enough number of steps, and a call that never returns is one that is
`running` for every number of steps.
-/

namespace Docx

open Docx.Xml

/-- Attributes of a start event: `&[OwnedAttribute]`. reader/xml_parser.rs:17-21. -/
abbrev Attrs := List (QName × Str)

/-- Outcome of a reader: `Ok`, `Err`, a panic, or still running. An `Err` leaves the events that are
still to come, since some callers go on after it. -/
inductive Read (α : Type) where
  | ok (a : α) (rest : List REvent)
  | err (rest : List REvent)
  | panic
  | running

/-- `?`: go on with the value, or return the error. -/
def Read.bind {α β : Type} : Read α → (α → List REvent → Read β) → Read β
  | .ok a rest, f => f a rest
  | .err rest, _ => .err rest
  | .panic, _ => .panic
  | .running, _ => .running

/-- `if let Ok(v) = …`: go on after an error. -/
def Read.caught {α β : Type} : Read α → (Option α → List REvent → Read β) → Read β
  | .ok a rest, f => f (some a) rest
  | .err rest, f => f none rest
  | .panic, _ => .panic
  | .running, _ => .running

/-- The value changed by a function. -/
def Read.map {α β : Type} (f : α → β) (r : Read α) : Read β := r.bind fun a rest => .ok (f a) rest

/-- `EventReader::next_event`: after the last event it is `EndDocument` again and again.
reader/xml_parser.rs:84-86,126-129. Simplification: after an error the stream is at its end (what
`quick_xml` reports after an error is not modelled). -/
def nextEvent : List REvent → REvent × List REvent
  | [] => (.endDocument, [])
  | e :: es => (e, es)

/-- A reader's loop `loop { match r.next_event() { … } }`. `start` handles a start event and may read
on, `text` handles character data (`true` for white space), `close` handles an end event and says
`none` for `return Ok(…)`. `atEnd` is `true` for the loops that stop at the end of the document, `passErr` for those
that go on after an error of the parser. -/
structure Loop (σ : Type) where
  start : σ → QName → Attrs → List REvent → Read σ
  text : σ → Bool → Str → σ := fun s _ _ => s
  close : σ → QName → Option σ
  atEnd : Bool := false
  passErr : Bool := false

/-- The loop run for at most `n` events of its own. -/
def Loop.run {σ : Type} (L : Loop σ) : Nat → σ → List REvent → Read σ
  | 0, _, _ => .running
  | n + 1, s, es =>
    match nextEvent es with
    | (.start q as, es) => (L.start s q as es).bind fun s es => L.run n s es
    | (.«end» q, es) =>
      match L.close s q with
      | none => .ok s es
      | some s => L.run n s es
    | (.chars t, es) => L.run n (L.text s false t) es
    | (.whitespace t, es) => L.run n (L.text s true t) es
    | (.endDocument, es) => if L.atEnd then .ok s es else L.run n s es
    | (.error, es) => if L.passErr then L.run n s es else .err es

/-- `if e == XMLElement::X { return Ok(…) }` and nothing else on an end event. -/
def closesAt {σ : Type} (e : El) (s : σ) (q : QName) : Option σ :=
  if elementOf q.loc = e then none else some s

/-- The loop of `ignore_element`: up to an end event with the element's name; everything else,
errors included, is passed over. reader/ignore.rs:8-16. -/
def skipTo : Nat → El → List REvent → Read Unit
  | 0, _, _ => .running
  | n + 1, e, es =>
    match nextEvent es with
    | (.«end» q, es) => if elementOf q.loc = e then .ok () es else skipTo n e es
    | (_, es) => skipTo n e es

/-- `ignore_element`. reader/ignore.rs:6-18. -/
def ignoreElement (n : Nat) (el ignore : El) (es : List REvent) : Read Unit :=
  if ignore = el then skipTo n ignore es else .ok () es

/-! Attributes. -/

/-- `read`, `read_val`, `read_id`, `read_name`: the first attribute with the local name.
reader/attributes/mod.rs:22-30, val.rs:7-15, id.rs:3-11, name.rs:3-11. -/
def attrNamed (as : Attrs) (name : Str) : Option Str := (as.find? fun a => a.1.loc = name).map Prod.snd

/-- `attributes[0].value`, or the panic of an empty slice. -/
def attrFirst (as : Attrs) : Option Str := as.head?.map Prod.snd

/-- `str::to_ascii_lowercase`. -/
def lowercase (s : Str) : Str := s.map Char.toLower

/-- `is_false`. reader/attributes/bool_value.rs:3-5. -/
def isFalse (v : Str) : Bool := v = c!"0" || lowercase v = c!"false" || lowercase v = c!"off"

/-- `read_bool`. reader/attributes/bool_value.rs:7-16. -/
def readBool (as : Attrs) : Bool :=
  match (attrNamed as c!"val").or (attrFirst as) with
  | some v => !isFalse v
  | none => true

/-- A loop over the attributes: `for a in attrs { … }`. -/
def foldAttrs {σ : Type} (f : σ → Str → Str → List REvent → Read σ) : σ → Attrs → List REvent → Read σ
  | s, [], es => .ok s es
  | s, (q, v) :: as, es => (f s q.loc v es).bind fun s es => foldAttrs f s as es

/-- An optional value as a `Result`. -/
def orErr {α : Type} (v : Option α) (es : List REvent) : Read α :=
  match v with
  | some a => .ok a es
  | none => .err es

/-- `attributes[0].value`: panics when there is none. -/
def firstValue (as : Attrs) (es : List REvent) : Read Str :=
  match attrFirst as with
  | some v => .ok v es
  | none => .panic

/-! Numbers. -/

/-- A decimal digit. -/
def isDigit (c : Char) : Bool := '0' ≤ c && c ≤ '9'

/-- The number written with decimal digits, of which there is at least one. -/
def natOf (s : Str) : Option Nat :=
  if s ≠ [] ∧ s.all isDigit then some (s.foldl (fun a c => a * 10 + (c.toNat - 48)) 0) else none

/-- Decimal digits behind an optional sign. -/
def intOf : Str → Option Int
  | '-' :: s => (natOf s).map fun n => -(n : Int)
  | '+' :: s => (natOf s).map Int.ofNat
  | s => (natOf s).map Int.ofNat

/-- `usize::from_str` and `u32::from_str` (standard library): digits behind an optional `+`, below
`2 ^ bits`. -/
def unsignedFromStr (bits : Nat) : Str → Option Nat
  | '+' :: s => (natOf s).filter (· < 2 ^ bits)
  | s => (natOf s).filter (· < 2 ^ bits)

/-- `usize::from_str`. -/
def usizeFromStr (s : Str) : Option Nat := unsignedFromStr 64 s

/-- `u32::from_str`. -/
def u32FromStr (s : Str) : Option Nat := unsignedFromStr 32 s

/-- `i32::from_str` and `isize::from_str`. -/
def parseSigned (bits : Nat) (s : Str) : Option Int :=
  (intOf s).filter fun i => -(2 ^ (bits - 1)) ≤ i ∧ i < 2 ^ (bits - 1)

/-- `n` rounded to a floating point number with `p` significant bits, ties to even. -/
def roundBits (p n : Nat) : Nat :=
  if n < 2 ^ p then n
  else
    let e := n.log2 + 1 - p
    let q := n / 2 ^ e
    let r := n % 2 ^ e
    (if 2 ^ e < 2 * r ∨ (2 ^ e = 2 * r ∧ q % 2 = 1) then q + 1 else q) * 2 ^ e

/-- The same for a signed number. -/
def roundInt (p : Nat) : Int → Int
  | .ofNat n => roundBits p n
  | .negSucc n => -(roundBits p (n + 1) : Int)

/-- The parts of the environment that readers use and that are not modelled further.
`float`/`float32`: `f64::from_str`/`f32::from_str` of a text that is not just digits behind a sign,
cut off towards zero (a large number stands for infinity, `0` for not-a-number).
`float32Text`: the decimal text of the `f32` that such a text denotes.
`freshId`: the paragraph id that `Paragraph::new` draws for a paragraph without one. -/
structure ReadEnv where
  float : Str → Option Int
  float32 : Str → Option Int
  float32Text : Str → Option Str
  freshId : Str

/-- A text that `f64::from_str` rejects (standard library): there is no digit in it, and it is neither an infinity nor not-a-number. -/
def notNumber (s : Str) : Bool :=
  s.all (fun c => !isDigit c) &&
    ![c!"inf", c!"infinity", c!"nan"].contains (lowercase (s.dropWhile fun c => c = '+' || c = '-'))

/-- `f64::from_str`, the number cut off towards zero. -/
def parseFloat (x : ReadEnv) (s : Str) : Option Int :=
  match intOf s with
  | some i => some (roundInt 53 i)
  | none => if notNumber s then none else x.float s

/-- `f32::from_str`, the number cut off towards zero. -/
def parseFloat32 (x : ReadEnv) (s : Str) : Option Int :=
  match intOf s with
  | some i => some (roundInt 24 i)
  | none => x.float32 s

/-- The decimal text of the `f32` that a text denotes (`format!("{h}")` of `f32::from_str`). -/
def f32Text (x : ReadEnv) (s : Str) : Option Str :=
  match intOf s with
  | some i => if i.natAbs ≤ 2 ^ 24 ∧ (i ≠ 0 ∨ s.head? ≠ some '-') then some (decInt i) else x.float32Text s
  | none => x.float32Text s

/-- A float cast to an integer type with bounds `lo` and `hi`: saturating. -/
def saturate (lo hi i : Int) : Int := max lo (min hi i)

/-- `as i32`. -/
def toI32 (i : Int) : Int := saturate (-(2 ^ 31)) (2 ^ 31 - 1) i

/-- `as isize`. -/
def toIsize (i : Int) : Int := saturate (-(2 ^ 63)) (2 ^ 63 - 1) i

/-- `as u32` from a float. -/
def toU32 (i : Int) : Nat := (saturate 0 (2 ^ 32 - 1) i).toNat

/-- `as usize` from a float. -/
def toUsize (i : Int) : Nat := (saturate 0 (2 ^ 64 - 1) i).toNat

/-- `n as usize` for an `isize`: wraps around. -/
def isizeAsUsize (i : Int) : Nat := (i % 2 ^ 64).toNat

/-- `n as i32` for an `isize`: the low 32 bits. -/
def isizeAsI32 (i : Int) : Int :=
  let m := i % 2 ^ 32
  if m < 2 ^ 31 then m else m - 2 ^ 32

/-- `value_to_dax`: points times twenty, anything else as it is. reader/attributes/val.rs:17-24. The
product of a number of points by twenty panics on overflow in debug builds; the model lets it wrap. -/
def valueToDax (x : ReadEnv) (v : Str) : Option Int :=
  if c!"pt".isSuffixOf v then
    (parseFloat x (removeAll v)).map fun i => isizeAsI32 (toI32 i * 20)
  else (parseFloat x v).map toI32
where
  /-- `v.replace("pt", "")`. -/
  removeAll : Str → Str
    | 'p' :: 't' :: s => removeAll s
    | c :: s => c :: removeAll s
    | [] => []

end Docx
