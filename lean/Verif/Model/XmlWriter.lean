import Verif.Model.Base

/-!
# `docx-core/src/xml/writer.rs`

The event writer under every `build_to`. Bytes are modelled as characters (see `Base`); writing to
the underlying stream appends to `out` and cannot fail (I/O errors are not modelled).
-/

namespace Docx.Xml

open Docx

/-- `StartElement`. xml/writer.rs:179-184: the encoded start tag without its closing `>` and the
length of the name. -/
structure StartElement where
  encoded : Str
  nameLen : Nat
deriving DecidableEq, Repr

/-- `XmlEvent::start_element`. xml/writer.rs:199-208. -/
def startElement (name : Str) : StartElement :=
  { encoded := '<' :: name, nameLen := name.length }

/-- `StartElement::attr` and `attr_display` (same bytes: the value is copied unescaped).
xml/writer.rs:237-261. -/
def StartElement.attr (e : StartElement) (name value : Str) : StartElement :=
  { e with encoded := e.encoded ++ [' '] ++ name ++ c!"=\"" ++ value ++ ['"'] }

/-- `XmlEvent`. xml/writer.rs:186-196. -/
inductive Event where
  | startDocument (version : Str) (encoding : Option Str) (standalone : Option Bool)
  | start (e : StartElement)
  | «end»
  | chars (text : Str)
deriving DecidableEq, Repr

/-- A start event with attributes, as every caller builds it:
`XmlEvent::start_element(name).attr(k1, v1).attr(k2, v2)…`. -/
def open_ (name : Str) (attrs : List (Str × Str)) : Event :=
  .start (attrs.foldl (fun e a => e.attr a.1 a.2) (startElement name))

/-- `ElementState`. xml/writer.rs:84-89. -/
structure ElementState where
  nameStart : Nat
  nameLen : Nat
  pending : Bool
deriving DecidableEq, Repr

/-- `EventWriter`. xml/writer.rs:91-97. The stack has its top first. `perform_escaping` is `false`
in every writer the crate creates (xml_builder/mod.rs:45-50), so it is not a field. -/
structure Writer where
  out : Str := []
  stack : List ElementState := []
  names : Str := []
  pendingStart : Str := []
deriving DecidableEq, Repr

/-- `Error`. xml/writer.rs:15-19, without the I/O cases. `slicePanic` is the panic of an
out-of-range slice (`element.encoded[1..1 + name_len]` and `element_names[start..end]`). -/
inductive Error where
  | unbalancedEndTag
  | slicePanic
deriving DecidableEq, Repr

/-- `s[i..j]`, panicking when out of range. -/
def slice (s : Str) (i j : Nat) : Except Error Str :=
  if i ≤ j ∧ j ≤ s.length then .ok ((s.drop i).take (j - i)) else .error .slicePanic

/-- `flush_pending`. xml/writer.rs:165-176. -/
def Writer.flushPending (w : Writer) : Writer :=
  match w.stack with
  | state :: rest =>
    if state.pending then
      { w with
        stack := { state with pending := false } :: rest
        out := w.out ++ w.pendingStart ++ c!">"
        pendingStart := [] }
    else w
  | [] => w

/-- The XML declaration as `quick_xml` writes a `BytesDecl`: `<?xml version="…"` followed by the
optional encoding and standalone pseudo-attributes and `?>` (external crate). -/
def declaration (version : Str) (encoding : Option Str) (standalone : Option Bool) : Str :=
  c!"<?xml version=\"" ++ version ++ c!"\"" ++
  (match encoding with | some e => c!" encoding=\"" ++ e ++ c!"\"" | none => []) ++
  (match standalone with
    | some true => c!" standalone=\"yes\"" | some false => c!" standalone=\"no\"" | none => []) ++
  c!"?>"

/-- `EventWriter::write`. xml/writer.rs:100-155. -/
def Writer.write (w : Writer) : Event → Except Error Writer
  | .startDocument version encoding standalone =>
    .ok { w with out := w.out ++ declaration version encoding standalone }
  | .start element => do
    let w := w.flushPending
    let name ← slice element.encoded 1 (1 + element.nameLen)
    .ok { w with
      names := w.names ++ name
      stack := { nameStart := w.names.length, nameLen := element.nameLen, pending := true } :: w.stack
      pendingStart := element.encoded }
  | .«end» =>
    match w.stack with
    | [] => .error .unbalancedEndTag
    | state :: rest =>
      if state.pending then
        .ok { w with
          stack := rest
          out := w.out ++ w.pendingStart ++ c!" />"
          pendingStart := []
          names := w.names.take state.nameStart }
      else do
        let name ← slice w.names state.nameStart (state.nameStart + state.nameLen)
        .ok { w with
          stack := rest
          out := w.out ++ c!"</" ++ name ++ c!">"
          names := w.names.take state.nameStart }
  | .chars text =>
    let w := w.flushPending
    .ok { w with out := w.out ++ text }

/-- Writing a sequence of events, stopping at the first error (the `?` after every write). -/
def Writer.run (w : Writer) : List Event → Except Error Writer
  | [] => .ok w
  | e :: es => do (← w.write e).run es

/-- `XMLBuilder::new` followed by writes and `into_inner`: the bytes produced.
xml_builder/mod.rs:44-59, 166-168; `BuildXML::build`. -/
def render (es : List Event) : Except Error Str := do
  .ok (← ({} : Writer).run es).out

end Docx.Xml
