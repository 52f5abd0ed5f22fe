import Verif.Model.Base
import Verif.Spec.XmlText

/-!
# `docx-core/src/reader/xml_parser.rs`

`EventReader` sits on the external crate `quick_xml`. The tokens that crate delivers are specified
here by a lexer written from its documentation (`lex`, `parseAttrs`); everything after that —
splitting of names, merging of text and references, expansion of empty elements, classification of
white space — is the code of `xml_parser.rs`.
-/

namespace Docx.Xml

open Docx Docx.Spec

/-! ## Tokens of `quick_xml` (external, specified) -/

/-- Tokens of `quick_xml::Reader` with `expand_empty_elements = false`. -/
inductive Tok where
  | start (raw : Str)
  | empty (raw : Str)
  | «end» (raw : Str)
  | text (raw : Str)
  | ref (raw : Str)
  | cdata (raw : Str)
  /-- declaration, processing instruction, comment or document type -/
  | other
  | eof
  | error
deriving DecidableEq, Repr

/-- Lexer state. Accumulators hold the raw text read so far. -/
inductive LexState where
  | text (acc : Str)
  | ref (acc : Str)
  | lt
  | tag (acc : Str) (quote : Option Char)
  | endTag (acc : Str)
  | pi (acc : Str)
  | bang (acc : Str)
deriving DecidableEq, Repr

/-- A text token for a non-empty accumulator. -/
def textTok (acc : Str) : List Tok := if acc = [] then [] else [.text acc]

/-- XML white space. -/
def isSpace (c : Char) : Bool := c == ' ' || c == '\t' || c == '\n' || c == '\r'

/-- `s` without trailing white space. -/
def trimEnd (s : Str) : Str := (s.reverse.dropWhile isSpace).reverse

/-- A tag body that ended at an unquoted `>`: self-closing when it ends in `/`. -/
def closeTag (acc : Str) : Tok :=
  if acc.getLast? = some '/' then .empty acc.dropLast else .start acc

/-- Does `<!` markup with this body end at a `>` that follows it? Comments end at `-->`, character
data sections at `]]>`, anything else (document types, without internal subset) at the first `>`. -/
def bangDone (acc : Str) : Bool :=
  if c!"--".isPrefixOf acc then c!"--".isSuffixOf acc && 4 ≤ acc.length
  else if c!"[CDATA[".isPrefixOf acc then c!"]]".isSuffixOf acc && 9 ≤ acc.length
  else true

/-- Token of completed `<!` markup. -/
def bangTok (acc : Str) : Tok :=
  if c!"[CDATA[".isPrefixOf acc then .cdata ((acc.drop 7).take (acc.length - 9)) else .other

/-- The token stream of a text. -/
def lex : LexState → Str → List Tok
  | .text acc, [] => textTok acc ++ [.eof]
  | _, [] => [.error]
  | .text acc, c :: r =>
    if c = '<' then textTok acc ++ lex .lt r
    else if c = '&' then textTok acc ++ lex (.ref []) r
    else lex (.text (acc ++ [c])) r
  | .ref acc, c :: r =>
    if c = ';' then .ref acc :: lex (.text []) r
    else if c = '&' ∨ c = '<' then [.error]
    else lex (.ref (acc ++ [c])) r
  | .lt, c :: r =>
    if c = '/' then lex (.endTag []) r
    else if c = '?' then lex (.pi []) r
    else if c = '!' then lex (.bang []) r
    else if c = '>' then [.error]
    else if c = '"' ∨ c = '\'' then lex (.tag [c] (some c)) r
    else lex (.tag [c] none) r
  | .tag acc (some q), c :: r =>
    if c = q then lex (.tag (acc ++ [c]) none) r else lex (.tag (acc ++ [c]) (some q)) r
  | .tag acc none, c :: r =>
    if c = '>' then closeTag acc :: lex (.text []) r
    else if c = '"' ∨ c = '\'' then lex (.tag (acc ++ [c]) (some c)) r
    else lex (.tag (acc ++ [c]) none) r
  | .endTag acc, c :: r =>
    if c = '>' then .«end» (trimEnd acc) :: lex (.text []) r else lex (.endTag (acc ++ [c])) r
  | .pi acc, c :: r =>
    if c = '>' ∧ acc.getLast? = some '?' then .other :: lex (.text []) r
    else lex (.pi (acc ++ [c])) r
  | .bang acc, c :: r =>
    if c = '>' ∧ bangDone acc then bangTok acc :: lex (.text []) r
    else lex (.bang (acc ++ [c])) r

/-- State of the attribute scanner. -/
inductive AttrState where
  | skip
  | key (acc : Str)
  | eq (key : Str)
  | val (key : Str)
  | inVal (key : Str) (quote : Char) (acc : Str)
deriving DecidableEq, Repr

/-- `quick_xml`'s attribute iterator (`with_checks(false)`): `key = "value"` or `key = 'value'`
separated by white space. -/
def parseAttrs : AttrState → Str → Option (List (Str × Str))
  | .skip, [] => some []
  | _, [] => none
  | .skip, c :: r => if isSpace c then parseAttrs .skip r else if c = '=' then none else parseAttrs (.key [c]) r
  | .key acc, c :: r =>
    if c = '=' then parseAttrs (.val acc) r
    else if isSpace c then parseAttrs (.eq acc) r
    else parseAttrs (.key (acc ++ [c])) r
  | .eq k, c :: r =>
    if isSpace c then parseAttrs (.eq k) r else if c = '=' then parseAttrs (.val k) r else none
  | .val k, c :: r =>
    if isSpace c then parseAttrs (.val k) r
    else if c = '"' ∨ c = '\'' then parseAttrs (.inVal k c []) r else none
  | .inVal k q acc, c :: r =>
    if c = q then (parseAttrs .skip r).map ((k, acc) :: ·) else parseAttrs (.inVal k q (acc ++ [c])) r

/-- Name of a start tag: up to the first white space. -/
def tagName (raw : Str) : Str := raw.takeWhile fun c => !isSpace c

/-- Attribute part of a start tag. -/
def tagAttrs (raw : Str) : Str := raw.dropWhile fun c => !isSpace c

/-- End-of-line normalisation of text (`xml_content`): `\r\n` and `\r` become `\n`. -/
def normalizeEol : Str → Str
  | [] => []
  | '\r' :: '\n' :: r => '\n' :: normalizeEol r
  | '\r' :: r => '\n' :: normalizeEol r
  | c :: r => c :: normalizeEol r

/-! ## `xml_parser.rs` -/

/-- `OwnedName`. xml_parser.rs:10-15. The namespace is always `None` (266-279). -/
structure QName where
  pfx : Option Str
  loc : Str
deriving DecidableEq, Repr

/-- `XmlEvent`. xml_parser.rs:45-58. `error` stands for an `Err` from `quick_xml`, after which the
stream is not modelled further. -/
inductive REvent where
  | start (name : QName) (attrs : List (QName × Str))
  | «end» (name : QName)
  | chars (s : Str)
  | whitespace (s : Str)
  | endDocument
  | error
deriving DecidableEq, Repr

/-- `split_qname`. xml_parser.rs:264-280. -/
def splitQName (raw : Str) : QName :=
  if ':' ∈ raw then
    { pfx := some (raw.takeWhile (· ≠ ':')), loc := (raw.dropWhile (· ≠ ':')).drop 1 }
  else { pfx := none, loc := raw }

/-- `build_attributes`. xml_parser.rs:282-298. `decoded_and_normalized_value` (external) decodes
references and turns literal white space into spaces. -/
def buildAttributes (raw : Str) : Option (List (QName × Str)) :=
  (parseAttrs .skip raw).bind fun as =>
    as.mapM fun kv => (decodeText (kv.2.map attrSpace)).map fun v => (splitQName kv.1, v)

/-- `build_start_event`. xml_parser.rs:198-209. -/
def buildStartEvent (raw : Str) : REvent :=
  match buildAttributes (tagAttrs raw) with
  | some as => .start (splitQName (tagName raw)) as
  | none => .error

/-- `decode_reference`. xml_parser.rs:247-262: character references and the five predefined names;
`unescape` (external) rejects the rest. -/
def decodeReference (raw : Str) : Option Char := resolveRef raw

/-- The classification at the end of `read_text_event`. xml_parser.rs:187-195. -/
def textEvent (text : Str) : REvent :=
  if text.all isSpace then .whitespace text else .chars text

/-- The merged text before a structural event, if any. -/
def flushText : Option Str → List REvent
  | none => []
  | some t => [textEvent t]

/-- `read_next` and `read_text_event` iterated to the end of input. xml_parser.rs:84-196. The first
argument is the stack of open elements that `quick_xml` keeps for `check_end_names = true` (73);
the second is `some text` inside `read_text_event`. -/
def events : List Str → Option Str → List Tok → List REvent
  | _, _, [] => []
  | stack, text, tok :: toks =>
    match tok with
    | .start raw =>
      match buildStartEvent raw with
      | .error => [.error]
      | e => flushText text ++ e :: events (tagName raw :: stack) none toks
    | .empty raw =>
      match buildStartEvent raw with
      | .error => [.error]
      | e => flushText text ++ e :: .«end» (splitQName (tagName raw)) :: events stack none toks
    | .«end» raw =>
      match stack with
      | top :: rest =>
        if top = raw then flushText text ++ .«end» (splitQName raw) :: events rest none toks
        else [.error]
      | [] => [.error]
    | .text raw => events stack (some (text.getD [] ++ normalizeEol raw)) toks
    | .ref raw =>
      match decodeReference raw with
      | some ch => events stack (some (text.getD [] ++ [ch])) toks
      | none => [.error]
    | .cdata raw => flushText text ++ .chars raw :: events stack none toks
    | .other => flushText text ++ events stack none toks
    | .eof => flushText text ++ [.endDocument]
    | .error => [.error]

/-- All events of a document text. -/
def readEvents (s : Str) : List REvent := events [] none (lex (.text []) s)

end Docx.Xml
