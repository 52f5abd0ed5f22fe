import Verif.Model.ReadXml
import Verif.Spec.FlatOpc

/-!
# A package as one XML text, and how its parts are named
-/

namespace Docx.Spec

open Docx.FlatOpc

/-- The names word processors give the parts: they begin with a slash and have no two slashes together. -/
structure WordNames (names : List Str) : Prop where
  rooted : ∀ n ∈ names, n.head? = some '/'
  single : ∀ n ∈ names, ¬ Occurs c!"//" n

/-- The path names `document.xml` in a folder and is relative, as `word/document.xml` is. -/
def InFolder (path : Str) : Prop :=
  ∃ dir, path = dir ++ c!"/document.xml" ∧ dir ≠ [] ∧ dir.head? ≠ some '/' ∧ ¬ Occurs c!"document.xml" dir

/-- The text behind the first `?>`. -/
def behindMark : Str → Option Str
  | [] => none
  | c :: s => if c = '?' ∧ s.head? = some '>' then some (s.drop 1) else behindMark s

/-- A text without the XML declaration at its beginning. -/
def undeclared (s : Str) : Str :=
  if c!"<?".isPrefixOf s then (behindMark (s.drop 2)).getD s else s

/-- One entry of an archive as a part: the names begin with a slash, a text is without its declaration, and bytes are encoded. The list of
content types is not a part. -/
def flatPart (encode : Bytes → Str) (typeOf : Str → Str) (e : Entry) : Option FlatOpc.Part :=
  if e.name = c!"[Content_Types].xml" then none
  else
    match e.content with
    | .directory => none
    | .text s => some ⟨'/' :: e.name, typeOf e.name, undeclared s⟩
    | .bytes b => some ⟨'/' :: e.name, typeOf e.name, encode b⟩

/-- An archive as the parts of a flat file. -/
def flatParts (encode : Bytes → Str) (typeOf : Str → Str) (es : List Entry) : List FlatOpc.Part := es.filterMap (flatPart encode typeOf)

end Docx.Spec
