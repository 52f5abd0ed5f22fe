import Verif.Model.XmlJson

/-!
# A package written as one XML text

What the text of a flat OPC file looks like, part by part, in the form word processors write it. This
file does not mention how the text is read.
-/

namespace Docx.Spec

/-- The content of a part: XML, or binary data in base 64 with white space around it. -/
inductive FlatContent where
  | xml (data : Str)
  | binary (before data after : Str)

/-- One `pkg:part` element. `more` is the text of the attributes that follow the content type, such as
` pkg:padding="512"`, `gap` and `gap'` are the white space around the data element. -/
structure FlatPart where
  name : Str
  contentType : Str
  more : Str
  gap : Str
  content : FlatContent
  gap' : Str

/-- The data element of a part. -/
def FlatContent.text : FlatContent → Str
  | .xml data => c!"<pkg:xmlData>" ++ data ++ c!"</pkg:xmlData>"
  | .binary before data after => c!"<pkg:binaryData>" ++ before ++ data ++ after ++ c!"</pkg:binaryData>"

/-- The text of a part. -/
def FlatPart.text (p : FlatPart) : Str :=
  c!"<pkg:part pkg:name=\"" ++ p.name ++ c!"\" pkg:contentType=\"" ++ p.contentType ++ c!"\"" ++ p.more ++ c!">" ++
    p.gap ++ p.content.text ++ p.gap' ++ c!"</pkg:part>"

/-- The text of the file: what precedes each part, the parts, and what follows the last one. -/
def flatText : List (Str × FlatPart) → Str → Str
  | [], tail => tail
  | (before, p) :: ps, tail => before ++ p.text ++ flatText ps tail

/-- What the user expects to find of a part: the XML, or the base 64 text alone. -/
def FlatContent.data : FlatContent → Str
  | .xml data => data
  | .binary _ data _ => data

/-- `s` occurs in `t`. -/
def Occurs (s t : Str) : Prop := ∃ a b, t = a ++ s ++ b

/-- White space only. -/
def Blank (s : Str) : Prop := ∀ c ∈ s, isUnicodeSpace c = true

/-- An attribute value: not empty, without quotes, markup or `=`. -/
structure FlatValue (s : Str) : Prop where
  some : s ≠ []
  quote : '"' ∉ s
  less : '<' ∉ s
  equals : '=' ∉ s

/-- The content does not end its own element or the part early, and does not look like the beginning of a
doubled-quote attribute of the part. Base 64 text has no markup and no quotes, and no white space at
its ends. -/
def FlatContent.Fine : FlatContent → Prop
  | .xml data => ¬ Occurs c!"</pkg:part>" data ∧ ¬ Occurs c!"</pkg:xmlData>" data ∧
      ¬ Occurs c!"pkg:name=\"\"" data ∧ ¬ Occurs c!"pkg:contentType=\"\"" data
  | .binary before data after => Blank before ∧ Blank after ∧ '<' ∉ data ∧ '"' ∉ data ∧
      (∀ c ∈ data.head?, isUnicodeSpace c = false) ∧ ∀ c ∈ data.getLast?, isUnicodeSpace c = false

/-- A part as word processors write it. -/
structure FlatPart.Fine (p : FlatPart) : Prop where
  name : FlatValue p.name
  contentType : FlatValue p.contentType
  more : '<' ∉ p.more ∧ ¬ Occurs c!"\"\"" p.more ∧ p.more.head? ≠ some '"'
  gap : Blank p.gap
  content : p.content.Fine
  gap' : Blank p.gap'

end Docx.Spec
