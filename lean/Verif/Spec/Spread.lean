import Verif.Model.Types

/-!
# The sections of a document, spread out

A section is written as what is in it, and then a paragraph that has nothing but the set-up of the pages of the section.
-/

namespace Docx.Spec

/-- The same thing, outside of a section. -/
def _root_.Docx.SectionChild.spread : SectionChild → DocumentChild
  | .paragraph p => .paragraph p
  | .table t => .table t
  | .bookmarkStart id name => .bookmarkStart id name
  | .bookmarkEnd id => .bookmarkEnd id
  | .commentStart id c => .commentStart id c
  | .commentEnd id => .commentEnd id
  | .sdt s => .sdt s
  | .toc t => .toc t

/-- The paragraph at the end of a section with this set-up of its pages. -/
def sectionEnd (id : Str) (page : SectionBase) : Paragraph :=
  { id := id, property := { base := { sectionProperty := some page } } }

/-- A section becomes what is in it, and a paragraph with the set-up of its pages; everything else stays as it is. -/
def _root_.Docx.DocumentChild.spreadAs (id : Str) : DocumentChild → List DocumentChild
  | .section s => s.children.map SectionChild.spread ++ [.paragraph (sectionEnd id s.property.base)]
  | c => [c]

/-- What is in a document, with its sections spread out; `ids` are those of the paragraphs at their ends. -/
def spreadAll : List Str → List DocumentChild → List DocumentChild
  | _, [] => []
  | ids, c :: cs => c.spreadAs (ids.headD []) ++ spreadAll ids.tail cs

/-- The document with its sections spread out. -/
def _root_.Docx.Document.spread (ids : List Str) (d : Document) : Document := { d with children := spreadAll ids d.children }

end Docx.Spec
