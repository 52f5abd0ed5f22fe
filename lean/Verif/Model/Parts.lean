import Verif.Model.Build
import Verif.Spec.WriterTags

/-!
# Writing a part to its XML text

Every part's `build_to` is run on a fresh `XMLBuilder` (xml_builder/mod.rs:44-54) and starts with an XML
declaration, except `commentsExtended.xml` (documents/comments_extended.rs:25-36).
-/

namespace Docx

open Docx.Xml

/-- `declaration(standalone)`: version 1.0, UTF-8. xml_builder/declaration.rs:8-14. -/
def declarationEvent (standalone : Option Bool) : Event :=
  .startDocument c!"1.0" (some c!"UTF-8") standalone

/-- A part with declaration: `none` is a panic while the events are produced, `Except.error` an error of
the XML writer. xml_builder/mod.rs:44-59. -/
def writePart (standalone : Option Bool) (b : B) (g : Gen) : Option (Except Error Str × Gen) :=
  match b g with
  | none => none
  | some (ts, g) => some (render (declarationEvent standalone :: ts.map tagEvent), g)

/-- `BuildXML::build` of a single element, without declaration. documents/build_xml.rs:14-23. -/
def buildElement (b : B) (g : Gen) : Option (Except Error Str × Gen) :=
  match b g with
  | none => none
  | some (ts, g) => some (render (ts.map tagEvent), g)

/-- `word/document.xml`. documents/document.rs:330-349. -/
def Document.write (d : Document) (g : Gen) := writePart (some true) d.build g

/-- `word/header<n>.xml`. documents/header.rs:82-99. -/
def Header.writeHeader (h : Header) (g : Gen) := writePart (some true) (h.build c!"w:hdr") g

/-- `word/footer<n>.xml`. documents/footer.rs:82-99. -/
def Header.writeFooter (h : Header) (g : Gen) := writePart (some true) (h.build c!"w:ftr") g

/-- `word/comments.xml`. documents/comments.rs:31-44. -/
def writeComments (cs : List Comment) (g : Gen) := writePart (some true) (commentsB cs) g

/-- `word/footnotes.xml`. documents/footnotes.rs:23-36. -/
def writeFootnotes (fs : List Footnote) (g : Gen) := writePart (some true) (footnotesB fs) g

end Docx
