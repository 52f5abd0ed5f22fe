import Verif.Model.Base

/-!
# Specification: the content types of the parts of a package
-/

namespace Docx.Spec

open Docx

/-- The parts with a name of their own. -/
def partTypes : List (Str × Str) :=
  [ (c!"/_rels/.rels", c!"application/vnd.openxmlformats-package.relationships+xml"),
    (c!"/docProps/app.xml", c!"application/vnd.openxmlformats-officedocument.extended-properties+xml"),
    (c!"/docProps/core.xml", c!"application/vnd.openxmlformats-package.core-properties+xml"),
    (c!"/docProps/custom.xml", c!"application/vnd.openxmlformats-officedocument.custom-properties+xml"),
    (c!"/word/_rels/document.xml.rels", c!"application/vnd.openxmlformats-package.relationships+xml"),
    (c!"/word/document.xml", c!"application/vnd.openxmlformats-officedocument.wordprocessingml.document.main+xml"),
    (c!"/word/styles.xml", c!"application/vnd.openxmlformats-officedocument.wordprocessingml.styles+xml"),
    (c!"/word/settings.xml", c!"application/vnd.openxmlformats-officedocument.wordprocessingml.settings+xml"),
    (c!"/word/fontTable.xml", c!"application/vnd.openxmlformats-officedocument.wordprocessingml.fontTable+xml"),
    (c!"/word/numbering.xml", c!"application/vnd.openxmlformats-officedocument.wordprocessingml.numbering+xml"),
    (c!"/word/comments.xml", c!"application/vnd.openxmlformats-officedocument.wordprocessingml.comments+xml"),
    (c!"/word/commentsExtended.xml", c!"application/vnd.openxmlformats-officedocument.wordprocessingml.commentsExtended+xml"),
    (c!"/word/footnotes.xml", c!"application/vnd.openxmlformats-officedocument.wordprocessingml.footnotes+xml"),
    (c!"/word/webextensions/taskpanes.xml", c!"application/vnd.ms-office.webextensiontaskpanes+xml") ]

/-- The parts of which there can be many, by what their names begin with. -/
def numberedTypes : List (Str × Str) :=
  [ (c!"/word/header", c!"application/vnd.openxmlformats-officedocument.wordprocessingml.header+xml"),
    (c!"/word/footer", c!"application/vnd.openxmlformats-officedocument.wordprocessingml.footer+xml"),
    (c!"/word/webextensions/webextension", c!"application/vnd.ms-office.webextension+xml"),
    (c!"/customXml/itemProps", c!"application/vnd.openxmlformats-officedocument.customXmlProperties+xml") ]

/-- The content type of a part. -/
def contentTypeOf (name : Str) : Option Str :=
  match numberedTypes.find? fun x => x.1.isPrefixOf name with
  | some x => some x.2
  | none => (partTypes.find? fun x => decide (x.1 = name)).map Prod.snd

end Docx.Spec
