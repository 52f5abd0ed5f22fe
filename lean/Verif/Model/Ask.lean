import Verif.Model.Docx
import Verif.Model.Json

/-!
# Asking a file for what is in it (`docx-core/src/documents/mod.rs`)

`json_with_update_comments`, `comments_json` and `collect_footnotes` take the file by `&mut`: each gives its answer and the file as it is
afterwards. `reset` only sets the counter of paragraph ids, which every preparation sets again.
-/

namespace Docx

/-- `comments_json`: the JSON of a comment is a leaf. documents/mod.rs:786-790; comments.rs:8-12 (`rename_all = "camelCase"`). -/
def DocxFile.commentsJson (comment : Comment → Json) (env : Env) (d : DocxFile) : Str × DocxFile :=
  let d' := d.updateDependencies env
  (Json.pretty 0 (.obj [(c!"comments", .arr (d'.comments.map comment))]), d')

/-- `json_with_update_comments`. documents/mod.rs:778-783. The fields before and after `document` are those of the updated file: they are
functions of it here. -/
def DocxFile.jsonWithUpdateComments (P : Leaves) (before after : DocxFile → List (Str × Json)) (env : Env) (d : DocxFile) : Str × DocxFile :=
  let d' := d.updateDependencies env
  (d'.json P (before d') (after d'), d')

/-- `collect_footnotes`; `Footnotes::add` is `extend`. documents/mod.rs:1260-1265; footnotes.rs:19-21. -/
def DocxFile.collectFootnotes (d : DocxFile) : Bool × DocxFile :=
  let l := collectDocumentFootnotes d.document
  (!l.isEmpty, { d with footnotes := d.footnotes ++ l })

end Docx
