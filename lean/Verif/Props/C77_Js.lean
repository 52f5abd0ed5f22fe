import Verif.Lemmas.JsComments
import Verif.Lemmas.Witness
import Verif.Props.C07_C26_Package

/-!
# C77: what a JavaScript program puts into a document arrives
-/

namespace Docx.Props

open Docx Docx.Xml Docx.Spec

variable (lib : ImageLib)

theorem js_walk {α : Type} (k : List Place → Item → List α) (d : JsDocx) (n : Ids) :
    pick k (walkDocument (d.build lib n).1.document)
      = (jsItems lib DocxFile.new d.children n).1.document.children.flatMap (fun c => pick k (walkDocumentChild [.document] c)) := by
  have h : (d.build lib n).1.document = (jsItems lib DocxFile.new d.children n).1.document := by
    unfold JsDocx.build DocxFile.noteNumbering; rfl
  rw [h, walkDocument, pick_append, pick_flatMap, (jsItems_shown lib d.children DocxFile.new n).2]
  have : walkSectionProperty [.document] DocxFile.new.document.sectionProperty = [] := rfl
  rw [this, pick_nil, List.append_nil]

/-- **C77.** Every text, tab, break, picture and entry for a table of contents a program put into the paragraphs, links,
tables and nested tables of a document is in the document that is built, once and in order, and nothing else is. -/
theorem C77_content (d : JsDocx) (n : Ids) :
    (bodyItems (d.build lib n).1.document).flatMap Item.shown = JsDocx.content lib d := by
  rw [bodyItems, within_shown, js_walk, (jsItems_shown lib d.children DocxFile.new n).1]
  rfl

/-- The texts among pieces of content. -/
def shownTexts (l : List Shown) : List Str := l.filterMap fun
  | .text s => some s
  | _ => none

/-- The deleted texts among pieces of content. -/
def shownDeleted (l : List Shown) : List Str := l.filterMap fun
  | .deletedText s => some s
  | _ => none

theorem shown_texts (l : List Item) : l.flatMap Item.text = shownTexts (l.flatMap Item.shown) := by
  unfold shownTexts
  rw [List.filterMap_flatMap]
  congr 1
  funext i
  cases i <;> try rfl
  rename_i c
  cases c <;> try rfl
  case text t => simp only [Item.text, Item.shown]; cases decodeText t <;> rfl
  case deleteText t => simp only [Item.text, Item.shown]; cases decodeText t <;> rfl
  case instrText t =>
    cases t <;> try rfl
    rename_i i
    simp only [Item.text, Item.shown]; cases decodeText i.text <;> rfl

theorem shown_deleted (l : List Item) : l.flatMap Item.deletedText = shownDeleted (l.flatMap Item.shown) := by
  unfold shownDeleted
  rw [List.filterMap_flatMap]
  congr 1
  funext i
  cases i <;> try rfl
  rename_i c
  cases c <;> try rfl
  case text t => simp only [Item.deletedText, Item.shown]; cases decodeText t <;> rfl
  case deleteText t => simp only [Item.deletedText, Item.shown]; cases decodeText t <;> rfl
  case instrText t =>
    cases t <;> try rfl
    rename_i i
    simp only [Item.deletedText, Item.shown]; cases decodeText i.text <;> rfl

/-- **C77.** In the package that is written the texts are in `word/document.xml`, in order, and the deleted texts are
there as deleted and are all that is. -/
theorem C77_written (d : JsDocx) (n : Ids) (env : Env) (w : World) (es : List Entry) (hs : Copied (d.build lib n).1)
    (h : Packed env (d.build lib n).1 w es) :
    ∃ body, ⟨c!"word/document.xml", .text body⟩ ∈ es ∧
      (shownTexts (JsDocx.content lib d)).Sublist (eventTexts wT (readEvents body)) ∧
      eventTexts wDelText (readEvents body) = shownDeleted (JsDocx.content lib d) := by
  obtain ⟨body, h1, h2, h3⟩ := C07_package _ env w es hs h
  rw [shown_texts, C77_content] at h2
  rw [shown_deleted, C77_content] at h3
  exact ⟨body, h1, h2, h3⟩

theorem js_notes (d : JsDocx) (n : Ids) :
    (commentsIn (walkDocument (d.build lib n).1.document)).map commentSeen = (jsComments lib d).map GivenComment.arrived := by
  rw [commentsIn_pick, js_walk, jsItems_notes lib d.children DocxFile.new n d.hasNumberings]
  rfl

theorem truthy_of {x : Option Str} (h : x ≠ some []) : truthy x = x := by
  cases x with
  | none => rfl
  | some s =>
    have : s ≠ [] := fun e => h (by rw [e])
    simp [truthy, Option.filter, this]

/-- **C77.** Every comment arrives, with its id, author, date, the comment it answers and its text. Missing: the full
statement is without the hypotheses, and does not hold (`C77_fails_reply`, `C77_fails_empty`). -/
theorem C77_comments_partial (d : JsDocx) (n : Ids)
    (h : ∀ g ∈ jsComments lib d, g.author ≠ some [] ∧ g.date ≠ some [] ∧ g.parent ≠ some 0) :
    (commentsIn (walkDocument (d.build lib n).1.document)).map commentSeen
      = (jsComments lib d).map GivenComment.expected := by
  rw [js_notes]
  refine List.map_congr_left fun g hg => ?_
  obtain ⟨h1, h2, h3⟩ := h g hg
  have : parentId g.parent = g.parent := by
    cases e : g.parent with
    | none => rfl
    | some i =>
      have : i ≠ 0 := fun e' => h3 (by rw [e, e'])
      simp [parentId, Option.filter, this]
  simp only [GivenComment.arrived, GivenComment.expected, truthy_of h1, truthy_of h2, this]

/-- **C77 fails** for every document with an answer to the comment whose id is 0: it does not answer anything. -/
theorem C77_fails_reply (d : JsDocx) (n : Ids) (g : GivenComment) (hg : g ∈ jsComments lib d) (h0 : g.parent = some 0) :
    (commentsIn (walkDocument (d.build lib n).1.document)).map commentSeen
      ≠ (jsComments lib d).map GivenComment.expected := by
  rw [js_notes]
  intro e
  have := List.map_eq_map_iff.1 e g hg
  simp only [GivenComment.arrived, GivenComment.expected, Prod.mk.injEq, h0] at this
  exact absurd this.2.2.2.1 (by decide)

/-- **C77 fails** for every document with a comment whose author is the empty text: it gets a name. -/
theorem C77_fails_empty (d : JsDocx) (n : Ids) (g : GivenComment) (hg : g ∈ jsComments lib d) (h0 : g.author = some []) :
    (commentsIn (walkDocument (d.build lib n).1.document)).map commentSeen
      ≠ (jsComments lib d).map GivenComment.expected := by
  rw [js_notes]
  intro e
  have := List.map_eq_map_iff.1 e g hg
  simp only [GivenComment.arrived, GivenComment.expected, Prod.mk.injEq, h0] at this
  exact absurd this.2.1 (by decide +kernel)

/-- A document with a link, a deletion, a picture, a comment with an answer and a table in a table. -/
def jsSample : JsDocx :=
  { children := [
      .paragraph { children := [
        .run { children := [.text c!"a & b\n", .tab] },
        .comment { id := 1, author := some c!"ann", children := [{ children := [.run { children := [.text c!"why?"] }] }] },
        .comment { id := 2, parent := some 1, children := [{ children := [.run { children := [.text c!"because"] }] }] },
        .hyperlink c!"http://x" .external [.run { children := [.text c!"link"] }],
        .delete { children := [.deleteText c!"gone"] } (some c!"bob") none,
        .commentEnd 1] },
      .table { rows := [{ cells := [{ children := [
        .paragraph { children := [.run { children := [.image { data := [1, 2], rot := 3 }, .brk .page] }] },
        .table { rows := [{ cells := [{ children := [.paragraph { children := [.run { children := [.text c!"deep"] }] }] }] }] }] }] }] }] }

/-- The library of images of the sample. -/
def sampleLib : ImageLib := fun b => (b ++ [9], 10, 20)

example : JsDocx.content sampleLib jsSample =
    [.text c!"a & b", .tab, .text c!"link", .deletedText c!"gone", .picture [1, 2, 9] (10, 20) false 3, .brk .page, .text c!"deep"] := by
  decide +kernel

example : (jsComments sampleLib jsSample).map GivenComment.expected =
    [(1, c!"ann", c!"1970-01-01T00:00:00Z", none, [[.text c!"why?"]]),
     (2, c!"unnamed", c!"1970-01-01T00:00:00Z", some 1, [[.text c!"because"]])] := by
  rfl

theorem jsSample_ok : (copiedB (jsSample.build sampleLib ⟨1, 1, 1⟩).1 && writableB (jsSample.build sampleLib ⟨1, 1, 1⟩).1
    && decide ((jsSample.build sampleLib ⟨1, 1, 1⟩).1.customItems.length = 0)
    && decide (shownTexts (JsDocx.content sampleLib jsSample) = [c!"a & b", c!"link", c!"deep"])) = true := by
  decide +kernel

example : ∃ es, Copied (jsSample.build sampleLib ⟨1, 1, 1⟩).1 ∧ Packed anEnv (jsSample.build sampleLib ⟨1, 1, 1⟩).1 {} es ∧
    shownTexts (JsDocx.content sampleLib jsSample) = [c!"a & b", c!"link", c!"deep"] := by
  have h := jsSample_ok
  simp only [Bool.and_eq_true, decide_eq_true_eq] at h
  obtain ⟨⟨⟨h1, h2⟩, h3⟩, h4⟩ := h
  obtain ⟨es, w', e⟩ := writable_packs anEnv _ {} (writableB_spec h2) (by rw [h3]; exact Nat.zero_le _) (by rw [h3]; exact Nat.zero_le _)
  exact ⟨es, copiedB_spec h1, .inl ⟨w', e⟩, h4⟩

example : ∃ g ∈ jsComments sampleLib
    { children := [.paragraph { children := [.comment { id := 0 }, .comment { id := 1, author := some [], parent := some 0 }] }] },
    g.parent = some 0 ∧ g.author = some [] := ⟨⟨1, some [], none, some 0, []⟩, by decide +kernel, rfl, rfl⟩

end Docx.Props
