import Verif.Lemmas.BuildTotal
import Verif.Model.Parts
import Verif.Props.C05_Writer

/-!
# C45: every written part is one well-formed element

`Node.print` (`Spec/XmlTree.lean`) is the canonical text of an element tree: every element is closed by an
end tag with its own name.
-/

namespace Docx.Props

open Docx Docx.Spec Docx.Xml

/-- The declaration in front of the main parts. -/
def standaloneDeclaration : Str := c!"<?xml version=\"1.0\" encoding=\"UTF-8\" standalone=\"yes\"?>"

theorem declaration_standalone :
    declaration c!"1.0" (some c!"UTF-8") (some true) = standaloneDeclaration := by
  decide

theorem writePart_flat (n : N) (g : Gen) (name : Str) (as : List (Str × Str)) (body : N)
    (hn : n = elemN name as body) :
    (n g = none ∧ writePart (some true) (flat n) g = none) ∨
    (∃ cs g', n g = some ([.elem name as cs], g') ∧ body g = some (cs, g') ∧
      writePart (some true) (flat n) g =
      some (.ok (standaloneDeclaration ++ (Node.elem name as cs).print), g')) := by
  subst hn
  cases h : body g with
  | none => left; simp [elemN, h, writePart, flat]
  | some r =>
    right
    obtain ⟨f, g'⟩ := r
    refine ⟨f, g', by simp [elemN, h], by rfl, ?_⟩
    have := C05_declaration c!"1.0" (some c!"UTF-8") (some true) [.elem name as f]
    simp only [elemN, h, writePart, flat, declarationEvent, this, declaration_standalone, printForest,
      List.append_nil]

/-- The shape of every statement below: the part is written as the declaration followed by one element with
the given name, or, when it contains something the writer does not support, writing it panics. -/
def WritesElement (out : Option (Except Error Str × Gen)) (supported : Bool) (name : Str)
    (shape : List Node → Prop) : Prop :=
  if supported then
    ∃ attrs cs g', out = some (.ok (standaloneDeclaration ++ (Node.elem name attrs cs).print), g') ∧ shape cs
  else out = none

theorem writesElement_of {n : N} {g : Gen} {name : Str} {as : List (Str × Str)} {body : N}
    (hn : n = elemN name as body) {b : Bool} (ht : Total n b) {shape : List Node → Prop}
    (hs : ∀ cs g', body g = some (cs, g') → shape cs) :
    WritesElement (writePart (some true) (flat n) g) b name shape := by
  have hb := ht g
  rcases writePart_flat n g name as body hn with ⟨h1, h2⟩ | ⟨cs, g', h1, h2, h3⟩
  · rw [h1] at hb
    cases b
    · simpa [WritesElement] using h2
    · simp at hb
  · rw [h1] at hb
    cases b
    · simp at hb
    · simp only [WritesElement, if_true]
      exact ⟨as, cs, g', h3, hs cs g' h2⟩

theorem all_okIn (away : Place → Bool) (l : Walk) :
    l.all (okIn away) = supported away l := by
  induction l with
  | nil => rfl
  | cons x l ih =>
    simp only [List.all_cons, ih, supported, Walk.within, okIn]
    cases h : x.1.any away <;> simp [h]

/-- **C45.** `word/document.xml` is one `w:document` element with one `w:body` inside, properly nested,
for every document; writing it fails only when the body holds a text box, a shape, an empty drawing or a
`HYPERLINK` instruction. -/
theorem C45_document (d : Document) (g : Gen) :
    WritesElement (d.write g)
      (supported elsewhereBody (walkDocument d))
      c!"w:document" (fun cs => ∃ body, cs = [.elem c!"w:body" [] body]) := by
  rw [← all_okIn, Document.write, ← Document_build_flat]
  refine writesElement_of rfl d.total ?_
  intro cs g' h
  simp only [elemN] at h
  split at h
  · simp at h
  · rename_i f g'' _
    simp only [Option.some.injEq, Prod.mk.injEq] at h
    exact ⟨f, h.1.symm⟩

/-- **C45.** Every header part is one `w:hdr` element. -/
theorem C45_header (h : Header) (g : Gen) :
    WritesElement (h.writeHeader g)
      (supported elsewhere (walkHeader [.header] h))
      c!"w:hdr" (fun _ => True) := by
  rw [← all_okIn, Header.writeHeader, ← Header_build_flat]
  exact writesElement_of rfl (h.total away_elsewhere _ _ (by simp [elsewhere])) (fun _ _ _ => trivial)

/-- **C45.** Every footer part is one `w:ftr` element. -/
theorem C45_footer (h : Header) (g : Gen) :
    WritesElement (h.writeFooter g)
      (supported elsewhere (walkHeader [.footer] h))
      c!"w:ftr" (fun _ => True) := by
  rw [← all_okIn, Header.writeFooter, ← Header_build_flat]
  exact writesElement_of rfl (h.total away_elsewhere _ _ (by simp [elsewhere])) (fun _ _ _ => trivial)

/-- **C45.** The comments part is one `w:comments` element. -/
theorem C45_comments (cs : List Comment) (g : Gen) :
    WritesElement (writeComments cs g)
      (supported elsewhere (cs.flatMap (walkComment [.comments])))
      c!"w:comments" (fun _ => True) := by
  rw [← all_okIn, writeComments, ← commentsB_flat]
  exact writesElement_of rfl (commentsN_total cs) (fun _ _ _ => trivial)

/-- **C45.** The footnotes part is one `w:footnotes` element. -/
theorem C45_footnotes (fs : List Footnote) (g : Gen) :
    WritesElement (writeFootnotes fs g)
      (supported elsewhere (fs.flatMap fun f => walkParagraphs [.footnotes] f.content))
      c!"w:footnotes" (fun _ => True) := by
  rw [← all_okIn, writeFootnotes, ← footnotesB_flat]
  exact writesElement_of rfl (footnotesN_total fs) (fun _ _ _ => trivial)

/-! Concrete cases. -/

/-- A document with a table in a table, a table of contents, a revision, a hyperlink and a comment anchor. -/
def sampleDocument : Document :=
  { children :=
      [ .toc { after := [.paragraph { id := c!"00000009" }] },
        .paragraph { id := c!"00000001", children :=
          [ .run { children := [.text c!"a &lt; b", .tab, .text c!"c"] },
            .insert { children := [.run { children := [.text c!"new"] }] },
            .hyperlink { link := .anchor c!"there", children := [.run { children := [.text c!"link"] }] },
            .commentStart 1 { id := 1, children := [.paragraph { id := c!"00000007" }] }, .commentEnd 1 ] },
        .table { rows := [{ cells := [{ children := [.table { rows := [] }] }] }] } ] }

example : supported elsewhereBody (walkDocument sampleDocument) = true := by decide
example : (walkDocument sampleDocument).length = 17 := by decide

/-- A text box in a run cannot be written, one inside a comment's paragraph does not matter for the body. -/
def boxDocument : Document :=
  { children := [.paragraph { id := [], children := [.run { children := [.textBox []] }] }] }
def commentBoxDocument : Document :=
  { children := [.commentStart 1 { id := 1, children :=
      [.paragraph { id := [], children := [.run { children := [.textBox []] }] }] }] }
example : supported elsewhereBody (walkDocument boxDocument) = false := by decide
example : supported elsewhereBody (walkDocument commentBoxDocument) = true := by decide
example : boxDocument.write {} = none := rfl

end Docx.Props
