import Verif.Lemmas.FlatOpc

/-!
# C33: the parts of a flat OPC text

`flatText` (Spec/FlatOpc.lean) is the text of a package in one XML file; `extractParts`
(Model/FlatOpc.lean) is the reader, `none` where it panics.
-/

namespace Docx.Props

open Docx.FlatOpc Docx.Spec

/-- **C33**, for packages in the form word processors write: whatever surrounds the parts, exactly the parts
are found, in order, each with its name, content type and content. -/
theorem C33_parts_partial (ps : List (Str × FlatPart)) (tail : Str)
    (fine : ∀ q ∈ ps, ¬ Occurs c!"<pkg:part" q.1 ∧ q.2.Fine) (last : ¬ Occurs c!"<pkg:part" tail) :
    extractParts (flatText ps tail) = some (ps.map fun q => ⟨q.2.name, q.2.contentType, q.2.content.data⟩) :=
  extractLoop_flat tail (fun h => last (occurs_iff.2 h)) ps _
    (by have := flatText_length tail ps; omega)
    fun q hq => ⟨fun h => (fine q hq).1 (occurs_iff.2 h), (fine q hq).2⟩

/-- Any text without a doubled-quote attribute is read without a panic, well-formed or not. -/
theorem C33_no_panic (text : Str) (h1 : ¬ Occurs c!"pkg:name=\"\"" text)
    (h2 : ¬ Occurs c!"pkg:contentType=\"\"" text) : extractParts text ≠ none := by
  obtain ⟨ps, h⟩ := extractLoop_total (text.length + 1) text (fun h => h1 (occurs_iff.2 h))
    fun h => h2 (occurs_iff.2 h)
  rw [extractParts, h]
  exact Option.some_ne_none _

/-- The loop over the text always ends: it does not depend on the bound the model gives it. -/
theorem C33_ends (text : Str) (bound : Nat) (h : text.length < bound) :
    extractLoop bound text = extractParts text :=
  extractLoop_fuel _ _ _ h (by omega)

private def document : FlatPart where
  name := c!"/word/document.xml"
  contentType := c!"application/xml"
  more := c!" pkg:padding=\"512\""
  gap := c!"\n  "
  content := .xml c!"<w:document><w:p pkg:name=\"x\"/>&quot;</w:document>"
  gap' := c!"\n"

private def image : FlatPart where
  name := c!"/word/media/image1.png"
  contentType := c!"image/png"
  more := c!" pkg:compression=\"store\""
  gap := []
  content := .binary c!"\n" c!"iVBORw0KGgo=\nAAAA" c!"\n  "
  gap' := []

private theorem document_fine : document.Fine where
  name := by constructor <;> decide +kernel
  contentType := by constructor <;> decide +kernel
  more := by simp only [occurs_iff]; decide +kernel
  gap := by unfold Blank; decide +kernel
  content := by
    refine ⟨?_, ?_, ?_, ?_⟩ <;> exact fun h => absurd (occurs_iff.1 h) (by decide +kernel)
  gap' := by unfold Blank; decide +kernel

private theorem image_fine : image.Fine where
  name := by constructor <;> decide +kernel
  contentType := by constructor <;> decide +kernel
  more := by simp only [occurs_iff]; decide +kernel
  gap := by unfold Blank; decide +kernel
  content := by
    refine ⟨?_, ?_, ?_, ?_, ?_, ?_⟩
    · unfold Blank; decide +kernel
    · unfold Blank; decide +kernel
    all_goals decide +kernel
  gap' := by unfold Blank; decide +kernel

example : extractParts (flatText [(c!"<?xml version=\"1.0\"?><pkg:package>", document), (c!"\n", image)]
      c!"</pkg:package>") =
    some [⟨c!"/word/document.xml", c!"application/xml", c!"<w:document><w:p pkg:name=\"x\"/>&quot;</w:document>"⟩,
      ⟨c!"/word/media/image1.png", c!"image/png", c!"iVBORw0KGgo=\nAAAA"⟩] :=
  C33_parts_partial _ _
    (by
      intro q hq
      simp only [List.mem_cons, List.not_mem_nil, or_false] at hq
      rcases hq with rfl | rfl
      · exact ⟨by rw [occurs_iff]; decide +kernel, document_fine⟩
      · exact ⟨by rw [occurs_iff]; decide +kernel, image_fine⟩)
    (by rw [occurs_iff]; decide +kernel)

/-- The form with doubled quotes, which the reader looks for first, loses the first character of the name and
of the content type. -/
theorem C33_fails_doubled : ∃ text, Occurs c!"pkg:name=\"\"/word/document.xml\"\"" text ∧
    extractParts text = some [⟨c!"word/document.xml", c!"pplication/xml", c!"<a/>"⟩] :=
  ⟨c!"<pkg:part pkg:name=\"\"/word/document.xml\"\" pkg:contentType=\"\"application/xml\"\"><pkg:xmlData><a/></pkg:xmlData></pkg:part>",
    by rw [occurs_iff]; decide +kernel, by decide +kernel⟩

/-- With doubled quotes and a name that does not begin with an ASCII character, reading panics. -/
theorem C33_fails_panic : ∃ text, Occurs c!"pkg:name=\"\"é.xml\"\"" text ∧ extractParts text = none :=
  ⟨c!"<pkg:part pkg:name=\"\"é.xml\"\" pkg:contentType=\"\"application/xml\"\"><pkg:xmlData><a/></pkg:xmlData></pkg:part>",
    by rw [occurs_iff]; decide +kernel, by decide +kernel⟩

/-- The text of a document can take the place of the name of its part: the quotes of `pkg:name=""` are legal
in XML text. -/
theorem C33_fails_text : ∃ p : FlatPart, p.name = c!"/word/document.xml" ∧
    p.content = .xml c!"<w:t>pkg:name=\"\"/other.xml\"\"</w:t>" ∧
    extractParts p.text = some [⟨c!"other.xml", c!"application/xml", p.content.data⟩] :=
  ⟨{ document with content := .xml c!"<w:t>pkg:name=\"\"/other.xml\"\"</w:t>" }, rfl, rfl, by decide +kernel⟩

end Docx.Props
