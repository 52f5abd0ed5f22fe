import Verif.Lemmas.Fields
import Verif.Props.C13_C26_Written

/-!
# C29: fields in the written parts are balanced
-/

namespace Docx.Props

open Docx Docx.Spec Docx.Xml

/-- The types of the field characters a reader finds, in order. -/
abbrev fieldTypes (l : List REvent) : List Str := eventAttrs (w c!"fldChar") (w c!"fldCharType") l

theorem part_fields {n : N} {l : List Str} {sa : Option Bool} {g g' : Gen} {out : Str} (hok : OkN n) (hc : Fld n l)
    (h : writePart sa (flat n) g = some (.ok out, g')) :
    ∀ opened, fieldRun opened (fieldTypes (readEvents out)) = fieldRun opened l := by
  obtain ⟨f, h1, h2, h3⟩ := writePart_reads hok h
  have e1 : w c!"fldChar" = splitQName c!"w:fldChar" := by decide
  have e2 : w c!"fldCharType" = splitQName c!"w:fldCharType" := by decide
  intro o
  rw [fieldTypes, e1, e2, h3, eventAttrs_tags _ _ _ h2]
  exact (hc _ _ _ h1 o).symm

/-- **C29.** The fields the writer makes for tables of contents, their entries and page numbers are complete:
the written body is balanced exactly when the field characters the user put into runs are, provided no table
of contents without entries is followed at once by a table. -/
theorem C29_document (d : Document) (hs : ∀ s ∈ d.strings, Stored s) (g g' : Gen) (out : Str)
    (h : d.write g = some (.ok out, g')) (ht : ∀ t, .toc t ∈ bodyItems d → tableFirst t = false) :
    Balanced (fieldTypes (readEvents out)) ↔ Balanced ((bodyItems d).flatMap Item.fieldType) := by
  rw [Document.write, ← Document_build_flat] at h
  rw [bodyItems_eq] at ht ⊢
  unfold Balanced
  rw [part_fields (d.ok hs) (fields_document d ht) h]

/-- **C29.** As `C29_document`, for a header. -/
theorem C29_header (x : Header) (hs : ∀ s ∈ x.strings, Stored s) (g g' : Gen) (out : Str)
    (h : x.writeHeader g = some (.ok out, g')) (ht : ∀ t, .toc t ∈ headerPartItems x → tableFirst t = false) :
    Balanced (fieldTypes (readEvents out)) ↔ Balanced ((headerPartItems x).flatMap Item.fieldType) := by
  rw [Header.writeHeader, ← Header_build_flat] at h
  unfold Balanced
  rw [part_fields (x.ok (by decide) hs) (fields_header (by decide) x [.header] (by rfl) ht) h]
  rfl

/-- **C29.** As `C29_document`, for a footer. -/
theorem C29_footer (x : Header) (hs : ∀ s ∈ x.strings, Stored s) (g g' : Gen) (out : Str)
    (h : x.writeFooter g = some (.ok out, g')) (ht : ∀ t, .toc t ∈ footerPartItems x → tableFirst t = false) :
    Balanced (fieldTypes (readEvents out)) ↔ Balanced ((footerPartItems x).flatMap Item.fieldType) := by
  rw [Header.writeFooter, ← Header_build_flat] at h
  unfold Balanced
  rw [part_fields (x.ok (by decide) hs) (fields_header (by decide) x [.footer] (by rfl) ht) h]
  rfl

/-- **C29.** A body without field characters made by the user is written with balanced fields. -/
theorem C29_balanced_partial (d : Document) (hs : ∀ s ∈ d.strings, Stored s) (g g' : Gen) (out : Str)
    (h : d.write g = some (.ok out, g')) (hu : (bodyItems d).flatMap Item.fieldType = [])
    (ht : ∀ t, .toc t ∈ bodyItems d → tableFirst t = false) : Balanced (fieldTypes (readEvents out)) := by
  rw [C29_document d hs g g' out h ht, hu]
  decide

/-- A table of contents followed by a table. -/
def tocThenTable : Document := { children := [.toc { after := [.table { rows := [] }] }] }

/-- **C29.** The condition is needed: the field of a table of contents without entries that is followed by a
table is begun and never ended. -/
theorem C29_fails (g : Gen) :
    ∃ out g', tocThenTable.write g = some (.ok out, g') ∧
      fieldTypes (readEvents out) = [c!"begin", c!"separate"] ∧ ¬ Balanced (fieldTypes (readEvents out)) := by
  have h1 := C45_document tocThenTable g
  rw [WritesElement, if_pos (by decide +kernel)] at h1
  obtain ⟨_, _, g1, e1, _⟩ := h1
  have hs : ∀ s ∈ tocThenTable.strings, Stored s := by decide +kernel
  have key : ∀ out, tocThenTable.write g = some (.ok out, g1) →
      fieldTypes (readEvents out) = [c!"begin", c!"separate"] := by
    intro out e1
    rw [Document.write, ← Document_build_flat] at e1
    obtain ⟨f, h1, h2, h3⟩ := writePart_reads (Document.ok _ hs) e1
    have e1 : w c!"fldChar" = splitQName c!"w:fldChar" := by decide
    have e2 : w c!"fldCharType" = splitQName c!"w:fldCharType" := by decide
    rw [fieldTypes, e1, e2, h3, eventAttrs_tags _ _ _ h2]
    have : tocThenTable.nodes g = some (f, g1) := h1
    simp only [tocThenTable, Document.nodes, eachN, DocumentChild.nodes, Toc.nodes, nodesBlocks, nodesAfter,
      Block.nodesAfter, Table.nodes, nodesRows] at this
    cases this
    rfl
  refine ⟨_, g1, e1, key _ e1, ?_⟩
  rw [key _ e1]
  decide

/-- A table of contents without entries before a paragraph with a field of the user, one with entries, and a
page number in between. -/
def fieldSample : Document :=
  { children :=
    [ .toc { after := [.paragraph { id := c!"1", children :=
        [.run { children := [.fieldChar .begin false, .fieldChar .end_ false] }, .pageNum .page] }] },
      .toc { items := [{ text := c!"a" }, { text := c!"b" }], after := [.table { rows := [] }] } ] }

/-- The theorem applies. -/
theorem C29_example (g : Gen) :
    ∃ out g', fieldSample.write g = some (.ok out, g') ∧ Balanced (fieldTypes (readEvents out)) := by
  have h1 := C45_document fieldSample g
  rw [WritesElement, if_pos (by decide +kernel)] at h1
  obtain ⟨_, _, g1, e1, _⟩ := h1
  have hs : ∀ s ∈ fieldSample.strings, Stored s := by decide +kernel
  refine ⟨_, g1, e1, (C29_document _ hs _ _ _ e1 ?_).2 (by decide +kernel)⟩
  have : ∀ i ∈ bodyItems fieldSample, (match i with | .toc t => tableFirst t | _ => false) = false := by decide +kernel
  exact fun t ht => this _ ht

end Docx.Props
