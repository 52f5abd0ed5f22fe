import Verif.Spec.Json
import Verif.Lemmas.Digits

/-!
# Numbers in the JSON form of a document are written as numbers
-/

namespace Docx

open Spec

set_option linter.unusedSimpArgs false

theorem jnat_ok (n : Nat) : Json.Ok (jnat n) := by
  rw [jnat, Json.Ok]
  have k : ∀ c ∈ c!"0123456789", numberChar c = true := by decide
  exact ⟨dec_ne_nil n, fun c hc => k c (dec_digits n c hc)⟩

theorem str_ok (s : Str) : Json.Ok (.str s) := by simp [Json.Ok]
theorem bool_ok (b : Bool) : Json.Ok (.bool b) := by simp [Json.Ok]

theorem jopt_ok {α : Type} {f : α → Json} (h : ∀ a, Json.Ok (f a)) (a : Option α) : Json.Ok (jopt f a) := by
  cases a with
  | none => simp [jopt, Json.Ok]
  | some a => exact h a

theorem tagged_ok {t : Str} {d : Json} (h : Json.Ok d) : Json.Ok (tagged t d) := by simp [tagged, Json.Ok, fieldsOk, h]

theorem allOk_map {α : Type} {f : α → Json} (h : ∀ a, Json.Ok (f a)) : ∀ l : List α, allOk (l.map f)
  | [] => by simp [allOk]
  | a :: l => by simp [allOk, h a, allOk_map h l]

theorem fieldsOk_append : ∀ (a b : List (Str × Json)), fieldsOk (a ++ b) ↔ fieldsOk a ∧ fieldsOk b
  | [], b => by simp [fieldsOk]
  | (k, v) :: a, b => by simp [fieldsOk, fieldsOk_append a b, and_assoc]

theorem optField_ok {α : Type} {k : Str} {f : α → Json} (h : ∀ a, Json.Ok (f a)) (a : Option α) : fieldsOk (optField k f a) := by
  cases a with
  | none => simp [optField, fieldsOk]
  | some a => simp [optField, fieldsOk, h a]

theorem listField_ok {k : Str} {l : List Json} (h : allOk l) : fieldsOk (listField k l) := by
  cases l with
  | nil => simp [listField, fieldsOk]
  | cons a l => rw [listField, fieldsOk, Json.Ok]; exact ⟨h, by rw [fieldsOk]; trivial⟩; exact fun h => by cases h

theorem link_ok (l : HyperlinkData) : fieldsOk (linkFields l) := by
  cases l with
  | external r p => by_cases h : p = [] <;> simp [linkFields, fieldsOk, h, str_ok]
  | anchor a => simp [linkFields, fieldsOk, str_ok]

theorem text_ok (s : Str) : Json.Ok (textJson s) := by simp [textJson, Json.Ok, fieldsOk]
theorem deleteText_ok (s : Str) : Json.Ok (deleteTextJson s) := by simp [deleteTextJson, Json.Ok, fieldsOk]
theorem id_ok (i : Nat) : Json.Ok (idJson i) := by simp [idJson, Json.Ok, fieldsOk, jnat_ok]
theorem bookmark_ok (i : Nat) (n : Str) : Json.Ok (bookmarkJson i n) := by simp [bookmarkJson, Json.Ok, fieldsOk, jnat_ok]
theorem fieldChar_ok (t : FieldCharType) (d : Bool) : Json.Ok (fieldCharJson t d) := by simp [fieldCharJson, Json.Ok, fieldsOk]
theorem page_ok : Json.Ok pageJson := by simp [pageJson, Json.Ok, fieldsOk]
theorem mark_ok (m : Mark) : Json.Ok (markJson m) := by simp [markJson, Json.Ok, fieldsOk]

section

variable {P : Leaves} (hs : Leaves.Ok P)

include hs

theorem tocItem_ok (i : TocItem) : Json.Ok (tocItemJson P i) := by
  simp [tocItemJson, Json.Ok, fieldsOk, jnat_ok, hs.tocInstr, jopt_ok str_ok]

mutual

theorem runJson_ok : ∀ x : Run, Json.Ok (runJson P x)
  | ⟨pr, cs⟩ => by simp [runJson, Json.Ok, fieldsOk, hs.run, runChildrenJson_ok cs]

theorem runChildJson_ok : ∀ x : RunChild, Json.Ok (runChildJson P x)
  | .text t => by rw [runChildJson]; exact tagged_ok (text_ok t)
  | .sym f c => by rw [runChildJson]; exact tagged_ok (by simp [Json.Ok, fieldsOk])
  | .deleteText t => by rw [runChildJson]; exact tagged_ok (deleteText_ok t)
  | .tab => by rw [runChildJson]; exact (by simp [justType, Json.Ok, fieldsOk])
  | .ptab t => by rw [runChildJson]; exact tagged_ok (hs.ptab t)
  | .brk t => by rw [runChildJson]; exact tagged_ok (by simp [Json.Ok, fieldsOk])
  | .carriageReturn => by rw [runChildJson]; exact (by simp [justType, Json.Ok, fieldsOk])
  | .picture p => by rw [runChildJson]; exact tagged_ok (tagged_ok (hs.picture p))
  | .textBox bs => by rw [runChildJson]; exact tagged_ok (tagged_ok (by simp [Json.Ok, fieldsOk, blocksJson_ok bs, hs.box]))
  | .emptyDrawing => by rw [runChildJson]; exact tagged_ok (by simp [Json.Ok, fieldsOk])
  | .shape s => by rw [runChildJson]; exact tagged_ok (hs.shape s)
  | .commentStart i c => by rw [runChildJson]; exact tagged_ok (by simp [Json.Ok, fieldsOk, jnat_ok, commentJson_ok c])
  | .commentEnd i => by rw [runChildJson]; exact tagged_ok (id_ok i)
  | .fieldChar t d => by rw [runChildJson]; exact tagged_ok (fieldChar_ok t d)
  | .instrText i => by rw [runChildJson]; exact tagged_ok (hs.instr i)
  | .deleteInstrText i => by rw [runChildJson]; exact tagged_ok (hs.deleteInstr i)
  | .instrTextString s => by rw [runChildJson]; exact tagged_ok (str_ok s)
  | .footnoteReference i _ _ => by rw [runChildJson]; exact tagged_ok (id_ok i)
  | .shading s => by rw [runChildJson]; exact tagged_ok (hs.shading s)

theorem runChildrenJson_ok : ∀ x : List RunChild, allOk (runChildrenJson P x)
  | [] => by simp [runChildrenJson, allOk]
  | c :: cs => by rw [runChildrenJson, allOk]; exact ⟨runChildJson_ok c, runChildrenJson_ok cs⟩

theorem commentJson_ok : ∀ x : Comment, Json.Ok (commentJson P x)
  | ⟨i, a, d, bs, p⟩ => by simp [commentJson, Json.Ok, fieldsOk, jnat_ok, blocksJson_ok bs, jopt_ok jnat_ok]

theorem blockJson_ok : ∀ x : Block, Json.Ok (blockJson P x)
  | .paragraph p => by rw [blockJson]; exact tagged_ok (paragraphJson_ok p)
  | .table t => by rw [blockJson]; exact tagged_ok (tableJson_ok t)

theorem blocksJson_ok : ∀ x : List Block, allOk (blocksJson P x)
  | [] => by simp [blocksJson, allOk]
  | c :: cs => by rw [blocksJson, allOk]; exact ⟨blockJson_ok c, blocksJson_ok cs⟩

theorem deleteJson_ok : ∀ x : Delete, Json.Ok (deleteJson P x)
  | ⟨a, d, cs⟩ => by simp [deleteJson, Json.Ok, fieldsOk, deleteChildrenJson_ok cs]

theorem deleteChildJson_ok : ∀ x : DeleteChild, Json.Ok (deleteChildJson P x)
  | .run r => by rw [deleteChildJson]; exact tagged_ok (runJson_ok r)
  | .commentStart i c => by rw [deleteChildJson]; exact tagged_ok (by simp [Json.Ok, fieldsOk, jnat_ok, commentJson_ok c])
  | .commentEnd i => by rw [deleteChildJson]; exact tagged_ok (id_ok i)

theorem deleteChildrenJson_ok : ∀ x : List DeleteChild, allOk (deleteChildrenJson P x)
  | [] => by simp [deleteChildrenJson, allOk]
  | c :: cs => by rw [deleteChildrenJson, allOk]; exact ⟨deleteChildJson_ok c, deleteChildrenJson_ok cs⟩

theorem insertJson_ok : ∀ x : Insert, Json.Ok (insertJson P x)
  | ⟨a, d, cs⟩ => by simp [insertJson, Json.Ok, fieldsOk, insertChildrenJson_ok cs]

theorem insertChildJson_ok : ∀ x : InsertChild, Json.Ok (insertChildJson P x)
  | .run r => by rw [insertChildJson]; exact tagged_ok (runJson_ok r)
  | .delete d => by rw [insertChildJson]; exact tagged_ok (deleteJson_ok d)
  | .commentStart i c => by rw [insertChildJson]; exact tagged_ok (by simp [Json.Ok, fieldsOk, jnat_ok, commentJson_ok c])
  | .commentEnd i => by rw [insertChildJson]; exact tagged_ok (id_ok i)

theorem insertChildrenJson_ok : ∀ x : List InsertChild, allOk (insertChildrenJson P x)
  | [] => by simp [insertChildrenJson, allOk]
  | c :: cs => by rw [insertChildrenJson, allOk]; exact ⟨insertChildJson_ok c, insertChildrenJson_ok cs⟩

theorem hyperlinkJson_ok : ∀ x : Hyperlink, Json.Ok (hyperlinkJson P x)
  | ⟨l, y, cs⟩ => by simp [hyperlinkJson, Json.Ok, fieldsOk, fieldsOk_append, link_ok, jopt_ok jnat_ok, paragraphChildrenJson_ok cs]

theorem paragraphChildJson_ok : ∀ x : ParagraphChild, Json.Ok (paragraphChildJson P x)
  | .run r => by rw [paragraphChildJson]; exact tagged_ok (runJson_ok r)
  | .insert i => by rw [paragraphChildJson]; exact tagged_ok (insertJson_ok i)
  | .delete d => by rw [paragraphChildJson]; exact tagged_ok (deleteJson_ok d)
  | .moveFrom d => by rw [paragraphChildJson]; exact tagged_ok (deleteJson_ok d)
  | .moveTo i => by rw [paragraphChildJson]; exact tagged_ok (insertJson_ok i)
  | .hyperlink y => by rw [paragraphChildJson]; exact tagged_ok (hyperlinkJson_ok y)
  | .bookmarkStart i n => by rw [paragraphChildJson]; exact tagged_ok (bookmark_ok i n)
  | .bookmarkEnd i => by rw [paragraphChildJson]; exact tagged_ok (id_ok i)
  | .commentStart i c => by rw [paragraphChildJson]; exact tagged_ok (by simp [Json.Ok, fieldsOk, jnat_ok, commentJson_ok c])
  | .commentEnd i => by rw [paragraphChildJson]; exact tagged_ok (id_ok i)
  | .sdt s => by rw [paragraphChildJson]; exact tagged_ok (sdtJson_ok s)
  | .pageNum _ => by rw [paragraphChildJson]; exact tagged_ok page_ok
  | .numPages _ => by rw [paragraphChildJson]; exact tagged_ok page_ok

theorem paragraphChildrenJson_ok : ∀ x : List ParagraphChild, allOk (paragraphChildrenJson P x)
  | [] => by simp [paragraphChildrenJson, allOk]
  | c :: cs => by rw [paragraphChildrenJson, allOk]; exact ⟨paragraphChildJson_ok c, paragraphChildrenJson_ok cs⟩

theorem paragraphJson_ok : ∀ x : Paragraph, Json.Ok (paragraphJson P x)
  | ⟨i, cs, pr, n⟩ => by simp [paragraphJson, Json.Ok, fieldsOk, hs.paragraph, paragraphChildrenJson_ok cs]

theorem sdtJson_ok : ∀ x : Sdt, Json.Ok (sdtJson P x)
  | ⟨cs, pr, n⟩ => by simp [sdtJson, Json.Ok, fieldsOk, hs.sdt, sdtChildrenJson_ok cs]

theorem sdtChildJson_ok : ∀ x : SdtChild, Json.Ok (sdtChildJson P x)
  | .run r => by rw [sdtChildJson]; exact tagged_ok (runJson_ok r)
  | .paragraph p => by rw [sdtChildJson]; exact tagged_ok (paragraphJson_ok p)
  | .table t => by rw [sdtChildJson]; exact tagged_ok (tableJson_ok t)
  | .bookmarkStart i n => by rw [sdtChildJson]; exact tagged_ok (bookmark_ok i n)
  | .bookmarkEnd i => by rw [sdtChildJson]; exact tagged_ok (id_ok i)
  | .commentStart i c => by rw [sdtChildJson]; exact tagged_ok (by simp [Json.Ok, fieldsOk, jnat_ok, commentJson_ok c])
  | .commentEnd i => by rw [sdtChildJson]; exact tagged_ok (id_ok i)
  | .sdt s => by rw [sdtChildJson]; exact tagged_ok (sdtJson_ok s)

theorem sdtChildrenJson_ok : ∀ x : List SdtChild, allOk (sdtChildrenJson P x)
  | [] => by simp [sdtChildrenJson, allOk]
  | c :: cs => by rw [sdtChildrenJson, allOk]; exact ⟨sdtChildJson_ok c, sdtChildrenJson_ok cs⟩

theorem tableJson_ok : ∀ x : Table, Json.Ok (tableJson P x)
  | ⟨cs, g, n, pr⟩ => by simp [tableJson, Json.Ok, fieldsOk, hs.table, rowsJson_ok cs, allOk_map jnat_ok g]

theorem rowJson_ok : ∀ x : Row, Json.Ok (rowJson P x)
  | ⟨cs, n, pr⟩ => by simp [rowJson, Json.Ok, fieldsOk, hs.row, cellsJson_ok cs]

theorem rowsJson_ok : ∀ x : List Row, allOk (rowsJson P x)
  | [] => by simp [rowsJson, allOk]
  | c :: cs => by rw [rowsJson, allOk]; exact ⟨tagged_ok (rowJson_ok c), rowsJson_ok cs⟩

theorem cellJson_ok : ∀ x : Cell, Json.Ok (cellJson P x)
  | ⟨cs, pr, n⟩ => by simp [cellJson, Json.Ok, fieldsOk, hs.cell, cellContentsJson_ok cs]

theorem cellsJson_ok : ∀ x : List Cell, allOk (cellsJson P x)
  | [] => by simp [cellsJson, allOk]
  | c :: cs => by rw [cellsJson, allOk]; exact ⟨tagged_ok (cellJson_ok c), cellsJson_ok cs⟩

theorem cellContentJson_ok : ∀ x : CellContent, Json.Ok (cellContentJson P x)
  | .paragraph p => by rw [cellContentJson]; exact tagged_ok (paragraphJson_ok p)
  | .table t => by rw [cellContentJson]; exact tagged_ok (tableJson_ok t)
  | .sdt s => by rw [cellContentJson]; exact tagged_ok (sdtJson_ok s)
  | .toc t => by rw [cellContentJson]; exact tagged_ok (tocJson_ok t)

theorem cellContentsJson_ok : ∀ x : List CellContent, allOk (cellContentsJson P x)
  | [] => by simp [cellContentsJson, allOk]
  | c :: cs => by rw [cellContentsJson, allOk]; exact ⟨cellContentJson_ok c, cellContentsJson_ok cs⟩

theorem tocJson_ok : ∀ x : Toc, Json.Ok (tocJson P x)
  | ⟨a, b, c, d, e, f, g, bs, as, j, k⟩ => by simp [tocJson, Json.Ok, fieldsOk, fieldsOk_append, hs.tocInstr, allOk_map (tocItem_ok hs) b, jopt_ok str_ok, listField_ok (blocksJson_ok bs), listField_ok (blocksJson_ok as), optField_ok mark_ok, optField_ok hs.paragraph]

end

theorem headerChildJson_ok : ∀ x : HeaderChild, Json.Ok (headerChildJson P x)
  | .paragraph p => by rw [headerChildJson]; exact tagged_ok (paragraphJson_ok hs p)
  | .table t => by rw [headerChildJson]; exact tagged_ok (tableJson_ok hs t)
  | .sdt s => by rw [headerChildJson]; exact tagged_ok (sdtJson_ok hs s)

theorem headerJson_ok (h : Header) : Json.Ok (headerJson P h) := by simp [headerJson, Json.Ok, fieldsOk, allOk_map (headerChildJson_ok hs)]

theorem partJson_ok (p : Str × Header) : Json.Ok (partJson P p) := by simp [partJson, Json.Ok, allOk, headerJson_ok hs]

theorem sectionPropertyJson_ok (p : SectionProperty) : Json.Ok (sectionPropertyJson P p) := by
  simp [sectionPropertyJson, Json.Ok, fieldsOk_append, optField_ok (partJson_ok hs), hs.base]

theorem sectionChildJson_ok : ∀ x : SectionChild, Json.Ok (sectionChildJson P x)
  | .paragraph p => by rw [sectionChildJson]; exact tagged_ok (paragraphJson_ok hs p)
  | .table t => by rw [sectionChildJson]; exact tagged_ok (tableJson_ok hs t)
  | .bookmarkStart i n => by rw [sectionChildJson]; exact tagged_ok (bookmark_ok i n)
  | .bookmarkEnd i => by rw [sectionChildJson]; exact tagged_ok (id_ok i)
  | .commentStart i c => by rw [sectionChildJson]; exact tagged_ok (by simp [Json.Ok, fieldsOk, jnat_ok, commentJson_ok hs c])
  | .commentEnd i => by rw [sectionChildJson]; exact tagged_ok (id_ok i)
  | .sdt s => by rw [sectionChildJson]; exact tagged_ok (sdtJson_ok hs s)
  | .toc t => by rw [sectionChildJson]; exact tagged_ok (tocJson_ok hs t)

theorem sectionJson_ok (s : Section) : Json.Ok (sectionJson P s) := by
  simp [sectionJson, Json.Ok, fieldsOk, sectionPropertyJson_ok hs, allOk_map (sectionChildJson_ok hs), jopt_ok (headerJson_ok hs)]

theorem documentChildJson_ok : ∀ x : DocumentChild, Json.Ok (documentChildJson P x)
  | .paragraph p => by rw [documentChildJson]; exact tagged_ok (paragraphJson_ok hs p)
  | .table t => by rw [documentChildJson]; exact tagged_ok (tableJson_ok hs t)
  | .bookmarkStart i n => by rw [documentChildJson]; exact tagged_ok (bookmark_ok i n)
  | .bookmarkEnd i => by rw [documentChildJson]; exact tagged_ok (id_ok i)
  | .commentStart i c => by rw [documentChildJson]; exact tagged_ok (by simp [Json.Ok, fieldsOk, jnat_ok, commentJson_ok hs c])
  | .commentEnd i => by rw [documentChildJson]; exact tagged_ok (id_ok i)
  | .sdt s => by rw [documentChildJson]; exact tagged_ok (sdtJson_ok hs s)
  | .toc t => by rw [documentChildJson]; exact tagged_ok (tocJson_ok hs t)
  | .section s => by rw [documentChildJson]; exact tagged_ok (sectionJson_ok hs s)

/-- Every number in the JSON form of a document is written as a number. -/
theorem documentJson_ok (d : Document) : Json.Ok (documentJson P d) := by
  simp [documentJson, Json.Ok, fieldsOk, sectionPropertyJson_ok hs, allOk_map (documentChildJson_ok hs)]

end

end Docx
