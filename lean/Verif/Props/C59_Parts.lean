import Verif.Lemmas.SeenBare
import Verif.Lemmas.AfterBody
import Verif.Lemmas.HeldParts
import Verif.Lemmas.ReadRelsDoc
import Verif.Lemmas.Witness
import Verif.Props.C37_Body
import Verif.Props.C52_PageSetup
import Verif.Spec.References

/-!
# C37 and C59: the body, the headers and the footers of a packed file are read back
-/

namespace Docx.Props
open Docx.Spec Docx.Xml

theorem no_tocs (items : List BodyItem) {cs : List DocumentChild} (h : cs = (bodyOf items).children) : autoTocIndexes 0 cs = [] := by
  refine List.eq_nil_iff_forall_not_mem.2 fun i hi => ?_
  rw [autoTocIndexes_mem, h, (bodyOf_children items).1] at hi
  obtain ⟨_, t, ht, _⟩ := hi
  rw [List.getElem?_map] at ht
  cases e : items[i - 0]? with
  | none => rw [e] at ht; cases ht
  | some j => rw [e] at ht; cases j <;> cases ht

/-- The document part of the entries is read as a document with the items `seen`, whatever the ids of their paragraphs, and with the page
set-up `page`. -/
def DocumentReadAs (x : ReadEnv) (es : List Entry) (seen : List BodyItem) (page : SectionBase) : Prop :=
  ∃ text, ⟨c!"word/document.xml", .text text⟩ ∈ es ∧ ∃ k, ∀ n, k ≤ n → ∃ q, readDocument x n text = .ok q [] ∧
    (seenItems q).map dropIds = some (dropIds seen) ∧ q.sectionProperty.base = page

/-- The part of the header or footer `number` is read as one with the items `seen`, whatever the ids of their paragraphs. -/
def PartReadAs (x : ReadEnv) (es : List Entry) (side : Side) (number : Nat) (seen : List BodyItem) : Prop :=
  ∃ text, ⟨side.entry number, .text text⟩ ∈ es ∧ ∃ k, ∀ n, k ≤ n → ∃ q, readHeader x n text = .ok q [] ∧
    (seenHeader q).map dropIds = some (dropIds seen)

/-- What is read from the document part of any packed file whose document is readable and has no table of contents to be filled in. -/
theorem packed_document {x : ReadEnv} {d : DocxFile} {env : Env} {w : World} {es : List Entry} (h : Packed env d w es)
    (hi : ∀ i ∈ bodyIds (walkStory ⟨d.document, d.comments, d.footnotes⟩), PlainValue i)
    (ht : autoTocIndexes 0 d.document.children = []) (hs : AllS d.document.strings) (hr : d.document.Readable) :
    ∃ text, ⟨c!"word/document.xml", .text text⟩ ∈ es ∧ ∃ k, ∀ n, k ≤ n → ∃ q, readDocument x n text = .ok q [] ∧
      bareDocument q = bareDocument (d.document.reread x) ∧ q = (d.preparePackage env w).1.document.reread x ∧
      (d.preparePackage env w).1.document.Readable := by
  obtain ⟨s, g, g', h1, h2⟩ := fits_write (packed_fits h) (step_document _ _ _)
  have hb := preparePackage_bare env d w ht
  have hs' := prepared_strings generates_stored env d w hs fun i h => stored_of_plain (hi i h)
  generalize (d.preparePackage env w).1.document = p at h1 hb hs'
  have hr' : p.Readable := bareDocument_readable (by rw [hb]; exact readable_bareDocument hr) hs'
  obtain ⟨k, hk⟩ := reads_document (x := x) p hs' hr' h1
  exact ⟨s, h2, k, fun n hn => ⟨_, hk n hn, by rw [bareDocument_reread, bareDocument_reread, hb], rfl, hr'⟩⟩

/-- **C37, for a whole file.** The document part of a packed file is read back with the same paragraphs, runs, tracked changes,
bookmarks, links, tables, rows and cells with the same formatting, in the same order, and with its page set-up; a text comes back as
`afterText` says. -/
theorem C37_package (x : ReadEnv) (d : DocxFile) (env : Env) (w : World) (es : List Entry) (items : List BodyItem) (h : Packed env d w es)
    (hi : ∀ i ∈ bodyIds (walkStory ⟨d.document, d.comments, d.footnotes⟩), PlainValue i)
    (hb : d.document.children = (bodyOf items).children) (hk : KeptItems items)
    (hp : AllS d.document.sectionProperty.base.strings ∧ SectionBase.Placed d.document.sectionProperty.base) :
    ∃ page, PageSetupReadAs x d.document.sectionProperty.base page ∧ DocumentReadAs x es (afterItems items) page := by
  refine ⟨_, C52_read_back x _ hp.1 hp.2, ?_⟩
  have hf := fineDocument x hk
  have hs : AllS d.document.strings := by
    intro s hs
    simp only [Document.strings, hb, List.mem_append] at hs
    rcases hs with hs | hs
    · exact hf.strings s (List.mem_append_left _ hs)
    · exact hp.1 s hs
  have hr : d.document.Readable := ⟨by rw [hb]; exact hf.read.1, fun s hs => (hp.1 s hs).2.1, hp.2⟩
  obtain ⟨text, h1, k, hk⟩ := packed_document (x := x) h hi (no_tocs items hb) hs hr
  refine ⟨text, h1, k, fun n hn => ?_⟩
  obtain ⟨q, h2, h3, _⟩ := hk n hn
  refine ⟨q, h2, ?_, ?_⟩
  · rw [← seenItems_bare, h3, seenItems_bare]
    have : seenItems (d.document.reread x) = seenItems ((bodyOf items).reread x) := by
      simp only [seenItems, Document.reread, hb]
    rw [this, hf.seen]
    rfl
  · exact congrArg (fun d => d.sectionProperty.base) h3

theorem side_name (side : Side) (n : Nat) : partName (Side.kind side) n = side.entry n := by
  cases side <;> rfl

theorem documentReadAs_unique {x : ReadEnv} {env : Env} {d : DocxFile} {w : World} {es : List Entry} (h : Packed env d w es)
    {a b : List BodyItem} {p q : SectionBase} (ha : DocumentReadAs x es a p) (hb : DocumentReadAs x es b q) : dropIds a = dropIds b ∧ p = q := by
  obtain ⟨t, h1, k, hk⟩ := ha
  obtain ⟨t', h1', k', hk'⟩ := hb
  have := entry_unique (packed_nodup h) h1 h1'
  cases this
  obtain ⟨u, e1, e2, e3⟩ := hk (max k k') (Nat.le_max_left _ _)
  obtain ⟨v, f1, f2, f3⟩ := hk' (max k k') (Nat.le_max_right _ _)
  rw [e1] at f1
  cases f1
  exact ⟨Option.some.inj (e2.symm.trans f2), e3.symm.trans f3⟩

theorem partReadAs_unique {x : ReadEnv} {env : Env} {d : DocxFile} {w : World} {es : List Entry} (h : Packed env d w es) {side : Side} {n : Nat}
    {a b : List BodyItem} (ha : PartReadAs x es side n a) (hb : PartReadAs x es side n b) : dropIds a = dropIds b := by
  obtain ⟨t, h1, k, hk⟩ := ha
  obtain ⟨t', h1', k', hk'⟩ := hb
  have := entry_unique (packed_nodup h) h1 h1'
  cases this
  obtain ⟨u, e1, e2⟩ := hk (max k k') (Nat.le_max_left _ _)
  obtain ⟨v, f1, f2⟩ := hk' (max k k') (Nat.le_max_right _ _)
  rw [e1] at f1
  cases f1
  exact Option.some.inj (e2.symm.trans f2)

/-- **C59.** Every header and footer of a packed file is read back with the same paragraphs, runs, tracked changes, bookmarks, links,
tables, rows and cells with the same formatting, in the same order; a text comes back as `afterText` says. -/
theorem C59_parts (x : ReadEnv) (d : DocxFile) (env : Env) (w : World) (es : List Entry) (h : Packed env d w es)
    (hi : ∀ i ∈ bodyIds (walkStory ⟨d.document, d.comments, d.footnotes⟩), PlainValue i) (side : Side) (j : Nat) (items : List BodyItem)
    (hj : (side.ofDocument d.document)[j]? = some (headerOf items)) (hk : KeptItems items) :
    PartReadAs x es side (j + 1) (afterItems items) := by
  have hall : side.ofDocument d.document = (Side.all side d.document).map Prod.snd := by rw [heads_all]; cases side <;> rfl
  rw [hall, List.getElem?_map] at hj
  obtain ⟨y, hy, hy2⟩ : ∃ y, (Side.all side d.document)[j]? = some y ∧ y.2 = headerOf items := by
    cases e : (Side.all side d.document)[j]? with
    | none => rw [e] at hj; cases hj
    | some y => rw [e] at hj; exact ⟨y, rfl, Option.some.inj hj⟩
  have hf := fineHeader x hk
  have hbare := prepared_parts side env d w
  have hstr := fun z hz => prepared_part_string generates_stored side env d w (x := y) (y := z) hy hz (hy2 ▸ hf.strings)
    fun i h => stored_of_plain (hi i h)
  have hfit := packed_fits h
  generalize d.preparePackage env w = q at hfit hbare hstr
  have e := congrArg (·[j]?) hbare
  simp only [List.getElem?_map, hy, Option.map_some] at e
  cases e2 : (Side.all side q.1.document)[j]? with
  | none => rw [e2] at e; cases e
  | some z =>
    rw [e2] at e
    simp only [Option.map_some, Option.some.injEq, Prod.mk.injEq] at e
    obtain ⟨s, g, g', h3, h4⟩ := fits_write hfit (step_part side env q.1 q.2.1 j z.2 (by rw [List.getElem?_map, e2]; rfl))
    have hz := hstr z e2
    have hr : z.2.Readable := bareHeader_readable (by rw [e.2, hy2]; exact readable_bareHeader hf.read) hz
    have hread : ∃ k, ∀ n, k ≤ n → readHeader x n s = .ok (z.2.reread x) [] := by
      cases side with
      | header => exact reads_header c!"w:hdr" (by decide +kernel) (by decide) z.2 hz hr h3
      | footer => exact reads_header c!"w:ftr" (by decide +kernel) (by decide) z.2 hz hr h3
    obtain ⟨k, hk⟩ := hread
    rw [side_name] at h4
    refine ⟨s, h4, k, fun n hn => ⟨_, hk n hn, ?_⟩⟩
    rw [← seenHeader_bare, bareHeader_reread, e.2, hy2, ← bareHeader_reread, seenHeader_bare, hf.seen]
    rfl

/-- **C59, in part.** A header or footer comes back the same, texts included, exactly if no text in it is empty, has a line end or shows an
entity reference. Full statement: always; it is false, see `C37_fails_entity` and `C37_fails_empty`, which are about the same items. -/
theorem C59_same_partial (x : ReadEnv) (d : DocxFile) (env : Env) (w : World) (es : List Entry) (h : Packed env d w es)
    (hi : ∀ i ∈ bodyIds (walkStory ⟨d.document, d.comments, d.footnotes⟩), PlainValue i) (side : Side) (j : Nat) (items : List BodyItem)
    (hj : (side.ofDocument d.document)[j]? = some (headerOf items)) (hk : KeptItems items) :
    PartReadAs x es side (j + 1) items ↔ ∀ t ∈ textsOf items, BodyText t := by
  have hr := C59_parts x d env w es h hi side j items hj hk
  rw [← items_same, ← same_items]
  constructor
  · exact fun hi => partReadAs_unique h hr hi
  · rintro e
    obtain ⟨t, h1, k, hk⟩ := hr
    exact ⟨t, h1, k, fun n hn => e ▸ hk n hn⟩

/-- A paragraph with one text. -/
private def said (id t : Str) : BodyItem := .paragraph id {} [.run ({}, [.text t])]

private theorem said_kept {id t : Str} (h : PlainValue id) : KeptItem (said id t) := by
  rw [said, KeptItem]
  refine ⟨h, kept_default, ?_⟩
  intro p hp
  simp only [List.mem_singleton] at hp
  subst hp
  exact kept_empty

/-- A body with a paragraph and a table; two paragraphs have the same id. -/
def exampleBody : List BodyItem := [said c!"00000001" c!"a < b", .table [[[said c!"00000001" c!"cell"]]]]
/-- A header. -/
def exampleHeader : List BodyItem := [.table [[[said c!"00000003" c!"left"], [said c!"00000003" c!"right"]]], said c!"00000004" c!"page"]
/-- A footer. -/
def exampleFooter : List BodyItem := [said c!"00000005" c!"Q & A"]

theorem exampleBody_kept : KeptItems exampleBody := by
  have q1 : KeptItem (said c!"00000001" c!"a < b") := said_kept (plain_lit (by decide))
  have q2 : KeptItem (said c!"00000001" c!"cell") := said_kept (plain_lit (by decide))
  simp only [exampleBody, KeptItems, KeptItem, KeptRows, KeptCells, q1, q2, and_true, true_and]
  simp [said]

theorem exampleHeader_kept : KeptItems exampleHeader := by
  have q : ∀ t, KeptItem (said c!"00000003" t) := fun t => said_kept (plain_lit (by decide))
  have q' : ∀ t, KeptItem (said c!"00000004" t) := fun t => said_kept (plain_lit (by decide))
  simp only [exampleHeader, KeptItems, KeptItem, KeptRows, KeptCells, q, q', and_true, true_and]
  simp [said]

theorem exampleFooter_kept : KeptItems exampleFooter := ⟨said_kept (plain_lit (by decide)), trivial⟩

/-- The calls that make a file of them. -/
def exampleCalls : List Call :=
  [.addParagraph (paragraphOf c!"00000001" {} [.run ({}, [.text c!"a < b"])]), .header (headerOf exampleHeader),
   .addTable (Table.new (rowsOf [[[said c!"00000001" c!"cell"]]])), .evenHeader (headerOf exampleBody), .footer (headerOf exampleFooter)]

theorem example_pack : packs (fun d _ => decide (∀ i ∈ bodyIds (walkStory ⟨d.document, d.comments, d.footnotes⟩), ∀ c ∈ i,
      c ≠ '&' ∧ c ≠ '<' ∧ c ≠ '"' ∧ c ≠ '\r' ∧ c ≠ '\t' ∧ c ≠ '\n')) exampleCalls = true := by decide +kernel

theorem example_parts : (DocxFile.new.calls exampleCalls).map (fun d => (d.document.children, Side.ofDocument .header d.document,
    Side.ofDocument .footer d.document, d.document.sectionProperty.base)) =
    some ((bodyOf exampleBody).children, [headerOf exampleHeader, headerOf exampleBody], [headerOf exampleFooter],
      { headerReference := some ⟨c!"default", c!"rIdHeader1"⟩, evenHeaderReference := some ⟨c!"even", c!"rIdHeader2"⟩,
        footerReference := some ⟨c!"default", c!"rIdFooter1"⟩ }) := by rfl

/-- A packed file with a body, two headers and a footer meets the hypotheses of `C37_package` and `C59_parts`. -/
example : ∃ d es, DocxFile.new.calls exampleCalls = some d ∧ Packed anEnv d {} es ∧
    (∀ i ∈ bodyIds (walkStory ⟨d.document, d.comments, d.footnotes⟩), PlainValue i) ∧
    d.document.children = (bodyOf exampleBody).children ∧ KeptItems exampleBody ∧
    (AllS d.document.sectionProperty.base.strings ∧ SectionBase.Placed d.document.sectionProperty.base) ∧
    (Side.header.ofDocument d.document)[0]? = some (headerOf exampleHeader) ∧ KeptItems exampleHeader ∧
    (Side.header.ofDocument d.document)[1]? = some (headerOf exampleBody) ∧
    (Side.footer.ofDocument d.document)[0]? = some (headerOf exampleFooter) ∧ KeptItems exampleFooter := by
  obtain ⟨d, es, h1, h2, h3⟩ := packs_spec example_pack
  rw [decide_eq_true_eq] at h3
  have h4 := example_parts
  rw [h1] at h4
  simp only [Option.map_some, Option.some.injEq, Prod.mk.injEq] at h4
  obtain ⟨a, b, c, e⟩ := h4
  refine ⟨d, es, h1, h2, h3, a, exampleBody_kept, ?_, by rw [b]; rfl, exampleHeader_kept, by rw [b]; rfl, by rw [c]; rfl, exampleFooter_kept⟩
  rw [e]
  refine ⟨fun s hs => ?_, ?_⟩
  · simp only [SectionBase.strings, optStrings, PartReference.strings, List.mem_append, List.mem_cons, List.not_mem_nil, or_false] at hs
    rcases hs with ((rfl | rfl | rfl) | rfl | rfl) | rfl | rfl <;> exact stored_of_plain (plain_lit (by decide))
  · simp [-String.reduceToList, SectionBase.Placed]

end Docx.Props
