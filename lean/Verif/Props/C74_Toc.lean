import Verif.Lemmas.TocAfter
import Verif.Props.C73_Sections

/-!
# C74: tables of contents, written and read
-/

namespace Docx.Props

open Docx Docx.Spec Docx.Xml

/-- **C74.** What is read from the document part of any document with tables of contents and sections: the paragraphs and content controls they are
written as, every one as it is read by itself. -/
theorem C74_read_back (x : ReadEnv) (d : Document) (hs : AllS d.strings) (h : FlatReadable (spreadAll [] d.children))
    (hp : d.sectionProperty.base.Readable) (g g' : Gen) (out : Str) (e : d.write g = some (.ok out, g')) :
    ∃ sids ids k, ∀ n, k ≤ n → readDocument x n out = .ok ((d.flat sids ids).reread x) [] := by
  obtain ⟨sids, _, ids, _, h⟩ := reads_document_flat (x := x) d hs h hp e
  exact ⟨sids, ids, h⟩

/-- The styles of a file with a table of contents: one style for each level that has none is added. -/
def withTocStyles (d : DocxFile) : Styles :=
  { d.styles with styles := d.styles.styles ++ (Spec.levelsMissing d.styles.styles).map tocStyle }

theorem book_flat (x : ReadEnv) {b : TocBook} {c : DocumentChild} (hb : b.Is c) (hk : b.Kept) :
    (∀ ids : Nat → Str, (∀ n, Stored (ids n)) → ∀ k ∈ c.flatAs ids, k.Readable) ∧ AllS c.strings ∧ c.spreadAs [] = [c] ∧
      (∀ t, c = .toc t → isAuto t = false) ∧
      b.ReadAs tocRead (((c.flatAs fun _ => []).flatMap (DocumentChild.reread x)).map bareDocumentChild) := by
  cases b with
  | item i =>
    obtain rfl := item_is hb
    have hf := fineChild x hk
    have e : ∀ ids, (itemChild i).flatAs ids = [itemChild i] := fun ids => by cases i <;> rfl
    refine ⟨fun ids _ k hm => ?_, hf.strings, by cases i <;> rfl, fun t e => (by cases i <;> cases e), ?_⟩
    · rw [e] at hm
      rw [List.mem_singleton.1 hm]
      exact hf.read
    · rw [e]
      have h2 := (fine_items (x := x) [i] fun j hj => (List.mem_singleton.1 hj) ▸ hk).seen
      have := seenItems_bare { children := ([i].map itemChild).flatMap (DocumentChild.reread x) }
      rw [seenItems, seenItems, h2] at this
      show allThere _ = _
      rw [afterItems_eq]
      exact this
  | toc t before after =>
    have hb : c = .toc t := hb
    subst hb
    have hk : KeptToc t before after := hk
    refine ⟨toc_readable x hk, toc_strings x hk, rfl, fun t' e => ?_, ?_⟩
    · cases e
      rw [isAuto]
      rcases hk.given with h | h
      · cases hi : t.items with
        | nil => exact absurd hi h
        | cons _ _ => rfl
      · rw [h, Bool.and_false]
    · simp only [TocBook.ReadAs]
      split
      · next hn => exact field_read hk hn
      · next hn => exact table_read hk hn

theorem books_flat (x : ReadEnv) : ∀ {bs : List TocBook} {cs : List DocumentChild}, List.Forall₂ TocBook.Is bs cs → (∀ b ∈ bs, b.Kept) →
    FlatReadable (spreadAll [] cs) ∧ AllS (cs.flatMap DocumentChild.strings) ∧ spreadAll [] cs = cs ∧ (∀ c ∈ cs, ∀ t, c = .toc t → isAuto t = false) ∧
      ∃ parts, List.Forall₂ (TocBook.ReadAs tocRead) bs parts ∧
        ((flatAll (fun _ _ => []) cs).flatMap (DocumentChild.reread x)).map bareDocumentChild = parts.flatten
  | _, _, .nil, _ => ⟨fun _ h => (by cases h), fun _ h => (by cases h), rfl, fun _ h => (by cases h), [], .nil, rfl⟩
  | b :: bs, c :: cs, .cons h hs, hk => by
    obtain ⟨h1, h2, h3, h4, parts, h5, h6⟩ := books_flat x hs fun b hb => hk b (List.mem_cons_of_mem _ hb)
    obtain ⟨k1, k2, k3, k4, k5⟩ := book_flat x h (hk b List.mem_cons_self)
    refine ⟨?_, fun s hs => ?_, ?_, fun c' hc => ?_, _ :: parts, .cons k5 h5, ?_⟩
    · rw [spreadAll, List.headD_nil, k3]
      intro c' hc
      rcases List.mem_append.1 hc with hc | hc
      · rw [List.mem_singleton.1 hc]; exact k1
      · exact h1 c' hc
    · rcases List.mem_append.1 hs with hs | hs
      · exact k2 s hs
      · exact h2 s hs
    · rw [spreadAll, List.headD_nil, k3, List.tail_nil, h3]
      rfl
    · rcases List.mem_cons.1 hc with rfl | hc
      · exact k4
      · exact h4 c' hc
    · rw [flatAll, List.flatMap_append, List.map_append, h6, List.flatten_cons]

/-- **C74, for a whole file.** A file with tables of contents, none of them to be filled in, is packed and read. Reading does not fail. What was in the
document comes back in the same order. A table of contents comes back as paragraphs and content controls: what was before it, its entries, and what was
behind it, and its instruction can be read from the first of the entries. The styles of the levels are there, and the rest of the file is read as C61
says. -/
theorem C74_tables_partial (e : FileEnv) (cs : List Call) (d : DocxFile) (env : Env) (w : World) (es : List Entry) (book : List TocBook)
    (S : Sendable cs d env) (h : Packed env d w es) (hb : List.Forall₂ TocBook.Is book d.document.children) (hk : ∀ b ∈ book, b.Kept)
    (ht : ∃ t, .toc t ∈ d.document.children) (hn : bodyComments d.document = []) (hx : ∀ l, .commentsExtended l ∉ cs) :
    ∃ k, ∀ n, k ≤ n → ∃ r, readDocx e n es = .ok r ∧
      (∃ parts, List.Forall₂ (TocBook.ReadAs tocRead) book parts ∧ r.file.document.children.map bareDocumentChild = parts.flatten) ∧
      r.file.comments = [] ∧ RestReadAs e cs { d with styles := withTocStyles d } es r := by
  obtain ⟨hf, hst, hsp, hau, parts, hp1, hp2⟩ := books_flat e.x hb hk
  have hs : AllS d.document.strings := by
    intro s hs
    rcases List.mem_append.1 hs with hs | hs
    · exact hst s hs
    · exact S.page.1 s hs
  have hnt : autoTocIndexes 0 d.document.children = [] := by
    refine List.eq_nil_iff_forall_not_mem.2 fun i hi => ?_
    rw [autoTocIndexes_mem] at hi
    obtain ⟨_, t, ht', ha⟩ := hi
    rw [hau _ (List.mem_of_getElem? ht') t rfl] at ha
    cases ha
  obtain ⟨dt, dt1, k6, dt2⟩ := packed_document_flat (x := e.x) h S.ids hnt hs hf ⟨fun s hs => (S.page.1 s hs).2.1, S.page.2⟩
  obtain ⟨k, hk'⟩ := packed_file_with e S h (C55_package_toc e.x d env w es h ht S.styles)
    (gd := fun q => bareDocument q = bareDocument ((d.document.flat [] fun _ _ => []).reread e.x))
    ⟨dt, dt1, k6, fun n hn => by
      obtain ⟨q, q1, q2⟩ := dt2 n hn
      refine ⟨q, q1, sectionProperty_bare ?_, q2⟩
      have := congrArg Document.sectionProperty q2
      exact this⟩ (good := fun cs' _ => cs' = []) (no_records e S.made h hn hx)
  refine ⟨k, fun n hn' => ?_⟩
  obtain ⟨cs', rs', q, r, rfl, h1, h2, h3, h4, h5, h6, h7, h8, h9, h10, _⟩ := hk' n hn'
  have h10 : r.file.comments = [] := h10
  have h3 : r.file.document.children = q.children := h3
  have hrest : RestReadAs e cs d es { r with file := { r.file with styles := stylesSeen d.styles } } := rest_read S h h4 h5 h6 rfl h8 h9
  refine ⟨r, h1, ⟨parts, hp1, ?_⟩, h10, ⟨hrest.page, hrest.parts, hrest.custom, h7, hrest.numberings, hrest.settings⟩⟩
  have := congrArg Document.children h2
  rw [h3, ← hp2]
  refine Eq.trans this ?_
  simp only [bareDocument, Document.reread, Document.flat, hsp]

/-- **C74.** Whatever is read, it is never a table of contents: this comes back as what it was written as. -/
theorem C74_never_a_table (e : FileEnv) (n : Nat) (ar : List Entry) (r : ReadFile) (h : readDocx e n ar = .ok r) :
    ∀ t, .toc t ∉ r.file.document.children :=
  fun t ht => read_noTocs h _ ht t rfl

/-- **C74.** The name of the content control of a table of contents is lost. -/
theorem C74_fails_alias (x : ReadEnv) (ids : Nat → Str) (t : Toc) (name : Option Str) :
    ((Toc.spread ids { t with «alias» := name }).flatMap (DocumentChild.reread x)) = (t.spread ids).flatMap (DocumentChild.reread x) := by
  obtain ⟨instr, items, auto, dirty, without, al, placeholder, before, after, delete, property⟩ := t
  cases items <;> cases without <;> simp only [Toc.spread, if_true, Bool.false_eq_true, if_false, List.flatMap_cons, List.flatMap_append, control_reread] <;> rfl

/-- **C74.** The instruction of a deleted table of contents is lost. -/
theorem C74_fails_deleted (id : Str) (t : Toc) (m : Mark) (h : t.delete = some m) :
    ∃ author date, (tocStart id t).reread.children =
      [.delete { author := author, date := date, children := [.run { children := [.fieldChar .begin true, .fieldChar .separate false] }] }] := by
  simp only [Paragraph.reread, tocStart, h]
  exact ⟨_, _, rfl⟩

/-! ## Example -/

/-- Two entries, with links, between a paragraph and a table, in a content control. -/
def exampleToc : Toc where
  instr := { headingStylesRange := some (1, 3), hyperlink := true }
  items := [{ text := c!"First & only", tocKey := c!"_Toc1", level := 1, pageRef := some c!"7" }, { text := c!"Other", tocKey := c!"_Toc2", level := 2 }]
  before := [blockOf (.paragraph c!"00000001" {} [.run ({}, [.text c!"Contents"])])]
  after := exampleBody.map blockOf

def exampleTocBook : List TocBook :=
  [.toc exampleToc [.paragraph c!"00000001" {} [.run ({}, [.text c!"Contents"])]] exampleBody,
   .item (.paragraph c!"00000007" {} [.run ({}, [.text c!"end"])])]

def exampleTocCalls : List Call :=
  [.addToc exampleToc, .addParagraph (paragraphOf c!"00000007" {} [.run ({}, [.text c!"end"])])]

theorem tocBook_pack : packs (fun d _ => decide (∀ i ∈ bodyIds (walkStory ⟨d.document, d.comments, d.footnotes⟩), ∀ c ∈ i,
      c ≠ '&' ∧ c ≠ '<' ∧ c ≠ '"' ∧ c ≠ '\r' ∧ c ≠ '\t' ∧ c ≠ '\n') &&
    decide (d.settings.defaultTabStop = 840 ∧ d.settings.docId = none ∧ d.settings.docVars = [] ∧
      partPictures (walkDocument d.document) = [] ∧ bodyLinks d.document = []) &&
    (bodyComments d.document).isEmpty) exampleTocCalls = true := by decide +kernel

theorem tocBook_parts : (DocxFile.new.calls exampleTocCalls).map (fun d => (Side.ofDocument .header d.document,
    Side.ofDocument .footer d.document, d.document.sectionProperty.base, d.styles, d.numberings)) = some ([], [], {}, {}, {}) := by rfl

theorem tocBook_children : (DocxFile.new.calls exampleTocCalls).map (fun d => d.document.children) =
    some [.toc exampleToc, .paragraph (paragraphOf c!"00000007" {} [.run ({}, [.text c!"end"])])] := by rfl

private theorem shortParagraph_kept {id t : Str} (h : PlainValue id) : KeptItem (.paragraph id {} [.run ({}, [.text t])]) := by
  rw [KeptItem]
  refine ⟨h, kept_default, fun p hp => ?_⟩
  rw [List.mem_singleton.1 hp]
  exact kept_empty

theorem exampleToc_kept : KeptToc exampleToc [.paragraph c!"00000001" {} [.run ({}, [.text c!"Contents"])]] exampleBody where
  isBefore := rfl
  isAfter := rfl
  keptBefore := fun i hi => by
    rw [List.mem_singleton.1 hi]
    exact shortParagraph_kept (plain_lit (by decide))
  keptAfter := keptItems_mem exampleBody_kept
  given := .inl (by decide)
  still := rfl
  instr := by
    constructor <;> first
      | (intro s e; cases e; done)
      | (intro r e; cases e; decide)
  names := by
    have : exampleToc.instr.strings = [] := by decide
    rw [this]
    exact fun _ h => (by cases h)
  keys := by
    intro i hi
    simp only [exampleToc, List.mem_cons, List.not_mem_nil, or_false] at hi
    rcases hi with rfl | rfl <;> exact plain_lit (by decide)
  «alias» := fun _ e => (by cases e)
  property := fun _ e => (by cases e)

/-- A packed file with a table of contents meets the hypotheses of `C74_tables_partial`. -/
theorem tocBook_example : ∃ d es, Sendable exampleTocCalls d anEnv ∧ Packed anEnv d {} es ∧
    List.Forall₂ TocBook.Is exampleTocBook d.document.children ∧ (∀ b ∈ exampleTocBook, b.Kept) ∧ (∃ t, .toc t ∈ d.document.children) ∧
    bodyComments d.document = [] ∧ (∀ l, Call.commentsExtended l ∉ exampleTocCalls) := by
  obtain ⟨d, es, h1, h2, h3⟩ := packs_spec tocBook_pack
  rw [Bool.and_eq_true, Bool.and_eq_true, decide_eq_true_eq, decide_eq_true_eq] at h3
  obtain ⟨⟨i1, s1, s2, s3, p1, p2⟩, n1⟩ := h3
  have h4 := tocBook_parts
  rw [h1] at h4
  simp only [Option.map_some, Option.some.injEq, Prod.mk.injEq] at h4
  obtain ⟨b, c, f, st, nu⟩ := h4
  have a := tocBook_children
  rw [h1] at a
  simp only [Option.map_some, Option.some.injEq] at a
  have hnone : ∀ side : Side, side.ofDocument d.document = [] := by
    intro side
    cases side
    · exact b
    · exact c
  refine ⟨d, es, ?_, h2, ?_, ?_, ⟨exampleToc, by rw [a]; exact .head _⟩, List.isEmpty_iff.1 n1, ?_⟩
  · exact {
      made := h1
      links := fun l => .refl _
      props := fun l => .refl _
      dependencies := ⟨by rw [p1]; exact fun _ h => (by cases h), by rw [p2]; exact fun _ h => (by cases h)⟩
      pictures := ⟨by rw [p1]; exact fun _ h => (by cases h), fun side h hh => (by rw [hnone] at hh; cases hh)⟩
      plainly := by
        refine ⟨fun x hx => ?_, fun s hs => ?_⟩
        · simp [exampleTocCalls] at hx
        · simp [exampleTocCalls] at hs
      order := by intro side; cases side <;> (unfold InOrder; decide)
      ids := i1
      parts := fun side h hh => (by rw [hnone] at hh; cases hh)
      custom := by
        intro name value hm
        simp [exampleTocCalls] at hm
      styles := by
        rw [st]
        exact ⟨by constructor <;> simp, paragraphProperty_default_kept, fun t ht => (by cases ht)⟩
      numberings := by
        rw [nu]
        exact ⟨fun t ht => (by cases ht), fun _ h => (by cases h)⟩
      settings := by
        refine ⟨by rw [s1]; omega, fun i hi => ?_, fun v hv => ?_⟩
        · rw [s2] at hi; cases hi
        · rw [s3] at hv; cases hv
      page := by
        rw [f]
        refine ⟨fun s hs => ?_, ?_⟩
        · simp only [SectionBase.strings, optStrings, PartReference.strings, List.mem_append, List.mem_cons, List.not_mem_nil, or_false] at hs
          rcases hs with rfl | rfl | rfl <;> exact stored_of_plain (plain_lit (by decide))
        · simp [-String.reduceToList, SectionBase.Placed] }
  · rw [a]
    exact .cons rfl (.cons rfl .nil)
  · intro k hk
    simp only [exampleTocBook, List.mem_cons, List.not_mem_nil, or_false] at hk
    rcases hk with rfl | rfl
    · exact exampleToc_kept
    · exact shortParagraph_kept (plain_lit (by decide))
  · intro l hl
    simp [exampleTocCalls] at hl

/-- What is read from it: first a content control. -/
example (e : FileEnv) : ∃ es k, ∀ n, k ≤ n → ∃ r, readDocx e n es = .ok r ∧ ∃ ps, EntriesRead exampleToc (tocRead exampleToc.instr) ps ∧
    ∃ front, seenBlocks front = some (dropIds (afterItems [.paragraph c!"00000001" {} [.run ({}, [.text c!"Contents"])]])) ∧
      (r.file.document.children.map bareDocumentChild).head? = some (.sdt { children := front.map Block.inControl ++ ps.map .paragraph }) := by
  obtain ⟨d, es, a1, a2, a3, a4, a5, a6, a7⟩ := tocBook_example
  obtain ⟨k, hk⟩ := C74_tables_partial e exampleTocCalls d anEnv {} es exampleTocBook a1 a2 a3 a4 a5 a6 a7
  refine ⟨es, k, fun n hn => ?_⟩
  obtain ⟨r, b1, ⟨parts, b2, b3⟩, _⟩ := hk n hn
  refine ⟨r, b1, ?_⟩
  rw [exampleTocBook] at b2
  cases b2 with
  | cons h t =>
    obtain ⟨front, ps, back, f1, f2, f3, rfl⟩ := h
    exact ⟨ps, f2, front, f1, by rw [b3]; rfl⟩

end Docx.Props
