import Verif.Lemmas.FileRead
import Verif.Lemmas.StoredRanges
import Verif.Lemmas.Witness
import Verif.Props.C23_Numbering

/-!
# C61: a packed file, read as a whole
-/

namespace Docx.Props

open Docx Docx.Spec Docx.Xml

/-- The document, the headers and footers, the custom properties, the styles, the numberings and the settings of a file that was read:
those of the file the calls make, as far as each of them is kept. -/
structure RestReadAs (e : FileEnv) (cs : List Call) (d : DocxFile) (es : List Entry) (r : ReadFile) : Prop where
  /-- The page set-up. -/
  page : PageSetupReadAs e.x d.document.sectionProperty.base r.file.document.sectionProperty.base
  /-- The header and the footer for all pages, for the first page and for even pages: the last ones given. -/
  parts : ∀ side : Side, List.Forall₂ (Option.Rel KeptPart) ([0, 1, 2].map (side.last · cs)) (Side.heads side r.file.document.sectionProperty)
  /-- A custom property has the last value given for its name, unless this is blank. -/
  custom : ∀ name value, (name, value) ∈ r.file.custom ↔ lastProperty cs name = some value ∧ blankText value = false
  styles : r.file.styles = stylesSeen d.styles
  numberings : NumberingRelated es → r.file.numberings = numberingSeen d.numberings
  settings : r.file.settings = afterSettings d.settings

/-- The records of comments of a file without comments. -/
theorem no_records (e : FileEnv) {cs : List Call} {d : DocxFile} {env : Env} {w : World} {es : List Entry} (hc : DocxFile.new.calls cs = some d)
    (h : Packed env d w es) (hn : bodyComments d.document = []) (hx : ∀ l, .commentsExtended l ∉ cs) :
    ∃ comments records, ⟨c!"word/comments.xml", .text comments⟩ ∈ es ∧ ⟨c!"word/commentsExtended.xml", .text records⟩ ∈ es ∧
      ∃ k, ∀ n, k ≤ n → ∃ cs' rs', ((∃ c ∈ bodyComments d.document, directParagraphs c ≠ []) → readComments e.x n comments = .ok cs' [.endDocument]) ∧
        ((¬ ∃ c ∈ bodyComments d.document, directParagraphs c ≠ []) → cs' = []) ∧
        readCommentsExtended n records = .ok rs' [.endDocument] ∧ cs' = [] := by
  have hno : ¬ ∃ c ∈ bodyComments d.document, directParagraphs c ≠ [] := by rw [hn]; rintro ⟨_, h, _⟩; cases h
  have hrec : (d.preparePackage env w).1.commentsExtended = [] :=
    (preparePackage_noRecords hno).trans (calls_commentsExtended cs _ _ hx hc)
  obtain ⟨s, g, g', _, h2⟩ := fits_write (packed_fits h) (step_comments _ _ _)
  have h3 := fits_const (packed_fits h) (step_commentsExtended _ _ _) (commentsExtended_const _)
  rw [hrec] at h3
  obtain ⟨k, hk⟩ := reads_records [] (fun _ h => (by cases h)) List.nodup_nil 
    (C06_read_print _ (commentsExtended_ok [] fun _ hs => (by cases hs)))
  exact ⟨s, _, h2, h3, k, fun n hn' => ⟨[], [], fun h => absurd h hno, fun _ => rfl, hk n hn', rfl⟩⟩

/-- The file read, but for its body and its comments. -/
theorem rest_read {e : FileEnv} {cs : List Call} {d : DocxFile} {env : Env} {w : World} {es : List Entry} {r : ReadFile} (S : Sendable cs d env)
    (h : Packed env d w es) (h1 : r.file.document.sectionProperty.base = d.document.sectionProperty.base.reread)
    (h2 : ∀ side : Side, List.Forall₂ (Option.Rel KeptPart) (Side.heads side d.document.sectionProperty) (Side.heads side r.file.document.sectionProperty))
    (h3 : KeptProperties cs r.file.custom) (h4 : r.file.styles = stylesSeen d.styles)
    (h5 : r.file.numberings = (if d.documentRels.hasNumberings then numberingSeen d.numberings else {}))
    (h6 : r.file.settings = afterSettings d.settings) : RestReadAs e cs d es r where
  page := by rw [h1]; exact C52_read_back e.x _ S.page.1 S.page.2
  parts side := by
    have := heads_passed side S.plainly S.made
    rw [sectionProperties_eq, List.map_cons] at this
    have e := (List.cons.inj this).1
    rw [← e]
    exact h2 side
  custom := h3
  styles := h4
  numberings hn := by rw [h5, if_pos ((numbering_related_iff (calls_sound S.made) S.links S.dependencies.nameable h).1 hn)]
  settings := h6

/-- **C61.** A file that calls make out of things that are kept, packed and read: reading does not fail, and gives a file with the same
body, page set-up, headers, footers, custom properties, styles, numberings and settings, in the sense of C37, C52, C54, C55, C58, C59
and C60. -/
theorem C61_read_file (e : FileEnv) (cs : List Call) (d : DocxFile) (env : Env) (w : World) (es : List Entry) (items : List BodyItem)
    (S : Sendable cs d env) (h : Packed env d w es) (hb : d.document.children = (bodyOf items).children) (hk : KeptItems items)
    (hn : bodyComments d.document = []) (hx : ∀ l, .commentsExtended l ∉ cs) :
    ∃ k, ∀ n, k ≤ n → ∃ r, readDocx e n es = .ok r ∧ (seenItems r.file.document).map dropIds = some (dropIds (afterItems items)) ∧
      r.file.comments = [] ∧ RestReadAs e cs d es r := by
  have hf := fineDocument e.x hk
  have hs : AllS d.document.strings := by
    intro s hs
    simp only [Document.strings, hb, List.mem_append] at hs
    rcases hs with hs | hs
    · exact hf.strings s (List.mem_append_left _ hs)
    · exact S.page.1 s hs
  have hr : d.document.Readable := ⟨by rw [hb]; exact hf.read.1, fun s hs => (S.page.1 s hs).2.1, S.page.2⟩
  have ht : ∀ c ∈ d.document.children, ∀ t, c ≠ .toc t := by
    intro c hc t e
    rw [hb, (bodyOf_children items).1] at hc
    obtain ⟨i, _, rfl⟩ := List.mem_map.1 hc
    cases i <;> cases e
  obtain ⟨k, hk'⟩ := packed_file e S h ht hs hr (good := fun cs' _ => cs' = []) (no_records e S.made h hn hx)
  refine ⟨k, fun n hn' => ?_⟩
  obtain ⟨cs', rs', q, r, rfl, h1, h2, h3, h4, h5, h6, h7, h8, h9, h10, _⟩ := hk' n hn'
  have h10 : r.file.comments = [] := h10
  have h3 : r.file.document.children = q.children := h3
  refine ⟨r, h1, ?_, h10, rest_read S h h4 h5 h6 h7 h8 h9⟩
  have : seenItems r.file.document = seenItems q := by simp only [seenItems, h3]
  rw [this, ← seenItems_bare, h2, seenItems_bare]
  have : seenItems (d.document.reread e.x) = seenItems ((bodyOf items).reread e.x) := by
    simp only [seenItems, Document.reread, hb]
  rw [this, hf.seen]
  rfl

/-- **C61, with comments.** The body may be any readable one without tables of contents. Its comments are found as C57 says, and where a
comment starts directly in a paragraph of the body, or of a table of the body, there is the comment found. (Nothing is said of comments
that start in a tracked change or a link.) -/
theorem C61_comments_partial (e : FileEnv) (cs : List Call) (d : DocxFile) (env : Env) (w : World) (es : List Entry) (items : List CommentItem)
    (S : Sendable cs d env) (h : Packed env d w es) (ht : ∀ c ∈ d.document.children, ∀ t, c ≠ .toc t) (hs : AllS d.document.strings)
    (hr : d.document.Readable) (hc : Copied d) (hb : bodyComments d.document = items.map commentOf) (hk : ∀ c ∈ items, c.Kept)
    (hne : ∃ c ∈ items, c.paragraphs ≠ []) :
    ∃ k, ∀ n, k ≤ n → ∃ r, readDocx e n es = .ok r ∧
      (r.file.comments.map fun c => (seenComment c).map CommentItem.dropIds) = ((afterComments items).map fun c => some c.dropIds) ∧
      (∀ w id c, (w, Item.comment id c) ∈ walkDocument r.file.document → inParagraphs w = true → (∃ c' ∈ r.file.comments, c'.id = id) →
        c ∈ r.file.comments ∧ c.id = id) ∧ RestReadAs e cs d es r := by
  have hsome : ∃ c ∈ bodyComments d.document, directParagraphs c ≠ [] := by
    obtain ⟨c, hc, hne⟩ := hne
    refine ⟨commentOf c, by rw [hb]; exact List.mem_map_of_mem hc, fun h0 => hne ?_⟩
    have := commentOf_ids c
    rw [directParagraphs_ids, h0] at this
    exact List.length_eq_zero_iff.1 this.symm
  obtain ⟨co, rec, e1, e2, k, hk'⟩ := C57_package e.x d env w es items hc S.ids h hb hk hne
  obtain ⟨k', hk2⟩ := packed_file e S h ht hs hr
    (good := fun cs' rs' => ((threads cs' rs').map fun c => (seenComment c).map CommentItem.dropIds) = (afterComments items).map fun c => some c.dropIds)
    ⟨co, rec, e1, e2, k, fun n hn => by
      obtain ⟨cs', rs', a1, a2, a3⟩ := hk' n hn
      exact ⟨cs', rs', fun _ => a1, fun h => absurd hsome h, a2, a3⟩⟩
  refine ⟨k', fun n hn' => ?_⟩
  obtain ⟨cs', rs', q, r, hg, h1, h2, h3, h4, h5, h6, h7, h8, h9, h10, _⟩ := hk2 n hn'
  refine ⟨r, h1, by rw [h10]; exact hg, fun w id c hm hw hc => ?_, rest_read S h h4 h5 h6 h7 h8 h9⟩
  rw [h10] at hc ⊢
  have hc2 := hc
  obtain ⟨c', hc', _⟩ := hc2
  rw [if_neg (by intro h0; rw [List.isEmpty_iff.1 h0] at hc'; cases hc')] at h3
  exact stored_ranges h3 hm hw hc

/-! ## Witnesses -/

/-- A body with a paragraph and a table, two headers, a footer, a custom property, a style, a definition of numbering and settings. -/
def wholeCalls : List Call :=
  exampleCalls ++ [.customProperty c!"author" c!"Ann", .addStyle aStyle, .addAbstractNumbering standardDefinition, .defaultTabStop 720,
    .addDocVar c!"year" c!"2024"]

theorem whole_pack : packs (fun d _ => decide (∀ i ∈ bodyIds (walkStory ⟨d.document, d.comments, d.footnotes⟩), ∀ c ∈ i,
      c ≠ '&' ∧ c ≠ '<' ∧ c ≠ '"' ∧ c ≠ '\r' ∧ c ≠ '\t' ∧ c ≠ '\n') &&
    decide (d.settings.defaultTabStop = 720 ∧ d.settings.docId = none ∧ d.settings.docVars = [(c!"year", c!"2024")] ∧
      partPictures (walkDocument d.document) = [] ∧ bodyLinks d.document = [] ∧
      (Side.ofDocument .header d.document).flatMap (fun h => partPictures (walkHeader [] h)) = [] ∧
      (Side.ofDocument .footer d.document).flatMap (fun h => partPictures (walkHeader [] h)) = []) &&
    (bodyComments d.document).isEmpty) wholeCalls = true := by decide +kernel

theorem whole_parts : (DocxFile.new.calls wholeCalls).map (fun d => (d.document.children, Side.ofDocument .header d.document,
    Side.ofDocument .footer d.document, d.document.sectionProperty.base, d.styles, d.numberings)) =
    some ((bodyOf exampleBody).children, [headerOf exampleHeader, headerOf exampleBody], [headerOf exampleFooter],
      { headerReference := some ⟨c!"default", c!"rIdHeader1"⟩, evenHeaderReference := some ⟨c!"even", c!"rIdHeader2"⟩,
        footerReference := some ⟨c!"default", c!"rIdFooter1"⟩ }, ⟨{}, [aStyle]⟩, ⟨[standardDefinition], []⟩) := by rfl

/-- A packed file with all of these meets the hypotheses of `C61_read_file`. -/
theorem whole_example : ∃ d es, Sendable wholeCalls d anEnv ∧ Packed anEnv d {} es ∧ d.document.children = (bodyOf exampleBody).children ∧
    KeptItems exampleBody ∧ bodyComments d.document = [] ∧ (∀ l, Call.commentsExtended l ∉ wholeCalls) ∧
    ([0, 1, 2].map (Side.header.last · wholeCalls)) = [some (headerOf exampleHeader), none, some (headerOf exampleBody)] ∧
    lastProperty wholeCalls c!"author" = some c!"Ann" ∧ d.settings.defaultTabStop = 720 := by
  obtain ⟨d, es, h1, h2, h3⟩ := packs_spec whole_pack
  rw [Bool.and_eq_true, Bool.and_eq_true, decide_eq_true_eq, decide_eq_true_eq] at h3
  obtain ⟨⟨i1, s1, s2, s3, p1, p2, p3, p4⟩, n1⟩ := h3
  have h4 := whole_parts
  rw [h1] at h4
  simp only [Option.map_some, Option.some.injEq, Prod.mk.injEq] at h4
  obtain ⟨a, b, c, f, st, nu⟩ := h4
  have hparts : ∀ side : Side, ∀ h ∈ side.ofDocument d.document, ∀ p ∈ partPictures (walkHeader [] h), ∃ n, p.id = createPicRid n := by
    intro side h hh p hp
    have : p ∈ (side.ofDocument d.document).flatMap (fun h => partPictures (walkHeader [] h)) := List.mem_flatMap.2 ⟨h, hh, hp⟩
    cases side
    · rw [p3] at this; cases this
    · rw [p4] at this; cases this
  refine ⟨d, es, ?_, h2, a, exampleBody_kept, List.isEmpty_iff.1 n1, ?_, rfl, by decide, s1⟩
  · exact {
      made := h1
      links := fun l => .refl _
      props := fun l => .refl _
      dependencies := ⟨by rw [p1]; exact fun _ h => (by cases h), by rw [p2]; exact fun _ h => (by cases h)⟩
      pictures := ⟨by rw [p1]; exact fun _ h => (by cases h), hparts⟩
      plainly := by
        refine ⟨fun x hx => ?_, fun s hs => ?_⟩
        · simp [wholeCalls, exampleCalls] at hx
        · simp [wholeCalls, exampleCalls] at hs
      order := by intro side; cases side <;> (unfold InOrder; decide)
      ids := i1
      parts := by
        intro side h hh
        cases side
        · rw [b] at hh
          simp only [List.mem_cons, List.not_mem_nil, or_false] at hh
          rcases hh with rfl | rfl
          · exact ⟨_, rfl, exampleHeader_kept⟩
          · exact ⟨_, rfl, exampleBody_kept⟩
        · rw [c] at hh
          simp only [List.mem_cons, List.not_mem_nil, or_false] at hh
          subst hh
          exact ⟨_, rfl, exampleFooter_kept⟩
      custom := by
        intro name value hm
        simp only [wholeCalls, exampleCalls, List.cons_append, List.nil_append, List.mem_cons, List.not_mem_nil, or_false, Call.customProperty.injEq,
          reduceCtorEq, false_or] at hm
        obtain ⟨rfl, rfl⟩ := hm
        exact ⟨plain_lit (by decide), plain_lit (by decide)⟩
      styles := by
        rw [st]
        refine ⟨by constructor <;> simp, paragraphProperty_default_kept, fun t ht => ?_⟩
        rw [List.mem_singleton.1 ht]
        exact aStyle_kept
      numberings := by
        rw [nu]
        refine ⟨fun t ht => ?_, fun _ h => (by cases h)⟩
        rw [List.mem_singleton.1 ht]
        exact standardDefinition_kept
      settings := by
        refine ⟨by rw [s1]; omega, fun i hi => ?_, fun v hv => ?_⟩
        · rw [s2] at hi; cases hi
        · rw [s3] at hv
          rw [List.mem_singleton.1 hv]
          exact ⟨plain_lit (by decide), plain_lit (by decide)⟩
      page := by
        rw [f]
        refine ⟨fun s hs => ?_, ?_⟩
        · simp only [SectionBase.strings, optStrings, PartReference.strings, List.mem_append, List.mem_cons, List.not_mem_nil, or_false] at hs
          rcases hs with ((rfl | rfl | rfl) | rfl | rfl) | rfl | rfl <;> exact stored_of_plain (plain_lit (by decide))
        · simp [-String.reduceToList, SectionBase.Placed] }
  · intro l hl
    simp [wholeCalls, exampleCalls] at hl

/-- A paragraph in which three comments start and end; one answers another. -/
def commentedCalls : List Call :=
  [.addParagraph { id := c!"x", children := (threadItems.map commentOf).flatMap fun c => [.commentStart c.id c, .commentEnd c.id] }]

theorem commented_pack : packs (fun d _ => copiedB d &&
    decide (∀ i ∈ bodyIds (walkStory ⟨d.document, d.comments, d.footnotes⟩), ∀ c ∈ i,
      c ≠ '&' ∧ c ≠ '<' ∧ c ≠ '"' ∧ c ≠ '\r' ∧ c ≠ '\t' ∧ c ≠ '\n') &&
    decide (d.settings.defaultTabStop = 840 ∧ d.settings.docId = none ∧ d.settings.docVars = [] ∧
      partPictures (walkDocument d.document) = [] ∧ bodyLinks d.document = [])) commentedCalls = true := by decide +kernel

theorem commented_parts : (DocxFile.new.calls commentedCalls).map (fun d => (bodyComments d.document, d.document.children,
    Side.ofDocument .header d.document, Side.ofDocument .footer d.document, d.document.sectionProperty.base, d.styles, d.numberings)) =
    some (threadItems.map commentOf,
      [.paragraph { id := c!"x", children := (threadItems.map commentOf).flatMap fun c => [.commentStart c.id c, .commentEnd c.id] }], [], [], {}, {}, {}) := by rfl

/-- A packed file with comments meets the hypotheses of `C61_comments_partial`. -/
example : ∃ d es, Sendable commentedCalls d anEnv ∧ Packed anEnv d {} es ∧ (∀ c ∈ d.document.children, ∀ t, c ≠ .toc t) ∧
    AllS d.document.strings ∧ d.document.Readable ∧ Copied d ∧ bodyComments d.document = threadItems.map commentOf ∧
    (∀ c ∈ threadItems, c.Kept) ∧ ∃ c ∈ threadItems, c.paragraphs ≠ [] := by
  obtain ⟨d, es, h1, h2, h3⟩ := packs_spec commented_pack
  rw [Bool.and_eq_true, Bool.and_eq_true, decide_eq_true_eq, decide_eq_true_eq] at h3
  obtain ⟨⟨cp, i1⟩, s1, s2, s3, p1, p2⟩ := h3
  have h4 := commented_parts
  rw [h1] at h4
  simp only [Option.map_some, Option.some.injEq, Prod.mk.injEq] at h4
  obtain ⟨bc, a, b, c, f, st, nu⟩ := h4
  have hpage : AllS d.document.sectionProperty.base.strings ∧ SectionBase.Placed d.document.sectionProperty.base := by
    rw [f]
    refine ⟨fun s hs => ?_, by simp [SectionBase.Placed]⟩
    simp [-String.reduceToList, SectionBase.strings, optStrings] at hs
    subst hs
    exact stored_of_plain (plain_lit (by decide))
  refine ⟨d, es, ?_, h2, ?_, (copiedB_spec cp).body, ⟨?_, fun s hs => (hpage.1 s hs).2.1, hpage.2⟩, copiedB_spec cp, bc, threadItems_kept, _, .head _, fun h => (by cases h)⟩
  · exact {
      made := h1
      links := fun l => .refl _
      props := fun l => .refl _
      dependencies := ⟨by rw [p1]; exact fun _ h => (by cases h), by rw [p2]; exact fun _ h => (by cases h)⟩
      pictures := ⟨by rw [p1]; exact fun _ h => (by cases h), fun side h hh => by
        cases side
        · rw [b] at hh; cases hh
        · rw [c] at hh; cases hh⟩
      plainly := ⟨fun x hx => by simp [commentedCalls] at hx, fun s hs => by simp [commentedCalls] at hs⟩
      order := by intro side; cases side <;> (unfold InOrder; decide)
      ids := i1
      parts := by
        intro side h hh
        cases side
        · rw [b] at hh; cases hh
        · rw [c] at hh; cases hh
      custom := fun name value hm => by simp [commentedCalls] at hm
      styles := by
        rw [st]
        exact ⟨by constructor <;> simp, paragraphProperty_default_kept, fun _ h => (by cases h)⟩
      numberings := by
        rw [nu]
        exact ⟨fun _ h => (by cases h), fun _ h => (by cases h)⟩
      settings := by
        refine ⟨by rw [s1]; omega, fun i hi => ?_, fun v hv => ?_⟩
        · rw [s2] at hi; cases hi
        · rw [s3] at hv; cases hv
      page := hpage }
  · rw [a]
    intro c hc t e
    rw [List.mem_singleton.1 hc] at e
    cases e
  · rw [a]
    intro c hc
    rw [List.mem_singleton.1 hc]
    have hq : KeptItem (.paragraph c!"x" {} []) := by
      rw [KeptItem]
      exact ⟨plain_lit (by decide), kept_default, fun p hp => by cases hp⟩
    have hr := (fineParagraph hq).read
    refine ⟨hr.1, hr.2.1, fun c hc => ?_⟩
    obtain ⟨m, hm, hc⟩ := List.mem_flatMap.1 hc
    obtain ⟨i, hi, rfl⟩ := List.mem_map.1 hm
    have hfit : i.id < 2 ^ 64 := (threadItems_kept i hi).id
    have e : (commentOf i).id = i.id := by rw [commentOf_eq]
    simp only [List.mem_cons, List.not_mem_nil, or_false] at hc
    rcases hc with rfl | rfl
    · show Fits (commentOf i).id
      rw [e]; exact hfit
    · show Fits (commentOf i).id
      rw [e]; exact hfit

end Docx.Props
