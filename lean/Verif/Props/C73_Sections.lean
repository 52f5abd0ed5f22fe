import Verif.Lemmas.PackedSections
import Verif.Lemmas.AsRead
import Verif.Props.C61_ReadFile
import Verif.Props.C67_ReadThenSaved

/-!
# C73: sections, written and read
-/

namespace Docx.Props

open Docx Docx.Spec Docx.Xml

/-- **C73.** What is read from the document part of any document with sections: where there was a section there is what was in it, and a
paragraph with nothing but the set-up of its pages. -/
theorem C73_read_back (x : ReadEnv) (d : Document) (hs : AllS d.strings) (h : (d.spread []).Readable) (g g' : Gen) (out : Str)
    (e : d.write g = some (.ok out, g')) :
    ∃ ids, ∃ k, ∀ n, k ≤ n → readDocument x n out = .ok ((d.spread ids).reread x) [] := by
  obtain ⟨ids, _, h⟩ := reads_document_spread (x := x) d hs h e
  exact ⟨ids, h⟩

/-- **C73, for a whole file.** A file with sections, packed and read: reading does not fail. What was in the sections, and between them,
comes back in the same order. The set-up of the pages of every section is that of a paragraph after what was in it. The rest of the file is
read as C61 says. -/
theorem C73_sections (e : FileEnv) (cs : List Call) (d : DocxFile) (env : Env) (w : World) (es : List Entry) (book : List BookItem)
    (S : Sendable cs d env) (h : Packed env d w es) (hb : List.Forall₂ BookItem.Is book d.document.children) (hk : ∀ b ∈ book, b.Kept)
    (hn : bodyComments d.document = []) (hx : ∀ l, .commentsExtended l ∉ cs) :
    ∃ k, ∀ n, k ≤ n → ∃ r, readDocx e n es = .ok r ∧
      (seenItems r.file.document).map dropIds = some (dropIds (book.flatMap BookItem.after)) ∧
      r.file.comments = [] ∧ RestReadAs e cs d es r := by
  obtain ⟨hf, hst, ht⟩ := fine_books (x := e.x) hb hk
  have hs : AllS d.document.strings := by
    intro s hs
    rcases List.mem_append.1 hs with hs | hs
    · exact hst s hs
    · exact S.page.1 s hs
  have hr : (d.document.spread []).Readable := ⟨hf.read, fun s hs => (S.page.1 s hs).2.1, S.page.2⟩
  have hnt : autoTocIndexes 0 d.document.children = [] := by
    refine List.eq_nil_iff_forall_not_mem.2 fun i hi => ?_
    rw [autoTocIndexes_mem] at hi
    obtain ⟨_, t, ht', _⟩ := hi
    exact ht _ (List.mem_of_getElem? ht') t rfl
  obtain ⟨dt, dt1, k6, dt2⟩ := packed_document_spread (x := e.x) h S.ids hnt hs hr
  obtain ⟨k, hk'⟩ := packed_file_of e S h ht (gd := fun q => bareDocument q = bareDocument ((d.document.spread []).reread e.x))
    ⟨dt, dt1, k6, fun n hn => by
      obtain ⟨q, q1, q2⟩ := dt2 n hn
      refine ⟨q, q1, sectionProperty_bare ?_, q2⟩
      have := congrArg Document.sectionProperty q2
      exact this⟩ (good := fun cs' _ => cs' = []) (no_records e S.made h hn hx)
  refine ⟨k, fun n hn' => ?_⟩
  obtain ⟨cs', rs', q, r, rfl, h1, h2, h3, h4, h5, h6, h7, h8, h9, h10, _⟩ := hk' n hn'
  have h10 : r.file.comments = [] := h10
  have h3 : r.file.document.children = q.children := h3
  refine ⟨r, h1, ?_, h10, rest_read S h h4 h5 h6 h7 h8 h9⟩
  have : seenItems r.file.document = seenItems q := by simp only [seenItems, h3]
  rw [this, ← seenItems_bare, h2, seenItems_bare]
  have : seenItems ((d.document.spread []).reread e.x) = some (book.flatMap BookItem.after) := hf.seen
  rw [this]
  rfl

/-! ## Headers and footers of sections -/

/-- There is a paragraph in the body with a set-up of pages that refers to a header or footer with this id. -/
def SectionRefers (es : List Entry) (side : Side) (id : Str) : Prop :=
  ∃ body as f props sect type,
    ⟨c!"word/document.xml", .text (standaloneDeclaration ++ (Node.elem c!"w:document" documentAttrs [.elem c!"w:body" [] body]).print)⟩ ∈ es ∧
    .elem c!"w:p" as f ∈ body ∧ .elem c!"w:pPr" [] props ∈ f ∧ .elem c!"w:sectPr" [] sect ∈ props ∧
    .elem side.element [(c!"w:type", type), (c!"r:id", id)] [] ∈ sect

theorem document_children {d : Document} {g g' : Gen} {s : Str} (h : d.write g = some (.ok s, g')) :
    ∃ body, s = standaloneDeclaration ++ (Node.elem c!"w:document" documentAttrs [.elem c!"w:body" [] body]).print ∧
      ∀ c ∈ d.children, ∃ g1 g2 ms, c.nodes g1 = some (ms, g2) ∧ ∀ m ∈ ms, m ∈ body := by
  rw [Document.write, ← Document_build_flat] at h
  rcases writePart_flat d.nodes g c!"w:document" documentAttrs _ rfl with ⟨_, h2⟩ | ⟨cs, g1, _, h2, h3⟩
  · rw [h2] at h; cases h
  · rw [h3] at h
    simp only [Option.some.injEq, Prod.mk.injEq, Except.ok.injEq] at h
    obtain ⟨body, hb, e⟩ := elemN_eq h2
    refine ⟨body, by rw [← h.1, e], fun c hc => ?_⟩
    obtain ⟨f1, g1, f2, e1, e2, rfl⟩ := thenN_eq hb
    obtain ⟨a1, a2, ms, e3, e4⟩ := eachN_mem hc e1
    exact ⟨a1, a2, ms, e3, fun m hm => List.mem_append_left _ (e4 m hm)⟩

theorem read_noTocs {e : FileEnv} {n : Nat} {ar : List Entry} {r : ReadFile} (hr : readDocx e n ar = .ok r) :
    ∀ c ∈ r.file.document.children, ∀ t, c ≠ .toc t := by
  intro c hc t ht
  subst ht
  have := (readDocx_fileR hr).children _ hc []
  cases t
  simp only [walkDocumentChild, walkToc, allRead_cons] at this
  exact this.1

/-- **C73.** Read any archive and save it. If there was a paragraph with a set-up of pages that refers to a header or footer, there is one
with that reference in what is saved. There is a relationship of that kind with that id exactly if the id is `rIdHeader1`, …, up to the
number of headers of the last section: those of the other sections were not kept. -/
theorem C73_references_iff {e : FileEnv} {n : Nat} {ar : List Entry} {r : ReadFile} {env : Env} {w : World} {es : List Entry}
    (hr : readDocx e n ar = .ok r) (hp : ∀ l, (env.links l).Perm l) (hm : Nameable r.file.document) (h : Packed env r.file w es) (side : Side)
    {p : Paragraph} {b : SectionBase} {q : PartReference} (hc : .paragraph p ∈ r.file.document.children)
    (hb : p.property.base.sectionProperty = some b) (hq : some q ∈ side.references b) :
    SectionRefers es side q.id ∧
    ∃ rs, HasRelations es c!"word/_rels/document.xml.rels" rs ∧
      ((∃ y ∈ rs, y.id = q.id ∧ y.type = side.type) ↔ ∃ i < (side.parts r.file.document.sectionProperty).countP Option.isSome, q.id = side.rid (i + 1)) := by
  have hk := readDocx_books hr
  have hcount : (side.parts r.file.document.sectionProperty).countP Option.isSome = Side.count side r.file := by
    rw [← hk.books.held, Side.own]
    generalize side.parts r.file.document.sectionProperty = l
    induction l with
    | nil => rfl
    | cons a l ih => cases a <;> simp_all
  refine ⟨?_, ?_⟩
  · have hnt : autoTocIndexes 0 r.file.document.children = [] := by
      refine List.eq_nil_iff_forall_not_mem.2 fun i hi => ?_
      rw [autoTocIndexes_mem] at hi
      obtain ⟨_, t, ht', _⟩ := hi
      exact read_noTocs hr _ (List.mem_of_getElem? ht') t rfl
    obtain ⟨s, g, g', h1, h2⟩ := fits_write (packed_fits h) (step_document _ _ _)
    have hbare := preparePackage_bare env r.file w hnt
    generalize (r.file.preparePackage env w).1.document = z at h1 hbare
    have : bareDocumentChild (.paragraph p) ∈ z.children.map bareDocumentChild := by
      rw [show z.children.map bareDocumentChild = r.file.document.children.map bareDocumentChild from congrArg Document.children hbare]
      exact List.mem_map_of_mem hc
    obtain ⟨c, hcz, hce⟩ := List.mem_map.1 this
    obtain ⟨p', rfl, hpp⟩ : ∃ p', c = .paragraph p' ∧ p'.property = p.property := by
      cases c <;> simp only [bareDocumentChild, reduceCtorEq, DocumentChild.paragraph.injEq] at hce
      case paragraph p' =>
        refine ⟨p', rfl, ?_⟩
        have := congrArg Paragraph.property hce
        cases p; cases p'; exact this
    obtain ⟨body, e1, e2⟩ := document_children h1
    obtain ⟨g1, g2, ms, e3, e4⟩ := e2 _ hcz
    obtain ⟨id, children, property, num⟩ := p'
    simp only [DocumentChild.nodes, Paragraph.nodes] at e3
    obtain ⟨f, hf, rfl⟩ := elemN_eq e3
    obtain ⟨f1, g3, f2, e5, e6, rfl⟩ := thenN_eq hf
    have hpp : property = p.property := hpp
    rw [← hpp] at hb
    obtain ⟨base, change⟩ := property
    have hb : base.sectionProperty = some b := hb
    rw [ParagraphProperty.nodes] at e5
    obtain ⟨props, hprops, rfl⟩ := elemN_eq e5
    obtain ⟨x1, g4, x2, e7, e8, rfl⟩ := thenN_eq hprops
    obtain ⟨x3, g5, x4, e9, e10, rfl⟩ := thenN_eq e8
    obtain ⟨x5, g6, x6, e11, e12, rfl⟩ := thenN_eq e10
    simp only [emitN, Option.some.injEq, Prod.mk.injEq] at e11
    obtain ⟨sect, e13, e14⟩ := sect_references side b
    refine ⟨body, _, _, _, sect, q.type, e1 ▸ h2, e4 _ (.head _), List.mem_append_left _ (.head _), ?_, ?_⟩
    · refine List.mem_append_right _ (List.mem_append_right _ (List.mem_append_left _ ?_))
      rw [← e11.1, ParagraphBase.nodesAfter, hb]
      refine List.mem_append_right _ ?_
      show _ ∈ b.nodes
      rw [e13]
      exact .head _
    · have : Node.elem side.element [(c!"w:type", q.type), (c!"r:id", q.id)] [] ∈ sect.filter (isNamed side.element) := by
        rw [e14, List.mem_flatMap]
        exact ⟨_, hq, by simp⟩
      exact (List.mem_filter.1 this).1
  · obtain ⟨rr, imgs, ls, h1, h2, h3, h4, h5, h6, h7, h8, h9⟩ := packed_relations hk.books.sound hp hm h
    refine ⟨_, h1, ?_⟩
    rw [hcount]
    exact typed_relation side (by rintro rfl; exact h4) (by rintro rfl; exact h5) q.id

/-- **C73 fails** for headers: if two sections were written with the first ids for headers, the headers of the first are not kept, and its
reference leads to a header of the last section instead. -/
theorem C73_fails_headers {e : FileEnv} {n : Nat} {ar : List Entry} {r : ReadFile} {env : Env} {w : World} {es : List Entry}
    (hr : readDocx e n ar = .ok r) (hp : ∀ l, (env.links l).Perm l) (hm : Made r.file.document) (h : Packed env r.file w es) (side : Side)
    {p : Paragraph} {b : SectionBase} {q : PartReference} (hc : .paragraph p ∈ r.file.document.children)
    (hb : p.property.base.sectionProperty = some b) (hq : some q ∈ side.references b) {j : Nat} (hj : q.id = side.rid (j + 1))
    {x : Str × Header} (hx : ((side.parts r.file.document.sectionProperty).filterMap id)[j]? = some x) :
    SectionRefers es side q.id ∧ ResolvesTo es side q.id x.2 := by
  have hk := (readDocx_books hr).books
  refine ⟨(C73_references_iff hr hp hm.nameable h side hc hb hq).1, ?_⟩
  have e : (Side.all side r.file.document)[j]? = some x := by
    rw [Side.all_eq, hk.sections, List.flatMap_nil, List.append_nil]
    exact hx
  rw [hj]
  refine packed_resolves hk.sound hp hm h e ?_
  rw [← hk.held, Side.own]
  exact (List.getElem?_eq_some_iff.1 hx).1

/-! ## Examples -/

/-- A header, a section with a paragraph, a table and a header of its own, and a paragraph after it. -/
def bookCalls : List Call :=
  [.header (headerOf exampleHeader), .addSection ((sectionOf exampleBody).setHeader (headerOf exampleFooter)),
   .addParagraph (paragraphOf c!"00000007" {} [.run ({}, [.text c!"end"])])]

/-- The same, as items. -/
def bookItems : List BookItem :=
  [.section exampleBody { headerReference := some ⟨c!"default", c!"rIdHeader2"⟩ }, .item (.paragraph c!"00000007" {} [.run ({}, [.text c!"end"])])]

theorem book_pack : packs (fun d _ => decide (∀ i ∈ bodyIds (walkStory ⟨d.document, d.comments, d.footnotes⟩), ∀ c ∈ i,
      c ≠ '&' ∧ c ≠ '<' ∧ c ≠ '"' ∧ c ≠ '\r' ∧ c ≠ '\t' ∧ c ≠ '\n') &&
    decide (d.settings.defaultTabStop = 840 ∧ d.settings.docId = none ∧ d.settings.docVars = [] ∧
      partPictures (walkDocument d.document) = [] ∧ bodyLinks d.document = [] ∧
      (Side.ofDocument .header d.document).flatMap (fun h => partPictures (walkHeader [] h)) = [] ∧
      (Side.ofDocument .footer d.document).flatMap (fun h => partPictures (walkHeader [] h)) = []) &&
    (bodyComments d.document).isEmpty) bookCalls = true := by decide +kernel

theorem book_parts : (DocxFile.new.calls bookCalls).map (fun d => (Side.ofDocument .header d.document,
    Side.ofDocument .footer d.document, d.document.sectionProperty.base, d.styles, d.numberings)) =
    some ([headerOf exampleHeader, headerOf exampleFooter], [],
      { headerReference := some ⟨c!"default", c!"rIdHeader1"⟩ }, {}, {}) := by rfl

theorem book_children : (DocxFile.new.calls bookCalls).map (fun d => d.document.children) =
    some [.section { (sectionOf exampleBody) with property := { base := { headerReference := some ⟨c!"default", c!"rIdHeader2"⟩ }, header := some (c!"rIdHeader2", headerOf exampleFooter) } },
      .paragraph (paragraphOf c!"00000007" {} [.run ({}, [.text c!"end"])])] := by rfl

/-- A packed file with a section meets the hypotheses of `C73_sections`. -/
theorem book_example : ∃ d es, Sendable bookCalls d anEnv ∧ Packed anEnv d {} es ∧ List.Forall₂ BookItem.Is bookItems d.document.children ∧
    (∀ b ∈ bookItems, b.Kept) ∧ bodyComments d.document = [] ∧ (∀ l, Call.commentsExtended l ∉ bookCalls) := by
  obtain ⟨d, es, h1, h2, h3⟩ := packs_spec book_pack
  rw [Bool.and_eq_true, Bool.and_eq_true, decide_eq_true_eq, decide_eq_true_eq] at h3
  obtain ⟨⟨i1, s1, s2, s3, p1, p2, p3, p4⟩, n1⟩ := h3
  have h4 := book_parts
  rw [h1] at h4
  simp only [Option.map_some, Option.some.injEq, Prod.mk.injEq] at h4
  obtain ⟨b, c, f, st, nu⟩ := h4
  have a := book_children
  rw [h1] at a
  simp only [Option.map_some, Option.some.injEq] at a
  have hparts : ∀ side : Side, ∀ h ∈ side.ofDocument d.document, ∀ p ∈ partPictures (walkHeader [] h), ∃ n, p.id = createPicRid n := by
    intro side h hh p hp
    have : p ∈ (side.ofDocument d.document).flatMap (fun h => partPictures (walkHeader [] h)) := List.mem_flatMap.2 ⟨h, hh, hp⟩
    cases side
    · rw [p3] at this; cases this
    · rw [p4] at this; cases this
  refine ⟨d, es, ?_, h2, ?_, ?_, List.isEmpty_iff.1 n1, ?_⟩
  · exact {
      made := h1
      links := fun l => .refl _
      props := fun l => .refl _
      dependencies := ⟨by rw [p1]; exact fun _ h => (by cases h), by rw [p2]; exact fun _ h => (by cases h)⟩
      pictures := ⟨by rw [p1]; exact fun _ h => (by cases h), hparts⟩
      plainly := by
        refine ⟨fun x hx => ?_, fun s hs => ?_⟩
        · simp [bookCalls] at hx
        · simp only [bookCalls, List.mem_cons, Call.addSection.injEq, reduceCtorEq, List.not_mem_nil, or_false, false_or] at hs
          subst hs
          have : ((sectionOf exampleBody).setHeader (headerOf exampleFooter)).property = {} := rfl
          intro side
          rw [this]
          cases side <;> exact ⟨by decide, by decide⟩
      order := by intro side; cases side <;> (unfold InOrder; decide)
      ids := i1
      parts := by
        intro side h hh
        cases side
        · rw [b] at hh
          simp only [List.mem_cons, List.not_mem_nil, or_false] at hh
          rcases hh with rfl | rfl
          · exact ⟨_, rfl, exampleHeader_kept⟩
          · exact ⟨_, rfl, exampleFooter_kept⟩
        · rw [c] at hh
          cases hh
      custom := by
        intro name value hm
        simp [bookCalls] at hm
      styles := by
        rw [st]
        exact ⟨by constructor <;> simp, paragraphProperty_default_kept, fun t ht => (by cases ht)⟩
      numberings := by
        rw [nu]
        exact ⟨fun t ht => (by cases ht), fun _ h => (by cases h)⟩
      settings := by
        refine ⟨by rw [s1]; omega, fun i hi => ?_, fun v hv => ?_⟩
        · rw [s2] at hi; cases hi
        · rw [s3] at hv; cases hv
      page := by
        rw [f]
        refine ⟨fun s hs => ?_, ?_⟩
        · simp only [SectionBase.strings, optStrings, PartReference.strings, List.mem_append, List.mem_cons, List.not_mem_nil, or_false] at hs
          rcases hs with rfl | rfl | rfl <;> exact stored_of_plain (plain_lit (by decide))
        · simp [-String.reduceToList, SectionBase.Placed] }
  · rw [a]
    exact .cons ⟨_, rfl, rfl, rfl⟩ (.cons rfl .nil)
  · intro k hk
    simp only [bookItems, List.mem_cons, List.not_mem_nil, or_false] at hk
    rcases hk with rfl | rfl
    · refine ⟨exampleBody_kept, { section_default_kept with header := fun r e => ?_ }⟩
      cases e
      exact ⟨rfl, plain_lit (by decide)⟩
    · show KeptItem _
      rw [KeptItem]
      refine ⟨plain_lit (by decide), kept_default, fun p hp => ?_⟩
      rw [List.mem_singleton.1 hp]
      exact kept_empty
  · intro l hl
    simp [bookCalls] at hl

/-- What is read from it. -/
example (e : FileEnv) : ∃ es k, ∀ n, k ≤ n → ∃ r, readDocx e n es = .ok r ∧
    (seenItems r.file.document).map dropIds = some (dropIds (afterItems exampleBody ++
      sectionMark { headerReference := some ⟨c!"default", c!"rIdHeader2"⟩ } :: afterItems [.paragraph c!"00000007" {} [.run ({}, [.text c!"end"])]])) := by
  obtain ⟨d, es, a1, a2, a3, a4, a5, a6⟩ := book_example
  obtain ⟨k, hk⟩ := C73_sections e bookCalls d anEnv {} es bookItems a1 a2 a3 a4 a5 a6
  refine ⟨es, k, fun n hn => ?_⟩
  obtain ⟨r, b1, b2, _⟩ := hk n hn
  refine ⟨r, b1, b2.trans ?_⟩
  rw [bookItems, List.flatMap_cons, List.flatMap_cons, List.flatMap_nil, List.append_nil, BookItem.after, BookItem.after, List.append_assoc]
  rfl

private def sectionRels : Str :=
  c!"<Relationships><Relationship Id=\"rIdHeader1\" Type=\"http://schemas.openxmlformats.org/officeDocument/2006/relationships/header\" Target=\"header1.xml\"/>" ++
  c!"<Relationship Id=\"rIdHeader2\" Type=\"http://schemas.openxmlformats.org/officeDocument/2006/relationships/header\" Target=\"header2.xml\"/></Relationships>"

/-- Two sections, each with a header. -/
private def sectionDocument : Str :=
  c!"<w:document><w:body><w:p w14:paraId=\"00000001\"><w:pPr><w:sectPr><w:headerReference w:type=\"default\" r:id=\"rIdHeader1\"/></w:sectPr></w:pPr></w:p>" ++
    c!"<w:sectPr><w:headerReference w:type=\"default\" r:id=\"rIdHeader2\"/></w:sectPr></w:body></w:document>"

private def sectionArchive : List Entry := smallArchive sectionRels sectionDocument
  [⟨c!"word/header1.xml", .text c!"<w:hdr><w:p w14:paraId=\"00000002\"><w:r><w:t>first</w:t></w:r></w:p></w:hdr>"⟩,
   ⟨c!"word/header2.xml", .text c!"<w:hdr><w:p w14:paraId=\"00000003\"><w:r><w:t>second</w:t></w:r></w:p></w:hdr>"⟩]

/-- The first child is a paragraph with a set-up of pages that refers to the header with this id. -/
private def marked (id : Str) : List DocumentChild → Bool
  | .paragraph p :: _ => decide (p.property.base.sectionProperty.map SectionBase.headerReference = some (some ⟨c!"default", id⟩))
  | _ => false

private theorem marked_spec {id : Str} {l : List DocumentChild} (h : marked id l = true) : ∃ p b, .paragraph p ∈ l ∧
    p.property.base.sectionProperty = some b ∧ b.headerReference = some ⟨c!"default", id⟩ := by
  cases l with
  | nil => cases h
  | cons c l =>
    cases c with
    | paragraph p =>
      rw [marked, decide_eq_true_eq, Option.map_eq_some_iff] at h
      obtain ⟨b, hb, he⟩ := h
      exact ⟨p, b, .head _, hb, he⟩
    | _ => cases h

/-- The header is a paragraph with this text. -/
private def saysHeader (t : Str) (h : Header) : Bool :=
  match h.children with
  | [.paragraph ⟨_, [.run ⟨_, [.text u]⟩], _, _⟩] => decide (u = t)
  | _ => false

private def sectionCheck (d : DocxFile) : Bool :=
  (partPictures (walkDocument d.document)).isEmpty && (bodyLinks d.document).isEmpty && marked c!"rIdHeader1" d.document.children &&
    (match d.document.sectionProperty.header with | some x => decide (x.1 = c!"rIdHeader2") && saysHeader c!"second" x.2 | none => false)

private def readsBook (ar : List Entry) : Bool :=
  match readDocx aReader 40 ar with
  | .ok r => writableB r.file && sectionCheck r.file
  | _ => false

private theorem section_reads : readsBook sectionArchive = true := by decide +kernel

private theorem rid_one : c!"rIdHeader1" = Side.rid .header (0 + 1) := by decide

private theorem section_saved {ar : List Entry} (h : readsBook ar = true) :
    ∃ r es x, readDocx aReader 40 ar = .ok r ∧ Packed anEnv r.file {} es ∧ r.file.document.sectionProperty.header = some (c!"rIdHeader2", x) ∧
      saysHeader c!"second" x = true ∧ SectionRefers es .header c!"rIdHeader1" ∧ ResolvesTo es .header c!"rIdHeader1" x := by
  unfold readsBook at h
  split at h
  · next r e =>
    rw [Bool.and_eq_true] at h
    have hs := (readDocx_books e).books.sound
    obtain ⟨es, w', e'⟩ := writable_packs anEnv r.file {} (writableB_spec h.1) (by rw [hs.crels, List.length_replicate]; exact Nat.le_refl _)
      (by rw [hs.props]; exact Nat.le_refl _)
    have hpack : Packed anEnv r.file {} es := .inl ⟨w', e'⟩
    obtain ⟨_, h⟩ := h
    rw [sectionCheck, Bool.and_eq_true, Bool.and_eq_true, Bool.and_eq_true, List.isEmpty_iff, List.isEmpty_iff] at h
    obtain ⟨⟨⟨h1, h2⟩, h3⟩, h4⟩ := h
    have hm : Made r.file.document := ⟨fun x hx => (by rw [h1] at hx; cases hx), fun x hx => (by rw [h2] at hx; cases hx)⟩
    cases ex : r.file.document.sectionProperty.header with
    | none => rw [ex] at h4; cases h4
    | some x =>
      rw [ex] at h4
      simp only [Bool.and_eq_true, decide_eq_true_eq] at h4
      obtain ⟨i, x⟩ := x
      obtain ⟨rfl, h5⟩ := h4
      obtain ⟨p, b, hc, hb, hr⟩ : ∃ p b, .paragraph p ∈ r.file.document.children ∧ p.property.base.sectionProperty = some b ∧
          b.headerReference = some ⟨c!"default", c!"rIdHeader1"⟩ := marked_spec h3
      have hq : some ⟨c!"default", c!"rIdHeader1"⟩ ∈ Side.header.references b := by rw [Side.references, hr]; exact .head _
      have hx : ((Side.header.parts r.file.document.sectionProperty).filterMap id)[0]? = some (c!"rIdHeader2", x) := by
        rw [Side.parts, ex]
        rfl
      obtain ⟨g1, g2⟩ := C73_fails_headers e anEnv_links hm hpack .header hc hb hq (j := 0) rid_one hx
      exact ⟨r, es, x, e, hpack, ex, h5, g1, g2⟩
  · cases h

/-- A file of two sections, each with a header, is read and saved. The reference of the first section then leads to the header of the second,
which says `second`. -/
example : ∃ r es x, readDocx aReader 40 sectionArchive = .ok r ∧ Packed anEnv r.file {} es ∧
    r.file.document.sectionProperty.header = some (c!"rIdHeader2", x) ∧ saysHeader c!"second" x = true ∧
    SectionRefers es .header c!"rIdHeader1" ∧ ResolvesTo es .header c!"rIdHeader1" x := by
  obtain ⟨r, es, x, h1, h2, h3, h4, h5, h6⟩ := section_saved section_reads
  exact ⟨r, es, x, h1, h2, h3, h4, h5, h6⟩

end Docx.Props
