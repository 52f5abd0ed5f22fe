import Verif.Model.Ask
import Verif.Lemmas.JsonRead
import Verif.Lemmas.JsonOk
import Verif.Lemmas.DocRels
import Verif.Lemmas.PackedFile
import Verif.Lemmas.Witness
import Verif.Props.C07_C26_Package
import Verif.Props.C13_C15_Media
import Verif.Props.C24_C25_Comments
import Verif.Props.C18_C22_Relations

/-!
# C76: asking a file what is in it does not change what is written

Full statement: `json_with_update_comments`, `comments_json` and `collect_footnotes` give an answer and leave the file as it was: packing it
afterwards gives what packing it without asking gives.

It fails: a file with an external link has the relationship of the link twice after the first two, and after the third every footnote is written twice.
Proved: what stays as it was, and exactly what is different.
-/

namespace Docx.Props

open Docx Docx.Spec Docx.Xml

/-- Only the relationships of the main document, and possibly links at their end, tell two files apart. -/
private theorem prepare_rels (env : Env) (d : DocxFile) (w : World) (R : DocumentRels) :
    ∃ R', ({ d with documentRels := R } : DocxFile).preparePackage env w =
      ({ (d.preparePackage env w).1 with documentRels := R' }, (d.preparePackage env w).2) := by
  have h : ∃ R', ({ d with documentRels := R } : DocxFile).prepareForBuild env w =
      ({ (d.prepareForBuild env w).1 with documentRels := R' }, (d.prepareForBuild env w).2) := by
    unfold DocxFile.prepareForBuild DocxFile.updateDependencies
    dsimp only
    split
    · exact ⟨_, rfl⟩
    · exact ⟨_, rfl⟩
  obtain ⟨R', h⟩ := h
  unfold DocxFile.preparePackage
  dsimp only
  rw [h]
  generalize d.prepareForBuild env w = q
  obtain ⟨q, w'⟩ := q
  dsimp only
  generalize collectImages env.crc q.document = i
  generalize hasToc d.document.children = t
  by_cases hf : i.footnotes = [] <;> cases t <;> simp only [hf, if_true, if_false] <;> exact ⟨_, rfl⟩

/-- The steps before and after the relationships of the main document. -/
private theorem steps_rels (env : Env) (d : DocxFile) (R : DocumentRels) (p : PackageMetadata) :
    ∃ a b, zipDocxSteps env d p = a ++ .write c!"word/_rels/document.xml.rels" d.documentRelsPart :: b ∧
      zipDocxSteps env { d with documentRels := R } p =
        a ++ .write c!"word/_rels/document.xml.rels" ({ d with documentRels := R } : DocxFile).documentRelsPart :: b := by
  have hc : ∀ l i, customItemSteps { d with documentRels := R } i l = customItemSteps d i l := by
    intro l
    induction l with
    | nil => intro i; rfl
    | cons x xs ih => intro i; rw [customItemSteps, customItemSteps, ih]
  refine ⟨(zipDocxSteps env d p).take 9, (zipDocxSteps env d p).drop 10, ?_, ?_⟩
  · unfold zipDocxSteps
    simp only [List.cons_append, List.nil_append, List.append_assoc, List.take_succ_cons, List.take_zero, List.drop_succ_cons, List.drop_zero]
  · unfold zipDocxSteps
    rw [hc]
    simp only [List.cons_append, List.nil_append, List.append_assoc, List.take_succ_cons, List.take_zero, List.drop_succ_cons, List.drop_zero]
    rfl

/-- Replacing a part that does not use the counters. -/
private theorem run_replace {n t t' : Str} {q q' : Part} (h : q.Const t) (h' : q'.Const t') (b : List ZipStep) :
    ∀ (a : List ZipStep) (g g' : Gen) (es : List Entry), runSteps (a ++ .write n q :: b) g = some (.ok es, g') →
      ∃ x y, es = x ++ ⟨n, .text t⟩ :: y ∧ runSteps (a ++ .write n q' :: b) g = some (.ok (x ++ ⟨n, .text t'⟩ :: y), g')
  | [], g, g', es, e => by
    rw [List.nil_append, runSteps, h g] at e
    dsimp only at e
    rw [List.nil_append, runSteps, h' g]
    dsimp only
    cases hr : runSteps b g with
    | none => rw [hr] at e; cases e
    | some r =>
      obtain ⟨r, g1⟩ := r
      cases r with
      | error _ => rw [hr] at e; simp at e
      | ok l =>
        rw [hr] at e
        simp only [Option.some.injEq, Prod.mk.injEq, Except.ok.injEq] at e
        exact ⟨[], l, e.1.symm, by rw [← e.2]; rfl⟩
  | s :: a, g, g', es, e => by
    cases s with
    | directory m =>
      rw [List.cons_append, runSteps] at e
      rw [List.cons_append, runSteps]
      cases hr : runSteps (a ++ .write n q :: b) g with
      | none => rw [hr] at e; cases e
      | some r =>
        obtain ⟨r, g1⟩ := r
        cases r with
        | error _ => rw [hr] at e; simp at e
        | ok l =>
          rw [hr] at e
          simp only [Option.some.injEq, Prod.mk.injEq, Except.ok.injEq] at e
          obtain ⟨x, y, e1, e2⟩ := run_replace h h' b a g g1 l hr
          refine ⟨⟨m, .directory⟩ :: x, y, by rw [← e.1, e1]; rfl, ?_⟩
          rw [e2, ← e.2]
          rfl
    | store m c =>
      rw [List.cons_append, runSteps] at e
      rw [List.cons_append, runSteps]
      cases hr : runSteps (a ++ .write n q :: b) g with
      | none => rw [hr] at e; cases e
      | some r =>
        obtain ⟨r, g1⟩ := r
        cases r with
        | error _ => rw [hr] at e; simp at e
        | ok l =>
          rw [hr] at e
          simp only [Option.some.injEq, Prod.mk.injEq, Except.ok.injEq] at e
          obtain ⟨x, y, e1, e2⟩ := run_replace h h' b a g g1 l hr
          refine ⟨⟨m, .bytes c⟩ :: x, y, by rw [← e.1, e1]; rfl, ?_⟩
          rw [e2, ← e.2]
          rfl
    | write m p =>
      rw [List.cons_append, runSteps] at e
      rw [List.cons_append, runSteps]
      cases hp : p g with
      | none => rw [hp] at e; cases e
      | some r0 =>
        obtain ⟨r0, g0⟩ := r0
        cases r0 with
        | error _ => rw [hp] at e; simp at e
        | ok s =>
          rw [hp] at e
          dsimp only at e ⊢
          cases hr : runSteps (a ++ .write n q :: b) g0 with
          | none => rw [hr] at e; cases e
          | some r =>
            obtain ⟨r, g1⟩ := r
            cases r with
            | error _ => rw [hr] at e; simp at e
            | ok l =>
              rw [hr] at e
              simp only [Option.some.injEq, Prod.mk.injEq, Except.ok.injEq] at e
              obtain ⟨x, y, e1, e2⟩ := run_replace h h' b a g0 g1 l hr
              refine ⟨⟨m, .text s⟩ :: x, y, by rw [← e.1, e1]; rfl, ?_⟩
              rw [e2, ← e.2]
              rfl

/-- With other relationships of the main document, only their part is different. -/
private theorem pack_rels (env : Env) (d : DocxFile) (w w' : World) (R : DocumentRels) (es : List Entry) (h : d.pack env w = some (.ok es, w')) :
    ∃ x t t' y, es = x ++ ⟨c!"word/_rels/document.xml.rels", .text t⟩ :: y ∧
      ({ d with documentRels := R } : DocxFile).pack env w =
        some (.ok (x ++ ⟨c!"word/_rels/document.xml.rels", .text t'⟩ :: y), w') := by
  obtain ⟨R', e⟩ := prepare_rels env d w R
  unfold DocxFile.pack at h ⊢
  dsimp only at h ⊢
  rw [e]
  dsimp only
  obtain ⟨a, b, e1, e2⟩ := steps_rels env (d.preparePackage env w).1 R' (d.preparePackage env w).2.1
  rw [e1] at h
  rw [e2]
  cases hr : runSteps (a ++ .write c!"word/_rels/document.xml.rels" (d.preparePackage env w).1.documentRelsPart :: b) (d.preparePackage env w).2.2.gen with
  | none => rw [hr] at h; cases h
  | some r =>
    obtain ⟨r, g1⟩ := r
    rw [hr] at h
    simp only [Option.some.injEq, Prod.mk.injEq] at h
    obtain ⟨rfl, rfl⟩ := h
    obtain ⟨x, y, k1, k2⟩ := run_replace (documentRels_const _)
      (documentRels_const ({ (d.preparePackage env w).1 with documentRels := R' })) b a _ _ _ hr
    exact ⟨x, _, _, y, k1, by rw [k2]⟩

private theorem paragraphCount_zero {d : Document} (h : ∀ c ∈ bodyComments d, directParagraphs c = []) : commentMap d.found = [] := by
  rw [commentMap_nil, found_comments]
  intro c hc
  rw [directParagraphs_ids, h c hc]
  rfl

/-- A file without comments is only given links. -/
private theorem update_rels (env : Env) (d : DocxFile) (h : ∀ c ∈ bodyComments d.document, directParagraphs c = []) :
    d.updateDependencies env = { d with documentRels := d.documentRels.addLinks (env.links (linkMap d.document.found)) } := by
  unfold DocxFile.updateDependencies
  dsimp only
  rw [if_pos (paragraphCount_zero h)]

/-- Both questions leave the same file behind, so that what is said of one below holds for the other. -/
theorem asks_alike (P : Leaves) (before after : DocxFile → List (Str × Json)) (comment : Comment → Json) (env : Env) (d : DocxFile) :
    (d.jsonWithUpdateComments P before after env).2 = (d.commentsJson comment env).2 := rfl

/-- **C76.** A file in which no comment with a paragraph is found and no external link is found is not changed by asking for its JSON or for its comments. -/
theorem C76_unchanged_partial (env : Env) (d : DocxFile) (hp : ∀ l, (env.links l).Perm l) (hl : bodyLinks d.document = [])
    (hc : ∀ c ∈ bodyComments d.document, directParagraphs c = []) :
    (∀ P before after, (d.jsonWithUpdateComments P before after env).2 = d) ∧ ∀ comment, (d.commentsJson comment env).2 = d := by
  have e : d.updateDependencies env = d := by
    rw [update_rels env d hc]
    have hn : linkMap d.document.found = [] := by
      have h0 := found_links d.document
      rw [hl] at h0
      have key : ∀ (l : List Found) m, l.filterMap Found.link? = [] → l.foldl insertLink m = m := by
        intro l
        induction l with
        | nil => intro m _; rfl
        | cons f l ih =>
          intro m hm
          cases f with
          | comment c => exact ih m hm
          | link a b => simp [Found.link?] at hm
      exact key _ _ h0
    rw [hn, List.perm_nil.1 (hp [])]
    cases d with
    | mk => simp [DocumentRels.addLinks]
  exact ⟨fun _ _ _ => e, fun _ => e⟩

/-- **C76.** A file in which no comment with a paragraph is found is packed after asking as it is without asking, entry for entry, except for the relationships of the main document. -/
theorem C76_only_rels_partial (env env' : Env) (d : DocxFile) (w w' : World) (es : List Entry) (hc : ∀ c ∈ bodyComments d.document, directParagraphs c = [])
    (h : d.pack env w = some (.ok es, w')) :
    ∃ x t t' y, es = x ++ ⟨c!"word/_rels/document.xml.rels", .text t⟩ :: y ∧
      (∀ P before after, ((d.jsonWithUpdateComments P before after env').2).pack env w =
        some (.ok (x ++ ⟨c!"word/_rels/document.xml.rels", .text t'⟩ :: y), w')) ∧
      ∀ comment, ((d.commentsJson comment env').2).pack env w =
        some (.ok (x ++ ⟨c!"word/_rels/document.xml.rels", .text t'⟩ :: y), w') := by
  obtain ⟨x, t, t', y, h1, h2⟩ := pack_rels env d w w' (d.documentRels.addLinks (env'.links (linkMap d.document.found))) es h
  rw [← update_rels env' d hc] at h2
  exact ⟨x, t, t', y, h1, fun _ _ _ => h2, fun _ => h2⟩

/-- **C76.** The footnotes are the same after asking for JSON, and so are the comments: whatever comments the file was given, those in the document
are written, as without asking. -/
theorem C76_comments (env env' : Env) (comment : Comment → Json) (d : DocxFile) (w : World) (es es' : List Entry) (hs : Copied d)
    (hs' : Copied (d.commentsJson comment env').2) (hne : ∃ c ∈ bodyComments d.document, directParagraphs c ≠ [])
    (h : Packed env d w es) (h' : Packed env (d.commentsJson comment env').2 w es') :
    ∃ s s' b b', ⟨c!"word/comments.xml", .text s⟩ ∈ es ∧ ⟨c!"word/comments.xml", .text s'⟩ ∈ es' ∧
      ⟨c!"word/document.xml", .text b⟩ ∈ es ∧ ⟨c!"word/document.xml", .text b'⟩ ∈ es' ∧
      idsOf c!"comment" (readEvents s') = idsOf c!"comment" (readEvents s) ∧
      idsOf c!"commentRangeStart" (readEvents b') = idsOf c!"commentRangeStart" (readEvents b) := by
  have hd : (d.commentsJson comment env').2.document = d.document := updateDependencies_document env' d
  obtain ⟨s, b, h1, h2, h3, h4⟩ := C24_package_partial d env w es hs hne h
  obtain ⟨s', b', k1, k2, k3, k4⟩ := C24_package_partial _ env w es' hs' (by rw [hd]; exact hne) h'
  rw [hd] at k3 k4
  exact ⟨s, s', b, b', h1, k1, h2, k2, by rw [k3, h3], by rw [k4, h4]⟩

/-- **C76.** What `comments_json` answers: one value for each paragraph of each comment of the document, as many as `word/comments.xml` will have; the comments
the file was given if no comment of the document has a paragraph. -/
theorem C76_answer (env : Env) (comment : Comment → Json) (d : DocxFile) (hj : ∀ c, Json.Ok (comment c)) :
    ∃ l, (∃ k, ∀ n ≥ k, readJson n (d.commentsJson comment env).1 = some (.obj [(c!"comments", .arr (l.map comment))], [])) ∧
      ((∃ c ∈ bodyComments d.document, directParagraphs c ≠ []) →
        l = (bodyComments d.document).flatMap fun c => List.replicate (directParagraphs c).length c) ∧
      ((∀ c ∈ bodyComments d.document, directParagraphs c = []) → l = d.comments) := by
  refine ⟨(d.updateDependencies env).comments, ?_, fun hne => ?_, fun hno => ?_⟩
  · have hok : Json.Ok (.obj [(c!"comments", .arr ((d.updateDependencies env).comments.map comment))]) := by
      rw [Json.Ok, fieldsOk, fieldsOk, Json.Ok]
      refine ⟨?_, trivial⟩
      generalize (d.updateDependencies env).comments = l
      induction l with
      | nil => trivial
      | cons c l ih => exact ⟨hj c, ih⟩
    obtain ⟨k, hk⟩ := readJson_pretty _ hok
    refine ⟨k, fun n hn => ?_⟩
    have := hk n hn 0 [] [] (fun _ h => (by cases h)) (fun c s h => by cases h)
    simpa [DocxFile.commentsJson] using this
  · rw [((updateDependencies_comments env d).2 fun h => ?_).1]
    · simp only [directParagraphs_count]
    · obtain ⟨c, hc, hp⟩ := hne
      have := h c hc
      rw [directParagraphs_count, List.length_eq_zero_iff] at this
      exact hp this
  · refine ((updateDependencies_comments env d).1 fun c hc => ?_).1
    rw [directParagraphs_count, hno c hc]
    rfl

/-! ## What goes wrong -/

private theorem once {x : Str} {l : List (Str × Str)} (h : x ∈ l.map Prod.fst) : 1 ≤ (l.map Prod.fst).count x := List.count_pos_iff.2 h

/-- **C76 fails** for every file with an external link in a place that is searched: packed after asking, it has more than one relationship with the id of the link, and so
a package whose ids are not unique. -/
theorem C76_fails_links (cs : List Call) (d : DocxFile) (env env' : Env) (comment : Comment → Json) (w : World) (es : List Entry)
    (hc : DocxFile.new.calls cs = some d) (hp : ∀ l, (env.links l).Perm l) (hp' : ∀ l, (env'.links l).Perm l) (hm : Made d.document)
    (h : Packed env (d.commentsJson comment env').2 w es) (x : Str × Str) (hx : x ∈ bodyLinks d.document) :
    ∃ rs, HasRelations es c!"word/_rels/document.xml.rels" rs ∧ 2 ≤ (rs.map Relation.id).count x.1 ∧ ¬ (rs.map Relation.id).Nodup := by
  have hs := calls_sound hc
  have hd : (d.commentsJson comment env').2.document = d.document := updateDependencies_document env' d
  obtain ⟨ls0, c0, e0, hl0⟩ := updateDependencies_rels env' hp' d
  have e0' : (d.commentsJson comment env').2.documentRels.hyperlinks = ls0.map fun x => (x.1, x.2, c!"External") := by
    show (d.updateDependencies env').documentRels.hyperlinks = _
    rw [e0, hs.links]
    rfl
  generalize (d.commentsJson comment env').2 = d' at *
  have hm' : Nameable d'.document := by rw [hd]; exact hm.nameable
  obtain ⟨ls, c, e1, hl⟩ := preparePackage_documentRels env hp d' w
  obtain ⟨-, hi⟩ := images_named (env := env) (w := w) hm'
  have hf := packed_fits h
  generalize collectImages env.crc (d'.prepareForBuild env w).1.document = i at e1 hi
  generalize d'.preparePackage env w = q at e1 hf
  rw [e0', ← List.map_append] at e1
  rw [hd] at hl
  have hall : ∀ y ∈ ls0 ++ ls, Plain y.1 ∧ ∃ url, y.2 = escapeOwned url := by
    intro y hy
    rcases List.mem_append.1 hy with hy | hy
    · exact hm.nameable.links y (hl0.mem y hy)
    · exact hm.nameable.links y (hl.mem y hy)
  have hstr : AllS q.1.documentRels.strings := by
    rw [e1]
    intro s hs'
    unfold DocumentRels.strings at hs'
    simp only [List.mem_append, List.mem_flatMap, List.mem_map, List.mem_cons, List.not_mem_nil, or_false] at hs'
    rcases hs' with ⟨x, hxi, rfl | rfl⟩ | ⟨x, ⟨y, hy, rfl⟩, rfl | rfl | rfl⟩
    · exact (hi x hxi).1.plain.stored
    · obtain ⟨name, b, e, _, hn⟩ := (hi x hxi).2
      rw [e]
      exact hn.plain.target.stored
    · exact (hall y (List.mem_append.2 hy)).1.stored
    · obtain ⟨url, e⟩ := (hall y (List.mem_append.2 hy)).2
      rw [e]
      exact escapeOwned_stored url
    · exact (plain_lit (s := c!"External") (by decide)).stored
  have hlink : q.1.documentRels.linkRelations.filterMap decodeRelation = (ls0 ++ ls).map linkRelation :=
    links_decode (by rw [e1]) hall
  have hcount : ∀ l : List Relation, 2 ≤ ((l ++ (ls0 ++ ls).map linkRelation).map Relation.id).count x.1 := by
    intro l
    have e : ((ls0 ++ ls).map linkRelation).map Relation.id = ls0.map Prod.fst ++ ls.map Prod.fst := by
      rw [List.map_map, ← List.map_append]
      rfl
    rw [List.map_append, e, List.count_append, List.count_append]
    have h1 := once (hl0.keys x hx)
    have h2 := once (hl.keys x hx)
    omega
  refine ⟨_, ⟨_, fits_const hf (step_documentRels _ _ _) (documentRels_const _), by rw [documentRels_read _ hstr, hlink]⟩, hcount _, fun hn => ?_⟩
  have h1 := hcount (q.1.documentRels.fixedRelations ++ q.1.documentRels.partRelations ++
    q.1.documentRels.imageRelations.filterMap decodeRelation)
  have h2 := List.nodup_iff_count_le_one.1 hn x.1
  omega

/-- **C76 fails** for every file with a footnote: packed after `collect_footnotes`, its footnotes part has the footnotes of the body twice. -/
theorem C76_fails_footnotes (d : DocxFile) (env : Env) (w : World) (es : List Entry) (hs : Copied d.collectFootnotes.2)
    (h : Packed env d.collectFootnotes.2 w es) :
    (d.collectFootnotes.1 = true ↔ partFootnotes (walkDocument d.document) ≠ []) ∧
    ∃ notes, ⟨c!"word/footnotes.xml", .text notes⟩ ∈ es ∧ idsOf c!"footnote" (readEvents notes) =
        (d.footnotes ++ partFootnotes (walkDocument d.document) ++ partFootnotes (walkDocument d.document)).map fun f => dec f.id := by
  refine ⟨?_, ?_⟩
  · unfold DocxFile.collectFootnotes
    dsimp only
    rw [C26_collect_footnotes]
    simp
  · obtain ⟨_, notes, _, h2, _, h4⟩ := C26_package _ env w es hs h
    refine ⟨notes, h2, ?_⟩
    rw [h4]
    unfold DocxFile.collectFootnotes
    dsimp only
    rw [C26_collect_footnotes]

/-! ## Examples -/

private def packableB (d : DocxFile) : Bool :=
  writableB d && decide (d.customItems.length ≤ d.customItemRels.length ∧ d.customItems.length ≤ d.customItemProps.length)

private theorem packableB_spec {d : DocxFile} (h : packableB d = true) : ∃ es w', d.pack anEnv {} = some (.ok es, w') := by
  rw [packableB, Bool.and_eq_true, decide_eq_true_eq] at h
  exact writable_packs anEnv d {} (writableB_spec h.1) h.2.1 h.2.2

private def allCopied (d : DocxFile) : Bool :=
  copiedB { d with commentsExtended := [] } &&
    d.commentsExtended.all fun r => decide (Stored r.paragraphId ∧ ∀ i ∈ r.parentParagraphId.toList, Stored i)

private theorem allCopied_spec {d : DocxFile} (h : allCopied d = true) : Copied d := by
  rw [allCopied, Bool.and_eq_true, List.all_eq_true] at h
  obtain ⟨h1, h2, h3, h4, h5, h6, _⟩ := copiedB_spec h.1
  refine ⟨h1, h2, h3, h4, h5, h6, fun r hr => ?_⟩
  have := of_decide_eq_true (h.2 r hr)
  exact ⟨this.1, fun i hi => this.2 i (by rw [hi]; exact List.mem_singleton.2 rfl)⟩

private def askedComment (n : Nat) (parent : Option Nat) (ps : List Str) : Comment :=
  { id := n, author := c!"A", date := c!"D", children := ps.map fun s => .paragraph (aParagraph s), parent }

private def anyJson : Comment → Json := fun c => .num (dec c.id)

/-- A link, a footnote, and a comment in a section, where it is not found. -/
private def linkedCalls : List Call :=
  [ .addParagraph { id := c!"p", children :=
      [.hyperlink { (Hyperlink.new 4 c!"http://e" .external) with children := [.run { children := [aText c!"x"] }] }] },
    .addParagraph { id := c!"q", children := [.run { children := [.footnoteReference 1 c!"s" [aParagraph c!"n"]] }] },
    .addSection { children := [.paragraph { id := c!"r", children := [.commentStart 1 (askedComment 1 none [c!"a"]), .run (aRun c!"t"), .commentEnd 1] }], property := {} } ]

/-- The file that the calls give. -/
private def asked (cs : List Call) : DocxFile := (DocxFile.new.calls cs).getD DocxFile.new

private theorem linked_some : DocxFile.new.calls linkedCalls = some (asked linkedCalls) := by rfl

private theorem linked_facts : bodyLinks (asked linkedCalls).document = [(c!"rIdHyperlink4", c!"http://e")] ∧
    partPictures (walkDocument (asked linkedCalls).document) = [] ∧ bodyComments (asked linkedCalls).document = [] ∧
    ((asked linkedCalls).document.children.length = 3) ∧ (partFootnotes (walkDocument (asked linkedCalls).document)).map Footnote.id = [1] := by decide +kernel

private theorem linked_packs : packableB (asked linkedCalls) = true ∧ packableB ((asked linkedCalls).commentsJson anyJson anEnv).2 = true ∧
    packableB (asked linkedCalls).collectFootnotes.2 = true ∧ allCopied (asked linkedCalls).collectFootnotes.2 = true := by decide +kernel

private theorem linked_made : Made (asked linkedCalls).document :=
  ⟨fun x hx => (by rw [linked_facts.2.1] at hx; cases hx), fun x hx => by
    rw [linked_facts.1, List.mem_singleton] at hx
    subst hx
    exact ⟨4, c!"http://e", by decide +kernel⟩⟩

/-- The hypotheses of `C76_only_rels_partial` and `C76_fails_links` hold of a file with a link: without asking the ids are unique, after asking they are not. -/
example : ∃ d es es' rs rs', DocxFile.new.calls linkedCalls = some d ∧ Packed anEnv d {} es ∧ Packed anEnv (d.commentsJson anyJson anEnv).2 {} es' ∧
    HasRelations es c!"word/_rels/document.xml.rels" rs ∧ HasRelations es' c!"word/_rels/document.xml.rels" rs' ∧
    (rs.map Relation.id).Nodup ∧ ¬ (rs'.map Relation.id).Nodup := by
  obtain ⟨es, w, h⟩ := packableB_spec linked_packs.1
  obtain ⟨es', w', h'⟩ := packableB_spec linked_packs.2.1
  have hf := linked_facts
  have hs := linked_some
  obtain ⟨rs, h1, h2⟩ := C20_unique_iff_partial linkedCalls _ anEnv {} es hs anEnv_links linked_made (.inl ⟨w, h⟩)
  obtain ⟨rs', k1, _, k2⟩ := C76_fails_links linkedCalls _ anEnv anEnv anyJson {} es' hs anEnv_links anEnv_links linked_made (.inl ⟨w', h'⟩)
    (c!"rIdHyperlink4", c!"http://e") (by rw [hf.1]; exact List.mem_singleton.2 rfl)
  exact ⟨_, es, es', rs, rs', hs, .inl ⟨w, h⟩, .inl ⟨w', h'⟩, h1, k1, h2.2 (.inl (by decide +kernel)), k2⟩

example : ∃ es w', (asked linkedCalls).pack anEnv {} = some (.ok es, w') ∧
    ∀ c ∈ bodyComments (asked linkedCalls).document, directParagraphs c = [] := by
  obtain ⟨es, w, h⟩ := packableB_spec linked_packs.1
  exact ⟨es, w, h, fun c hc => by rw [linked_facts.2.2.1] at hc; cases hc⟩

/-- `C76_fails_footnotes` applies to the same file: the footnote is written twice. -/
example : ∃ es notes, Packed anEnv (asked linkedCalls).collectFootnotes.2 {} es ∧ ⟨c!"word/footnotes.xml", .text notes⟩ ∈ es ∧
    idsOf c!"footnote" (readEvents notes) = [c!"1", c!"1"] := by
  obtain ⟨es, w, h⟩ := packableB_spec linked_packs.2.2.1
  obtain ⟨_, notes, h1, h2⟩ := C76_fails_footnotes _ anEnv {} es (allCopied_spec linked_packs.2.2.2) (.inl ⟨w, h⟩)
  refine ⟨es, notes, .inl ⟨w, h⟩, h1, ?_⟩
  rw [h2, List.map_append, List.map_append]
  have e : (partFootnotes (walkDocument (asked linkedCalls).document)).map (fun f => dec f.id) = [c!"1"] := by
    have := linked_facts.2.2.2.2
    rw [show (fun f : Footnote => dec f.id) = dec ∘ Footnote.id from rfl, ← List.map_map, this]
    decide
  rw [e]
  rfl

/-- A comment with two paragraphs and a reply. -/
private def repliedCalls : List Call :=
  [ .addParagraph { id := c!"p", children :=
      [.commentStart 1 (askedComment 1 none [c!"a", c!"b"]), .commentStart 2 (askedComment 2 (some 1) [c!"c"]), .run (aRun c!"t"), .commentEnd 2, .commentEnd 1] } ]

private theorem replied_facts : packableB (asked repliedCalls) = true ∧ packableB ((asked repliedCalls).commentsJson anyJson anEnv).2 = true ∧
    allCopied (asked repliedCalls) = true ∧ allCopied ((asked repliedCalls).commentsJson anyJson anEnv).2 = true ∧
    (bodyComments (asked repliedCalls).document).map (fun c => (c.id, (directParagraphs c).length)) = [(1, 2), (2, 1)] := by decide +kernel

/-- The hypotheses of `C76_comments` hold of a file with comments. -/
example : ∃ es es', Copied (asked repliedCalls) ∧ Copied ((asked repliedCalls).commentsJson anyJson anEnv).2 ∧
    (∃ c ∈ bodyComments (asked repliedCalls).document, directParagraphs c ≠ []) ∧ Packed anEnv (asked repliedCalls) {} es ∧
    Packed anEnv ((asked repliedCalls).commentsJson anyJson anEnv).2 {} es' := by
  obtain ⟨f1, f2, f3, f4, f5⟩ := replied_facts
  obtain ⟨es, w, h⟩ := packableB_spec f1
  obtain ⟨es', w', h'⟩ := packableB_spec f2
  refine ⟨es, es', allCopied_spec f3, allCopied_spec f4, ?_, .inl ⟨w, h⟩, .inl ⟨w', h'⟩⟩
  have hm : (1, 2) ∈ (bodyComments (asked repliedCalls).document).map (fun c => (c.id, (directParagraphs c).length)) := by rw [f5]; exact .head _
  obtain ⟨c, hc, e⟩ := List.mem_map.1 hm
  refine ⟨c, hc, fun h0 => ?_⟩
  rw [h0] at e
  exact absurd (show 0 = 2 from congrArg Prod.snd e) (by decide)

/-- `comments_json` says a comment with two paragraphs twice. -/
example : ∃ k, ∀ n ≥ k, readJson n ((asked repliedCalls).commentsJson anyJson anEnv).1 =
    some (.obj [(c!"comments", .arr [.num c!"1", .num c!"1", .num c!"2"])], []) := by
  obtain ⟨_, _, _, _, f5⟩ := replied_facts
  have hm : (1, 2) ∈ (bodyComments (asked repliedCalls).document).map (fun c => (c.id, (directParagraphs c).length)) := by rw [f5]; exact .head _
  obtain ⟨c, hc, e⟩ := List.mem_map.1 hm
  obtain ⟨l, ⟨k, hk⟩, h2, _⟩ := C76_answer anEnv anyJson (asked repliedCalls) (fun c => jnat_ok c.id)
  have h3 := h2 ⟨c, hc, fun h0 => by rw [h0] at e; exact absurd (show 0 = 2 from congrArg Prod.snd e) (by decide)⟩
  refine ⟨k, fun n hn => ?_⟩
  rw [hk n hn, h3, List.map_flatMap]
  have key : ∀ l : List Comment, (l.flatMap fun c => (List.replicate (directParagraphs c).length c).map anyJson) =
      (l.map fun c => (c.id, (directParagraphs c).length)).flatMap fun x => List.replicate x.2 (.num (dec x.1)) := by
    intro l
    rw [List.flatMap_map]
    congr 1
    funext c
    rw [List.map_replicate]
    rfl
  rw [key, f5]
  rfl

private theorem plain_facts : bodyLinks (asked [.addParagraph (aParagraph c!"x")]).document = [] ∧
    bodyComments (asked [.addParagraph (aParagraph c!"x")]).document = [] ∧
    (asked [.addParagraph (aParagraph c!"x")]).document.children.length = 1 := by decide +kernel

/-- The hypotheses of `C76_unchanged_partial` hold of a file with a paragraph. -/
example : bodyLinks (asked [.addParagraph (aParagraph c!"x")]).document = [] ∧
    ∀ c ∈ bodyComments (asked [.addParagraph (aParagraph c!"x")]).document, directParagraphs c = [] :=
  ⟨plain_facts.1, fun c hc => by rw [plain_facts.2.1] at hc; cases hc⟩

end Docx.Props
