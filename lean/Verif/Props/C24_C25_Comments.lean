import Verif.Spec.Copied
import Verif.Lemmas.HeldParts
import Verif.Lemmas.Witness
import Verif.Props.C13_C26_Written
import Verif.Props.C42_PartRels

/-!
# C24, C25: the comments of a written package
-/

namespace Docx.Props

open Docx Docx.Spec Docx.Xml

/-! ## Helpers -/

theorem directParagraphs_ids (c : Comment) : c.paragraphIds = (directParagraphs c).map Paragraph.id := by
  unfold Comment.paragraphIds directParagraphs
  rw [List.map_filterMap]
  congr 1
  funext b
  cases b <;> rfl

theorem directParagraphs_count (c : Comment) : c.paragraphCount = (directParagraphs c).length := by
  rw [← paragraphIds_length, directParagraphs_ids, List.length_map]

private theorem commentEx_read (r : CommentExtended) (h : ∀ s ∈ r.strings, Stored s) :
    (collectForest startOf r.nodes).filterMap (fun x =>
      if x.1 = ⟨some c!"w15", c!"commentEx"⟩ then
        some (⟨valueOf ⟨some c!"w15", c!"paraId"⟩ x.2, valueOf ⟨some c!"w15", c!"paraIdParent"⟩ x.2⟩ : CommentRecord)
      else none) = [⟨decodeAttr r.paragraphId, r.parentParagraphId.bind decodeAttr⟩] := by
  obtain ⟨i, b, p⟩ := r
  have e0 : splitQName c!"w15:commentEx" = ⟨some c!"w15", c!"commentEx"⟩ := by decide
  have e1 : splitQName c!"w15:paraId" = ⟨some c!"w15", c!"paraId"⟩ := by decide
  have e2 : splitQName c!"w15:paraIdParent" = ⟨some c!"w15", c!"paraIdParent"⟩ := by decide
  have e3 : splitQName c!"w15:done" = ⟨some c!"w15", c!"done"⟩ := by decide
  have n1 : (⟨some c!"w15", c!"paraId"⟩ : QName) ≠ ⟨some c!"w15", c!"paraIdParent"⟩ := by decide
  have n2 : (⟨some c!"w15", c!"done"⟩ : QName) ≠ ⟨some c!"w15", c!"paraIdParent"⟩ := by decide
  have hi : Stored i := h i (.head _)
  obtain ⟨v, hv⟩ := Option.isSome_iff_exists.1 hi.2.1
  have hd : ∃ v, decodeAttr (bitText b) = some v := by cases b <;> exact ⟨_, rfl⟩
  obtain ⟨vd, hd⟩ := hd
  simp only [CommentExtended.nodes, leafN, collectForest, Node.collect, startOf, e0, List.append_nil, List.filterMap_cons,
    List.filterMap_nil, if_true]
  cases p with
  | none =>
    simp [-String.reduceToList, optAttr, expectAttrs, e1, e3, hv, hd, valueOf, n1, n2]
  | some p =>
    have hp : Stored p := h p (.tail _ (.head _))
    obtain ⟨u, hu⟩ := Option.isSome_iff_exists.1 hp.2.1
    simp [-String.reduceToList, optAttr, expectAttrs, e1, e2, e3, hv, hd, hu, valueOf, n1, n2]

theorem records_read (l : List CommentExtended) (h : ∀ r ∈ l, ∀ s ∈ r.strings, Stored s) :
    readRecords (readEvents (printForest (commentsExtendedN l))) =
      l.map fun r => ⟨decodeAttr r.paragraphId, r.parentParagraphId.bind decodeAttr⟩ := by
  have hok : OkF (commentsExtendedN l) := commentsExtended_ok l (by
    intro s hs
    obtain ⟨r, hr, hs⟩ := List.mem_flatMap.1 hs
    exact h r hr s hs)
  have e0 : splitQName c!"w15:commentsEx" ≠ ⟨some c!"w15", c!"commentEx"⟩ := by decide
  rw [readRecords, C06_read_print _ hok, eventStarts_tags _ hok]
  simp only [commentsExtendedN, collectForest, Node.collect, List.append_nil, startOf, List.filterMap_append, List.filterMap_cons,
    List.filterMap_nil]
  rw [if_neg e0, List.nil_append, collectForest_flatMap, filterMap_flatMap']
  clear hok
  induction l with
  | nil => rfl
  | cons r l ih =>
    rw [List.flatMap_cons, commentEx_read r (h r (.head _)), ih fun r hr => h r (.tail _ hr)]
    rfl

theorem recordsOf_read (all : List Comment) :
    ((recordsOf all).map fun r => (⟨decodeAttr r.paragraphId, r.parentParagraphId.bind decodeAttr⟩ : CommentRecord)) = recordsFor all := by
  unfold recordsOf recordsFor
  rw [List.map_flatMap]
  congr 1
  funext c
  rw [List.map_flatMap, directParagraphs_ids, List.flatMap_map]
  congr 1
  funext p
  cases c.parent with
  | none => rfl
  | some n =>
    simp only [lastParagraph]
    have : ∀ l : List Comment, (l.flatMap Comment.paragraphIds).getLast? = ((l.flatMap directParagraphs).getLast?).map Paragraph.id := by
      intro l
      rw [← List.getLast?_map, List.map_flatMap]
      congr 2
      funext c
      exact directParagraphs_ids c
    rw [this]
    cases ((all.filter fun q => decide (q.id = n)).flatMap directParagraphs).getLast? <;> rfl

theorem commentRecords_stored {env : Env} {d : DocxFile} {w : World} (hs : Copied d) :
    ∀ r ∈ recordsOf (bodyComments (d.prepareForBuild env w).1.document), ∀ s ∈ r.strings, Stored s := by
  have hc := prepared_comment_strings generates_stored env d w (fun c hc => hs.comments c (List.mem_append_right _ hc)) hs.ids
  have hid : ∀ c ∈ bodyComments (d.prepareForBuild env w).1.document, ∀ i ∈ c.paragraphIds, Stored i := by
    intro c h i hi
    rw [directParagraphs_ids] at hi
    obtain ⟨p, hp, rfl⟩ := List.mem_map.1 hi
    refine hc c h _ ?_
    obtain ⟨_, _, _, cs, _⟩ := c
    simp only [directParagraphs] at hp
    refine .tail _ (.tail _ ?_)
    obtain ⟨b, hb, e⟩ := List.mem_filterMap.1 hp
    cases b with
    | paragraph q =>
      simp only [Option.some.injEq] at e
      subst e
      have : ∀ cs : List Block, Block.paragraph q ∈ cs → q.id ∈ stringsBlocks cs := by
        intro cs h
        induction cs with
        | nil => cases h
        | cons b cs ih =>
          rw [stringsBlocks]
          rcases List.mem_cons.1 h with rfl | h
          · refine List.mem_append_left _ ?_
            obtain ⟨_, _, _, _⟩ := q
            exact .head _
          · exact List.mem_append_right _ (ih h)
      exact this _ hb
    | table _ => cases e
  intro r hr s h
  simp only [recordsOf, List.mem_flatMap] at hr
  obtain ⟨c, h1, i, h2, hr⟩ := hr
  cases hp : c.parent with
  | none =>
    simp only [hp, List.mem_singleton] at hr
    subst hr
    simp only [CommentExtended.strings, optS, Option.toList, List.mem_singleton] at h
    subst h
    exact hid c h1 _ h2
  | some n =>
    simp only [hp, List.mem_map, Option.mem_toList] at hr
    obtain ⟨j, hj, rfl⟩ := hr
    simp only [CommentExtended.strings, optS, Option.toList, List.mem_cons, List.not_mem_nil, or_false] at h
    rcases h with rfl | rfl
    · exact hid c h1 _ h2
    · have := List.mem_of_getLast? hj
      obtain ⟨c', hc', hs'⟩ := List.mem_flatMap.1 this
      exact hid c' (List.mem_filter.1 hc').1 _ hs'

/-- What the writers do with the comments: the comments of the body, each once for every paragraph it has. -/
theorem comments_packed {env : Env} {d : DocxFile} {w : World} {es : List Entry} (hs : Copied d)
    (hne : ∃ c ∈ bodyComments d.document, directParagraphs c ≠ []) (h : Packed env d w es) :
    ∃ written s t g g', written.map blankComment = (bodyComments d.document).map blankComment ∧
      ⟨c!"word/comments.xml", .text s⟩ ∈ es ∧
      writeComments (written.flatMap fun c => List.replicate (directParagraphs c).length c) g = some (.ok s, g') ∧
      (∀ c ∈ written, ∀ s ∈ c.strings, Stored s) ∧
      ⟨c!"word/commentsExtended.xml", .text t⟩ ∈ es ∧ readRecords (readEvents t) = recordsFor written ∧
      written = bodyComments (d.prepareForBuild env w).1.document ∧
      readEvents t = expect [] none (tagsForest (commentsExtendedN (recordsOf written))) := by
  have hf := packed_fits h
  have hst := commentRecords_stored (env := env) (w := w) hs
  have hc := prepared_comment_strings generates_stored env d w (fun c hc => hs.comments c (List.mem_append_right _ hc)) hs.ids
  obtain ⟨x, y, hb, e1, e2, e3, _⟩ := prepared_story generates_stored env d w hs.ids
  have hd : (d.prepareForBuild env w).1.document = y.document := by rw [e3]; exact updateDependencies_document _ _
  have hbl := prepared_bodyComments env d w
  have hex := preparePackage_comments env d w
  have hrec : (d.preparePackage env w).1.commentsExtended = (d.prepareForBuild env w).1.commentsExtended := by
    unfold DocxFile.preparePackage
    generalize d.prepareForBuild env w = p
    generalize hi : collectImages env.crc p.1.document = i
    simp only [hi]
    split <;> split <;> rfl
  have hno : ¬ ∀ c ∈ bodyComments y.document, c.paragraphCount = 0 := by
    intro hall
    obtain ⟨c, hc, hne⟩ := hne
    rw [hd] at hbl
    have : blankComment c ∈ (bodyComments y.document).map blankComment := by rw [hbl]; exact List.mem_map_of_mem hc
    obtain ⟨c', hc', e⟩ := List.mem_map.1 this
    have h0 := hall c' hc'
    rw [← paragraphCount_blank, e, paragraphCount_blank, directParagraphs_count] at h0
    exact hne (List.length_eq_zero_iff.1 h0)
  obtain ⟨u1, u2⟩ := (updateDependencies_comments env
    ({ d with document := y.document, comments := y.comments, footnotes := y.footnotes } : DocxFile)).2 hno
  rw [← e3] at u1 u2
  rw [u1] at hex
  rw [u2] at hrec
  dsimp only at hex hrec
  rw [← hd] at hex hrec
  generalize hwr : bodyComments (d.prepareForBuild env w).1.document = written at *
  generalize d.preparePackage env w = q at *
  obtain ⟨s, g, g', w1, w2⟩ := fits_write hf (step_comments env q.1 q.2.1)
  have w3 := fits_const hf (step_commentsExtended env q.1 q.2.1) (commentsExtended_const q.1)
  rw [hrec] at w3
  rw [hex] at w1
  refine ⟨written, s, _, g, g', hbl, w2, ?_, hc, w3, ?_, rfl, ?_⟩
  · have : (fun c : Comment => List.replicate (directParagraphs c).length c) = fun c => List.replicate c.paragraphCount c := by
      funext c; rw [directParagraphs_count]
    rw [this]
    exact w1
  · rw [records_read _ hst, recordsOf_read]
  · exact C06_read_print _ (commentsExtended_ok _ fun s hs => by
      obtain ⟨r, hr, hs⟩ := List.mem_flatMap.1 hs
      exact hst r hr s hs)

/-! ## C24 -/

/-- **C24.** The comments a reader finds in `word/comments.xml` of a written package are those whose range starts in a paragraph or
table of the body, in document order. A comment is there once for every paragraph directly in it (so a comment of two paragraphs is
there twice, and one without paragraphs not at all). The ranges a reader finds in `word/document.xml` are all of those of the body. -/
theorem C24_package_partial (d : DocxFile) (env : Env) (w : World) (es : List Entry) (hs : Copied d)
    (hne : ∃ c ∈ bodyComments d.document, directParagraphs c ≠ []) (h : Packed env d w es) :
    ∃ comments body, ⟨c!"word/comments.xml", .text comments⟩ ∈ es ∧ ⟨c!"word/document.xml", .text body⟩ ∈ es ∧
      idsOf c!"comment" (readEvents comments) =
        (bodyComments d.document).flatMap (fun c => List.replicate (directParagraphs c).length (dec c.id)) ∧
      idsOf c!"commentRangeStart" (readEvents body) = (bodyItems d.document).flatMap Item.commentId := by
  obtain ⟨written, s, t, g, g', e1, e2, e3, e4, _⟩ := comments_packed hs hne h
  have hbody := prepared_strings generates_stored env d w hs.body hs.ids
  have hf := packed_fits h
  have hitems : (bodyItems (d.preparePackage env w).1.document).flatMap Item.commentId = (bodyItems d.document).flatMap Item.commentId :=
    preparePackage_bodyItems (fun _ => rfl) (fun _ => rfl) (fun i => by cases i <;> rfl) env d w
  generalize d.preparePackage env w = q at *
  obtain ⟨b, gb, gb', w1, w2⟩ := fits_write hf (step_document env q.1 q.2.1)
  refine ⟨s, b, e2, w2, ?_, ?_⟩
  · rw [C24_comments_written _ ?_ _ _ _ e3]
    · rw [List.map_flatMap]
      have key : ∀ c : Comment, (List.replicate (directParagraphs c).length c).map (fun f => dec f.id) =
          (fun c : Comment => List.replicate c.paragraphCount (dec c.id)) (blankComment c) := by
        intro c
        rw [List.map_replicate, ← directParagraphs_count]
        dsimp only
        rw [paragraphCount_blank]
        cases c; rfl
      have key2 : ∀ l : List Comment, (l.flatMap fun c => (List.replicate (directParagraphs c).length c).map fun f => dec f.id) =
          (l.map blankComment).flatMap fun c => List.replicate c.paragraphCount (dec c.id) := by
        intro l
        rw [List.flatMap_map]
        congr 1
        funext c
        exact key c
      rw [key2, e1, ← key2]
      simp only [List.map_replicate]
    · intro c hc
      obtain ⟨c', h1, h2⟩ := List.mem_flatMap.1 hc
      rw [(List.mem_replicate.1 h2).2]
      exact e4 c' h1
  · rw [C24_ranges_written _ hbody _ _ _ w1, hitems]

/-- **C24.** Every comment whose range starts in a paragraph or table of the body is in the comments part, if it has a paragraph. -/
theorem C24_anchored_partial (d : DocxFile) (env : Env) (w : World) (es : List Entry) (hs : Copied d) (h : Packed env d w es)
    (c : Comment) (hc : c ∈ bodyComments d.document) (hp : directParagraphs c ≠ []) :
    ∃ comments, ⟨c!"word/comments.xml", .text comments⟩ ∈ es ∧ dec c.id ∈ idsOf c!"comment" (readEvents comments) ∧
      ∃ written g g', writeComments written g = some (.ok comments, g') ∧ ∃ c' ∈ written, blankComment c' = blankComment c := by
  obtain ⟨written, s, t, g, g', e1, e2, e3, e4, _⟩ := comments_packed hs ⟨c, hc, hp⟩ h
  have : blankComment c ∈ written.map blankComment := by rw [e1]; exact List.mem_map_of_mem hc
  obtain ⟨c', hc', e⟩ := List.mem_map.1 this
  have hcount : (directParagraphs c').length ≠ 0 := by
    rw [← directParagraphs_count, ← paragraphCount_blank, e, paragraphCount_blank, directParagraphs_count]
    exact fun h => hp (List.length_eq_zero_iff.1 h)
  have hm : c' ∈ written.flatMap fun c => List.replicate (directParagraphs c).length c :=
    List.mem_flatMap.2 ⟨c', hc', List.mem_replicate.2 ⟨hcount, rfl⟩⟩
  refine ⟨s, e2, ?_, _, g, g', e3, c', hm, e⟩
  rw [C24_comments_written _ ?_ _ _ _ e3]
  · have : dec c.id = dec c'.id := by
      have h1 : (blankComment c').id = c'.id := by cases c'; rfl
      have h2 : (blankComment c).id = c.id := by cases c; rfl
      rw [← h1, e, h2]
    rw [this]
    exact List.mem_map_of_mem (f := fun f : Comment => dec f.id) hm
  · intro c hc
    obtain ⟨c', h1, h2⟩ := List.mem_flatMap.1 hc
    rw [(List.mem_replicate.1 h2).2]
    exact e4 c' h1

private theorem commentIds_blank (l : List Comment) : (l.map fun c => dec c.id) = (l.map blankComment).map fun c => dec c.id := by
  induction l with
  | nil => rfl
  | cons c l ih =>
    have : (blankComment c).id = c.id := by cases c; rfl
    rw [List.map_cons, List.map_cons, List.map_cons, ← ih, this]

/-- **C24.** If no comment of the body has a paragraph, the comments part has the comments given to `comments`, if any. -/
theorem C24_given (d : DocxFile) (env : Env) (w : World) (es : List Entry) (hs : Copied d)
    (hno : ∀ c ∈ bodyComments d.document, directParagraphs c = []) (h : Packed env d w es) :
    ∃ comments body, ⟨c!"word/comments.xml", .text comments⟩ ∈ es ∧ ⟨c!"word/document.xml", .text body⟩ ∈ es ∧
      idsOf c!"comment" (readEvents comments) = d.comments.map (fun c => dec c.id) ∧
      idsOf c!"commentRangeStart" (readEvents body) = (bodyItems d.document).flatMap Item.commentId := by
  have hbody := prepared_strings generates_stored env d w hs.body hs.ids
  have hf := packed_fits h
  have hitems : (bodyItems (d.preparePackage env w).1.document).flatMap Item.commentId = (bodyItems d.document).flatMap Item.commentId :=
    preparePackage_bodyItems (fun _ => rfl) (fun _ => rfl) (fun i => by cases i <;> rfl) env d w
  obtain ⟨x, y, hb, e1, e2, e3, hy⟩ := prepared_story generates_stored env d w hs.ids
  have hd : (d.prepareForBuild env w).1.document = y.document := by rw [e3]; exact updateDependencies_document _ _
  have hbl := prepared_bodyComments env d w
  have hex := preparePackage_comments env d w
  have hnone : ∀ c ∈ bodyComments y.document, c.paragraphCount = 0 := by
    intro c' hc'
    rw [hd] at hbl
    have : blankComment c' ∈ (bodyComments d.document).map blankComment := by rw [← hbl]; exact List.mem_map_of_mem hc'
    obtain ⟨c, hc, e⟩ := List.mem_map.1 this
    rw [← paragraphCount_blank, ← e, paragraphCount_blank, directParagraphs_count, hno c hc]
    rfl
  have u1 := ((updateDependencies_comments env
    ({ d with document := y.document, comments := y.comments, footnotes := y.footnotes } : DocxFile)).1 hnone).1
  rw [← e3] at u1
  rw [u1] at hex
  dsimp only at hex
  have hbc : y.comments.map blankComment = d.comments.map blankComment := by
    rw [← e1]; exact congrArg Story.comments hb
  have hys : ∀ c ∈ y.comments, ∀ s ∈ c.strings, Stored s := by
    intro c' hc'
    have : blankComment c' ∈ d.comments.map blankComment := by rw [← hbc]; exact List.mem_map_of_mem hc'
    obtain ⟨c, hc, e⟩ := List.mem_map.1 this
    refine comment_strings generates_stored.empty e.symm (hs.comments c (List.mem_append_left _ hc)) fun i hi => hy i ?_
    rw [walkStory_ids, storyIds, collectDocx]
    exact List.mem_append_left _ (List.mem_append_right _ (List.mem_flatMap.2 ⟨c', hc', hi⟩))
  generalize d.preparePackage env w = q at *
  obtain ⟨s, g, g', w1, w2⟩ := fits_write hf (step_comments env q.1 q.2.1)
  obtain ⟨b, gb, gb', w3, w4⟩ := fits_write hf (step_document env q.1 q.2.1)
  rw [hex] at w1
  refine ⟨s, b, w2, w4, ?_, ?_⟩
  · rw [C24_comments_written _ hys _ _ _ w1]
    rw [commentIds_blank, hbc, ← commentIds_blank]
  · rw [C24_ranges_written _ hbody _ _ _ w3, hitems]

/-! ## C25 -/

/-- **C25.** The records a reader finds in `word/commentsExtended.xml`, in terms of the comments that `word/comments.xml` is the
written form of: one for every paragraph directly in a comment, naming that paragraph; for a reply it also names the last paragraph of
its parent, and a reply whose parent is not in the body (or has no paragraph) has none. -/
theorem C25_records (d : DocxFile) (env : Env) (w : World) (es : List Entry) (hs : Copied d)
    (hne : ∃ c ∈ bodyComments d.document, directParagraphs c ≠ []) (h : Packed env d w es) :
    ∃ written comments extended g g', written.map blankComment = (bodyComments d.document).map blankComment ∧
      ⟨c!"word/comments.xml", .text comments⟩ ∈ es ∧
      writeComments (written.flatMap fun c => List.replicate (directParagraphs c).length c) g = some (.ok comments, g') ∧
      ⟨c!"word/commentsExtended.xml", .text extended⟩ ∈ es ∧ readRecords (readEvents extended) = recordsFor written := by
  obtain ⟨written, s, t, g, g', e1, e2, e3, _, e5, e6, _, _⟩ := comments_packed hs hne h
  exact ⟨written, s, t, g, g', e1, e2, e3, e5, e6⟩

private theorem single_paragraph {c : Comment} (h : (directParagraphs c).length = 1) : ∃ p, directParagraphs c = [p] :=
  List.length_eq_one_iff.1 h

private theorem recordsFor_single (all : List Comment) (h1 : ∀ c ∈ all, (directParagraphs c).length = 1)
    (hd : (all.map Comment.id).Nodup) : recordsFor all = all.filterMap (recordFor all) := by
  have hfind : ∀ n, ((all.filter fun q => decide (q.id = n)).flatMap directParagraphs).getLast? =
      (all.find? fun p => decide (p.id = n)).bind fun p => (directParagraphs p).getLast? := by
    intro n
    clear h1
    induction all with
    | nil => rfl
    | cons c l ih =>
      simp only [List.map_cons, List.nodup_cons] at hd
      rw [List.filter_cons, List.find?_cons]
      by_cases hn : c.id = n
      · have : l.filter (fun q => decide (q.id = n)) = [] := by
          rw [List.filter_eq_nil_iff]
          intro q hq hqn
          simp only [decide_eq_true_eq] at hqn
          exact hd.1 (by rw [hn, ← hqn]; exact List.mem_map_of_mem hq)
        simp [hn, this]
      · simp [hn, ih hd.2]
  unfold recordsFor
  rw [← flatMap_toList]
  refine flatMap_congr' fun c hc => ?_
  obtain ⟨p, hp⟩ := single_paragraph (h1 c hc)
  unfold recordFor lastId
  rw [hp]
  simp only [List.flatMap_cons, List.flatMap_nil, List.append_nil, List.getLast?_singleton, Option.bind_some]
  cases c.parent with
  | none => rfl
  | some n =>
    simp only
    rw [hfind]
    cases e : all.find? fun p => decide (p.id = n) with
    | none => rfl
    | some q =>
      obtain ⟨p', hp'⟩ := single_paragraph (h1 q (List.mem_of_find?_eq_some e))
      simp [hp']

/-- **C25.** If every comment of the body has exactly one paragraph and they have different ids, then there is exactly one record for
every comment that is not a reply or whose parent is in the body: it names the last paragraph of its comment, and that of the parent.
The paragraph ids are those of the comments as `word/comments.xml` has them. Missing: comments of several paragraphs
(`C25_fails`). -/
theorem C25_records_partial (d : DocxFile) (env : Env) (w : World) (es : List Entry) (hs : Copied d)
    (hne : bodyComments d.document ≠ []) (h1 : ∀ c ∈ bodyComments d.document, (directParagraphs c).length = 1)
    (hd : ((bodyComments d.document).map Comment.id).Nodup) (h : Packed env d w es) :
    ∃ written comments extended g g', written.map blankComment = (bodyComments d.document).map blankComment ∧
      ⟨c!"word/comments.xml", .text comments⟩ ∈ es ∧ writeComments written g = some (.ok comments, g') ∧
      ⟨c!"word/commentsExtended.xml", .text extended⟩ ∈ es ∧
      readRecords (readEvents extended) = written.filterMap (recordFor written) := by
  have hne' : ∃ c ∈ bodyComments d.document, directParagraphs c ≠ [] := by
    obtain ⟨c, hc⟩ := List.exists_mem_of_ne_nil _ hne
    refine ⟨c, hc, fun e => ?_⟩
    have := h1 c hc
    rw [e] at this
    cases this
  obtain ⟨written, s, t, g, g', e1, e2, e3, e4, e5⟩ := C25_records d env w es hs hne' h
  have hw1 : ∀ c ∈ written, (directParagraphs c).length = 1 := by
    intro c hc
    have : blankComment c ∈ (bodyComments d.document).map blankComment := by rw [← e1]; exact List.mem_map_of_mem hc
    obtain ⟨c', hc', e⟩ := List.mem_map.1 this
    rw [← directParagraphs_count, ← paragraphCount_blank, ← e, paragraphCount_blank, directParagraphs_count]
    exact h1 c' hc'
  have hwd : (written.map Comment.id).Nodup := by
    have key : ∀ l : List Comment, l.map Comment.id = (l.map blankComment).map Comment.id := by
      intro l
      rw [List.map_map]
      congr 1
      funext c
      cases c; rfl
    rw [key, e1, ← key]
    exact hd
  have hcopy : (written.flatMap fun c => List.replicate (directParagraphs c).length c) = written := by
    have : ∀ l : List Comment, (∀ c ∈ l, (directParagraphs c).length = 1) →
        (l.flatMap fun c => List.replicate (directParagraphs c).length c) = l := by
      intro l hl
      induction l with
      | nil => rfl
      | cons c l ih =>
        rw [List.flatMap_cons, hl c (.head _), ih fun c hc => hl c (.tail _ hc)]
        rfl
    exact this _ hw1
  rw [hcopy] at e3
  exact ⟨written, s, t, g, g', e1, e2, e3, e4, e5.trans (recordsFor_single _ hw1 hwd)⟩

/-! ## Examples and counterexamples -/

/-- A check for `Copied`, to evaluate on examples. -/
def copiedB (d : DocxFile) : Bool :=
  decide ((∀ s ∈ d.document.strings, Stored s) ∧ (∀ i ∈ bodyIds (walkStory ⟨d.document, d.comments, d.footnotes⟩), Stored i) ∧
    (∀ x ∈ headersOf d.document, ∀ s ∈ x.strings, Stored s) ∧ (∀ x ∈ footersOf d.document, ∀ s ∈ x.strings, Stored s) ∧
    (∀ c ∈ d.comments ++ bodyComments d.document, ∀ s ∈ c.strings, Stored s) ∧
    (∀ f ∈ d.footnotes ++ partFootnotes (walkDocument d.document), ∀ s ∈ f.strings, Stored s) ∧ d.commentsExtended = [])

theorem copiedB_spec {d : DocxFile} (h : copiedB d = true) : Copied d := by
  simp only [copiedB, decide_eq_true_eq] at h
  obtain ⟨h1, h2, h3, h4, h5, h6, h7⟩ := h
  exact ⟨h1, h2, h3, h4, h5, h6, fun r hr => by rw [h7] at hr; cases hr⟩

private def aComment (n : Nat) (parent : Option Nat) (ps : List Str) : Comment :=
  { id := n, author := c!"A", date := c!"D", children := ps.map fun s => .paragraph (aParagraph s), parent }

private def commented (s : Str) (cs : List Comment) : Paragraph :=
  { id := s, children := cs.flatMap fun c => [.commentStart c.id c, .run (aRun s), .commentEnd c.id] }

/-- A comment, a reply to it, and a reply to a comment that is not there. -/
private def replyCalls : List Call :=
  [ .addParagraph (commented c!"x" [aComment 1 none [c!"a"], aComment 2 (some 1) [c!"b"]]),
    .addTable { rows := [{ cells := [{ children := [.paragraph (commented c!"y" [aComment 3 (some 9) [c!"c"]])] }] }] } ]

private theorem reply_pack : packs (fun d _ => copiedB d && decide ((bodyComments d.document).map Comment.id = [1, 2, 3] ∧
    (bodyComments d.document).map Comment.parent = [none, some 1, some 9] ∧
    ∀ c ∈ bodyComments d.document, (directParagraphs c).length = 1)) replyCalls = true := by decide +kernel

/-- The hypotheses of `C24_package_partial`, `C24_anchored_partial`, `C25_records` and `C25_records_partial` hold of a document with
replies. -/
example : ∃ d es, DocxFile.new.calls replyCalls = some d ∧ Packed anEnv d {} es ∧ Copied d ∧
    (bodyComments d.document).map Comment.id = [1, 2, 3] ∧ (bodyComments d.document).map Comment.parent = [none, some 1, some 9] ∧
    ∀ c ∈ bodyComments d.document, (directParagraphs c).length = 1 := by
  obtain ⟨d, es, h1, h2, h3⟩ := packs_spec reply_pack
  rw [Bool.and_eq_true, decide_eq_true_eq] at h3
  exact ⟨d, es, h1, h2, copiedB_spec h3.1, h3.2⟩

private def sectionCalls : List Call :=
  [ .addSection { children := [.paragraph (commented c!"x" [aComment 1 none [c!"a"]])], property := {} },
    .addSdt { children := [.paragraph (commented c!"y" [aComment 2 none [c!"b"]])] } ]

private theorem section_pack : packs (fun d _ => copiedB d && decide (bodyComments d.document = [] ∧ d.comments = [] ∧
    (bodyItems d.document).flatMap Item.commentId = [c!"1", c!"2"])) sectionCalls = true := by decide +kernel

/-- **C24 fails** for comments in sections and in structured data at document level: the ranges are written, the comments are not. -/
theorem C24_fails : ∃ d es comments body, DocxFile.new.calls sectionCalls = some d ∧ Packed anEnv d {} es ∧
    ⟨c!"word/comments.xml", .text comments⟩ ∈ es ∧ ⟨c!"word/document.xml", .text body⟩ ∈ es ∧
    idsOf c!"commentRangeStart" (readEvents body) = [c!"1", c!"2"] ∧ idsOf c!"comment" (readEvents comments) = [] := by
  obtain ⟨d, es, h1, h2, h3⟩ := packs_spec section_pack
  rw [Bool.and_eq_true, decide_eq_true_eq] at h3
  obtain ⟨hc, e1, e2, e3⟩ := h3
  obtain ⟨s, b, a1, a2, a3, a4⟩ := C24_given d anEnv {} es (copiedB_spec hc) (by rw [e1]; intro c h; cases h) h2
  exact ⟨d, es, s, b, h1, h2, a1, a2, a4.trans e3, by rw [a3, e2]; rfl⟩

private def longCalls : List Call := [ .addParagraph (commented c!"x" [aComment 1 none [c!"a", c!"b"]]) ]

private theorem long_pack : packs (fun d _ => copiedB d && decide ((bodyComments d.document).map Comment.id = [1] ∧
    (bodyComments d.document).map Comment.parent = [none] ∧
    (bodyComments d.document).map Comment.paragraphCount = [2])) longCalls = true := by decide +kernel

/-- **C24, C25 fail** for a comment of two paragraphs: it is written twice, with a record for its first paragraph too. -/
theorem C25_fails : ∃ d es comments extended, DocxFile.new.calls longCalls = some d ∧ Packed anEnv d {} es ∧
    (bodyComments d.document).length = 1 ∧
    ⟨c!"word/comments.xml", .text comments⟩ ∈ es ∧ ⟨c!"word/commentsExtended.xml", .text extended⟩ ∈ es ∧
    (idsOf c!"comment" (readEvents comments)) = [c!"1", c!"1"] ∧ (readRecords (readEvents extended)).length = 2 := by
  obtain ⟨d, es, h1, h2, h3⟩ := packs_spec long_pack
  rw [Bool.and_eq_true, decide_eq_true_eq] at h3
  obtain ⟨hc, e1, e2, e3⟩ := h3
  have hlen : (bodyComments d.document).length = 1 := by have := congrArg List.length e1; simpa using this
  obtain ⟨c, hb⟩ := List.length_eq_one_iff.1 hlen
  rw [hb] at e1 e2 e3
  simp only [List.map_cons, List.map_nil, List.cons.injEq, and_true] at e1 e2 e3
  have hdir : (directParagraphs c).length = 2 := by rw [← directParagraphs_count]; exact e3
  have hne : ∃ c ∈ bodyComments d.document, directParagraphs c ≠ [] :=
    ⟨c, by rw [hb]; exact .head _, fun e => by rw [e] at hdir; cases hdir⟩
  obtain ⟨written, s, t, g, g', a1, a2, a3, a4, a5, a6, _, _⟩ := comments_packed (copiedB_spec hc) hne h2
  rw [hb] at a1
  have hw : ∃ c', written = [c'] := by
    have := congrArg List.length a1
    simp only [List.length_map, List.length_singleton] at this
    exact List.length_eq_one_iff.1 this
  obtain ⟨c', rfl⟩ := hw
  simp only [List.map_cons, List.map_nil, List.cons.injEq, and_true] at a1
  have hdir' : (directParagraphs c').length = 2 := by
    rw [← directParagraphs_count, ← paragraphCount_blank, a1, paragraphCount_blank]; exact e3
  have hid : c'.id = 1 := by
    have h1 : (blankComment c').id = c'.id := by cases c'; rfl
    have h2 : (blankComment c).id = c.id := by cases c; rfl
    rw [← h1, a1, h2, e1]
  have hpar : c'.parent = none := by
    have h1 : (blankComment c').parent = c'.parent := by cases c'; rfl
    have h2 : (blankComment c).parent = c.parent := by cases c; rfl
    rw [← h1, a1, h2, e2]
  refine ⟨d, es, s, t, h1, h2, hlen, a2, a5, ?_, ?_⟩
  · rw [C24_comments_written _ ?_ _ _ _ a3]
    · simp only [List.flatMap_cons, List.flatMap_nil, List.append_nil, hdir', List.map_replicate, hid]
      decide
    · intro x hx
      simp only [List.flatMap_cons, List.flatMap_nil, List.append_nil] at hx
      rw [(List.mem_replicate.1 hx).2]
      exact a4 c' (.head _)
  · rw [a6]
    simp only [recordsFor, hpar, List.flatMap_cons, List.flatMap_nil, List.append_nil]
    rw [List.length_flatMap]
    simp [hdir']

end Docx.Props
