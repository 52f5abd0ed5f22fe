import Verif.Lemmas.Threads
import Verif.Lemmas.SeenBare
import Verif.Lemmas.WalkBuilt
import Verif.Spec.CommentItems
import Verif.Props.C37_Body
import Verif.Props.C09_C10_ParaIds
import Verif.Props.C24_C25_Comments

/-!
# C57: comments and their threads survive writing and reading
-/

namespace Docx

open Docx.Spec Docx.Xml

theorem commentOf_eq (c : CommentItem) : commentOf c =
    ⟨c.id, c.author, c.date, c.paragraphs.map fun p => .paragraph (paragraphOf p.1 p.2.1 p.2.2), c.parent⟩ := by
  have h : ∀ (ps : List (Str × ParagraphProperty × List ParagraphPart)) (m : Comment),
      ps.foldl (fun m p => m.addParagraph (paragraphOf p.1 p.2.1 p.2.2)) m =
        { m with children := m.children ++ ps.map fun p => .paragraph (paragraphOf p.1 p.2.1 p.2.2) } := by
    intro ps
    induction ps with
    | nil => intro m; cases m; simp
    | cons p ps ih => intro m; rw [List.foldl_cons, ih]; simp [Comment.addParagraph]
  obtain ⟨i, a, d, q, ps⟩ := c
  unfold commentOf
  simp only [h]
  cases q <;> simp [Comment.setParent, Comment.new, Comment.setAuthor, Comment.setDate]

theorem seenParagraph_eq {p : Paragraph} {id : Str} {q : ParagraphProperty} {parts : List ParagraphPart}
    (h : seenParagraph p = some (.paragraph id q parts)) :
    seenBlock (.paragraph p) = some (id, q, parts) := by
  unfold seenBlock
  unfold seenParagraph at h
  cases e : allThere (p.children.map seenPart) with
  | none => rw [e] at h; simp at h
  | some l =>
    rw [e] at h
    simp only [Option.map_some, Option.some.injEq, BodyItem.paragraph.injEq] at h
    obtain ⟨rfl, rfl, rfl⟩ := h
    simp only [e, Option.map_some]

/-- A comment made of kept paragraphs can be read back, and what is seen in it. -/
theorem commentOf_readable {c : CommentItem} (h : c.Kept) : (commentOf c).Readable := by
  rw [commentOf_eq]
  refine ⟨h.id, h.author.2.1, (stored_of_plain h.date).2.1, fun b hb => ?_⟩
  obtain ⟨p, hp, rfl⟩ := List.mem_map.1 hb
  exact (fineParagraph (h.paragraphs p hp)).read

theorem commentOf_strings {c : CommentItem} (h : c.Kept) : AllS (commentOf c).strings := by
  rw [commentOf_eq]
  unfold Comment.strings
  refine AllS_cons.2 ⟨h.author, AllS_cons.2 ⟨stored_of_plain h.date, ?_⟩⟩
  have := h.paragraphs
  generalize c.paragraphs = ps at this
  induction ps with
  | nil => exact AllS_nil.2 trivial
  | cons p ps ih =>
    rw [List.map_cons, stringsBlocks]
    exact AllS_append.2 ⟨(fineParagraph (this p (.head _))).strings, ih fun q hq => this q (.tail _ hq)⟩

theorem commentOf_reread {c : CommentItem} (h : c.Kept) : seenComment (commentOf c).reread = some (afterComment c) := by
  rw [commentOf_eq]
  unfold Comment.reread seenComment
  have e : ∀ l : List (Str × ParagraphProperty × List ParagraphPart),
      (l.map fun p => Block.paragraph (paragraphOf p.1 p.2.1 p.2.2)).flatMap Block.rereadAlone =
        l.map fun p => Block.paragraph (paragraphOf p.1 p.2.1 p.2.2).reread := by
    intro l
    induction l with
    | nil => rfl
    | cons a l ih => rw [List.map_cons, List.flatMap_cons, ih]; rfl
  simp only [e]
  rw [allThere_map' _ _ fun p => (p.1, p.2.1, p.2.2.map ParagraphPart.after)]
  · simp only [Option.map_some, Option.some.injEq, afterComment, CommentItem.mk.injEq, true_and, afterAuthor, Docx.seen]
    exact ⟨(Spec.PlainValue.seen h.date), trivial⟩
  · intro p hp
    exact seenParagraph_eq (fineParagraph (h.paragraphs p hp)).seen

/-! ## Ids of paragraphs -/

/-- What is seen in a comment without ids. -/
theorem seenComment_bare (c : Comment) : seenComment (bareComment c) = (seenComment c).map CommentItem.dropIds := by
  obtain ⟨i, a, d, bs, q⟩ := c
  simp only [seenComment, bareComment, bareBlocks_eq, List.map_map, Option.map_map]
  have h : ∀ bs : List Block, allThere (bs.map (seenBlock ∘ bareBlock)) =
      (allThere (bs.map seenBlock)).map fun ps => ps.map fun p => (([] : Str), p.2) := by
    intro bs
    induction bs with
    | nil => rfl
    | cons b bs ih =>
      simp only [List.map_cons, allThere]
      rw [ih]
      cases b with
      | table t => simp [bareBlock, seenBlock]
      | paragraph p =>
        obtain ⟨i, cs, q, n⟩ := p
        simp only [Function.comp_apply, seenBlock, bareBlock, bareParagraph, bareParagraphChildren_eq, List.map_map]
        have : cs.map (seenPart ∘ bareParagraphChild) = cs.map seenPart := List.map_congr_left fun c _ => seenPart_bare c
        rw [this]
        generalize allThere (cs.map seenPart) = o
        generalize allThere (bs.map _) = o'
        cases o <;> cases o' <;> rfl
  rw [h, Option.map_map]
  rfl

/-- Two comments that differ in the ids of paragraphs only: one can be read back if the other can. -/
theorem readable_blank {c c' : Comment} (e : blankComment c' = blankComment c) (h : c.Readable) (hs : AllS c'.strings) : c'.Readable := by
  have e' : bareComment c' = bareComment c := by rw [← bareComment_blank c', e, bareComment_blank]
  obtain ⟨i, a, d, bs, q⟩ := c
  obtain ⟨i', a', d', bs', q'⟩ := c'
  simp only [bareComment, Comment.mk.injEq] at e'
  obtain ⟨rfl, rfl, rfl, e', rfl⟩ := e'
  refine ⟨h.1, h.2.1, h.2.2.1, fun b hb => ?_⟩
  rw [bareBlocks_eq, bareBlocks_eq] at e'
  have : bareBlock b ∈ bs.map bareBlock := by rw [← e']; exact List.mem_map_of_mem hb
  obtain ⟨b0, hb0, e0⟩ := List.mem_map.1 this
  have hr := h.2.2.2 b0 hb0
  have hstr : AllS (stringsBlocks bs') := fun s hs' => hs s (by simp [Comment.strings, hs'])
  have hsb : ∀ (l : List Block) (b : Block), b ∈ l → AllS (stringsBlocks l) → AllS b.strings := by
    intro l
    induction l with
    | nil => intro b hb; cases hb
    | cons a l ih =>
      intro b hb h
      rw [stringsBlocks] at h
      rcases List.mem_cons.1 hb with rfl | hb
      · exact h.left
      · exact ih b hb h.right
  cases b with
  | table t => cases b0 with
    | table t0 => exact hr
    | paragraph p0 => simp [bareBlock] at e0
  | paragraph p => cases b0 with
    | table t0 => simp [bareBlock] at e0
    | paragraph p0 =>
      simp only [bareBlock, Block.paragraph.injEq] at e0
      refine bareParagraph_readable ?_ (AllS.id (hsb _ _ hb hstr))
      rw [← e0]
      exact readable_bareParagraph hr

/-- Two comments that differ in the ids of paragraphs only read back the same, apart from these ids. -/
theorem reread_blank {c c' : Comment} (e : blankComment c' = blankComment c) : bareComment c'.reread = bareComment c.reread := by
  have e' : bareComment c' = bareComment c := by rw [← bareComment_blank c', e, bareComment_blank]
  obtain ⟨i, a, d, bs, q⟩ := c
  obtain ⟨i', a', d', bs', q'⟩ := c'
  simp only [bareComment, Comment.mk.injEq] at e'
  obtain ⟨rfl, rfl, rfl, e', rfl⟩ := e'
  have h : ∀ bs : List Block, bareBlocks (bs.flatMap Block.rereadAlone) = (bareBlocks bs).flatMap Block.rereadAlone := by
    intro bs
    rw [bareBlocks_eq, bareBlocks_eq]
    refine flatMap_comm (fun b => ?_) bs
    cases b <;> simp [Block.rereadAlone, bareBlock, bareParagraph_reread]
  simp only [Comment.reread, bareComment, h, e']

theorem reread_paragraphIds {c : Comment} (h : ∀ i ∈ c.paragraphIds, seen i = i) : c.reread.paragraphIds = c.paragraphIds := by
  obtain ⟨i, a, d, bs, q⟩ := c
  simp only [Comment.reread, Comment.paragraphIds] at h ⊢
  induction bs with
  | nil => rfl
  | cons b bs ih =>
    cases b with
    | table t => simpa [Block.rereadAlone] using ih (by simpa using h)
    | paragraph p =>
      simp only [List.filterMap_cons, List.mem_cons, forall_eq_or_imp, List.flatMap_cons, Block.rereadAlone, List.cons_append,
        List.nil_append] at h ⊢
      rw [ih h.2]
      simp only [Paragraph.reread, h.1]

theorem blank_paragraphIds {c c' : Comment} (e : blankComment c' = blankComment c) : c'.paragraphIds.length = c.paragraphIds.length := by
  have h : ∀ c : Comment, c.paragraphIds.length = c.paragraphCount := by
    intro c
    rw [Props.directParagraphs_ids, List.length_map, Props.directParagraphs_count]
  rw [h, h, ← paragraphCount_blank, e, paragraphCount_blank]

theorem generates_plain : Generates Plain where
  empty := fun _ h => by cases h
  para := plain_paraId
  toc := plain_tocKey
  named pfx hp s t hs ht := by
    have hpre : Plain (pfx ++ s) := by
      rcases hp with rfl | rfl | rfl
      · exact hs
      · exact (plain_lit (by decide)).append hs
      · exact (plain_lit (by decide)).append hs
    rcases ht with rfl | ⟨n, rfl⟩
    · exact hpre
    · exact (hpre.append (plain_lit (by decide))).append (plain_dec n)

/-- The paragraphs of the comments of a prepared document have different ids. -/
theorem prepared_comment_ids (env : Env) (d : DocxFile) (w : World) :
    ((bodyComments (d.prepareForBuild env w).1.document).flatMap Comment.paragraphIds).Nodup := by
  obtain ⟨x, _, e⟩ := prepareForBuild_document env d w
  have h := (Props.C09_ids_unique_nonempty x 1).1
  rw [e]
  refine h.sublist ((bodyComments_ids _).trans ?_)
  simp only [walkStory, bodyIds_append]
  exact (List.sublist_append_left _ _).trans (List.sublist_append_left _ _)

theorem prepared_comment_plain (env : Env) (d : DocxFile) (w : World) (hid : ∀ i ∈ fileIds d, Plain i) :
    ∀ c ∈ bodyComments (d.prepareForBuild env w).1.document, ∀ i ∈ c.paragraphIds, Plain i := by
  intro c hc i hi
  obtain ⟨x, y, _, _, _, e3, h⟩ := prepared_story generates_plain env d w hid
  refine h i ?_
  have e : (d.prepareForBuild env w).1.document = y.document := by rw [e3]; exact updateDependencies_document _ _
  rw [e] at hc
  have := (bodyComments_ids y.document).subset (List.mem_flatMap.2 ⟨c, hc, hi⟩)
  simp only [walkStory, bodyIds_append, List.mem_append]
  exact .inl (.inl this)

theorem recordsOf_ids (l : List Comment) : ((recordsOf l).map CommentExtended.paragraphId).Sublist (l.flatMap Comment.paragraphIds) := by
  unfold recordsOf
  generalize lastParagraph l = f
  rw [List.map_flatMap]
  induction l with
  | nil => exact List.Sublist.slnil
  | cons c l ih =>
    rw [List.flatMap_cons, List.flatMap_cons]
    refine List.Sublist.append ?_ ih
    rw [List.map_flatMap]
    generalize c.paragraphIds = is
    induction is with
    | nil => exact List.Sublist.slnil
    | cons i is ih =>
      rw [List.flatMap_cons]
      refine List.Sublist.append (l₂ := [i]) ?_ ih
      cases c.parent with
      | none => exact List.Sublist.refl _
      | some n =>
        dsimp only
        cases f n with
        | none => exact List.nil_sublist _
        | some j => exact List.Sublist.refl _

theorem threads_eq (cs : List Comment) (rs : List CommentExtended) (h : ∀ c ∈ cs, c.parent = none) : threads cs rs =
    cs.map fun c => { c with parent := parentOf (commentByParagraph cs) (parentByParagraph rs) c.paragraphIds } := by
  unfold threads
  split
  · rename_i hc
    simp only [Bool.or_eq_true, List.isEmpty_iff] at hc
    rcases hc with rfl | rfl
    · rfl
    · symm
      rw [List.map_congr_left (g := id), List.map_id]
      intro c hc
      rw [parentOf_none (fun i _ => rfl), ← h c hc]
      cases c; rfl
  · rfl

theorem flatMap_alike {α β γ : Type} {b : α → γ} {G G' : α → List β} : ∀ {l m : List α}, l.map b = m.map b →
    (∀ a ∈ l, ∀ c ∈ m, b a = b c → G a = G' c) → l.flatMap G = m.flatMap G'
  | [], [], _, _ => rfl
  | [], _ :: _, e, _ => by simp at e
  | _ :: _, [], e, _ => by simp at e
  | a :: l, c :: m, e, h => by
    simp only [List.map_cons, List.cons.injEq] at e
    rw [List.flatMap_cons, List.flatMap_cons, h a (.head _) c (.head _) e.1,
      flatMap_alike e.2 fun a ha c hc => h a (.tail _ ha) c (.tail _ hc)]

theorem blank_fields {c c' : Comment} (e : blankComment c' = blankComment c) : c'.id = c.id ∧ c'.parent = c.parent := by
  obtain ⟨i, a, d, bs, q⟩ := c
  obtain ⟨i', a', d', bs', q'⟩ := c'
  simp only [blankComment, Comment.mk.injEq] at e
  exact ⟨e.1, e.2.2.2.2⟩

theorem blank_mem {l m : List Comment} (e : l.map blankComment = m.map blankComment) {c : Comment} (h : c ∈ l) :
    ∃ c' ∈ m, blankComment c = blankComment c' := by
  have : blankComment c ∈ m.map blankComment := by rw [← e]; exact List.mem_map_of_mem h
  obtain ⟨c', h1, h2⟩ := List.mem_map.1 this
  exact ⟨c', h1, h2.symm⟩

theorem foundParent_blank {l m : List Comment} (e : l.map blankComment = m.map blankComment) {c c' : Comment}
    (h : blankComment c = blankComment c') : foundParent l c = foundParent m c' := by
  have key : ∀ {l m : List Comment}, l.map blankComment = m.map blankComment → ∀ n,
      (∃ p ∈ l, p.id = n ∧ p.paragraphIds ≠ []) → ∃ p ∈ m, p.id = n ∧ p.paragraphIds ≠ [] := by
    rintro l m e n ⟨p, hp, h1, h2⟩
    obtain ⟨q, hq, eq⟩ := blank_mem e hp
    refine ⟨q, hq, by rw [← (blank_fields eq).1, h1], fun h0 => h2 ?_⟩
    have := blank_paragraphIds eq
    rw [h0] at this
    exact List.length_eq_zero_iff.1 this
  unfold foundParent
  rw [(blank_fields h).2]
  congr 1
  funext n
  have : (∃ p ∈ l, p.id = n ∧ p.paragraphIds ≠ []) ↔ ∃ p ∈ m, p.id = n ∧ p.paragraphIds ≠ [] := ⟨key e n, key e.symm n⟩
  simp only [this]

theorem commentOf_ids (c : CommentItem) : (commentOf c).paragraphIds.length = c.paragraphs.length := by
  rw [commentOf_eq]
  unfold Comment.paragraphIds
  generalize c.paragraphs = ps
  induction ps with
  | nil => rfl
  | cons p ps ih => simpa using ih

theorem foundParent_items (items : List CommentItem) (c : CommentItem) :
    foundParent (items.map commentOf) (commentOf c) = answered items c := by
  unfold foundParent answered
  have h1 : (commentOf c).parent = c.parent := by rw [commentOf_eq]
  rw [h1]
  congr 1
  funext n
  have : (∃ p ∈ items.map commentOf, p.id = n ∧ p.paragraphIds ≠ []) ↔
      (items.any fun p => decide (p.id = n) && !p.paragraphs.isEmpty) = true := by
    simp only [List.mem_map, List.any_eq_true, Bool.and_eq_true, decide_eq_true_eq, Bool.not_eq_true', List.isEmpty_eq_false_iff]
    have h2 : ∀ c, (commentOf c).id = c.id := fun c => by rw [commentOf_eq]
    have h3 : ∀ c, (commentOf c).paragraphIds ≠ [] ↔ c.paragraphs ≠ [] := by
      intro c
      rw [ne_eq, ne_eq, ← List.length_eq_zero_iff, ← List.length_eq_zero_iff, commentOf_ids]
    constructor
    · rintro ⟨_, ⟨p, hp, rfl⟩, e, hne⟩
      exact ⟨p, hp, by rw [← h2, e], (h3 p).1 hne⟩
    · rintro ⟨p, hp, e, hne⟩
      exact ⟨_, ⟨p, hp, rfl⟩, by rw [h2, e], (h3 p).2 hne⟩
  simp only [this]

theorem seen_parent (c : Comment) (q : Option Nat) : seenComment { c with parent := q } = (seenComment c).map fun i => { i with parent := q } := by
  cases c
  simp only [seenComment, Option.map_map]
  rfl

namespace Props

/-- **C57.** The comments part, written and read: every comment with its id, author, date and paragraphs. The author comes back
escaped, a text as `afterText` says. -/
theorem C57_comments (x : ReadEnv) (items : List CommentItem) (h : ∀ c ∈ items, c.Kept) (g g' : Gen) (out : Str)
    (e : writeComments (items.map commentOf) g = some (.ok out, g')) :
    ∃ k, ∀ n, k ≤ n → ∃ cs, readComments x n out = .ok cs [.endDocument] ∧
      cs.map seenComment = (items.map afterComment).map some := by
  obtain ⟨k, hk⟩ := reads_comments (x := x) (items.map commentOf)
    (by rintro c hc; obtain ⟨c, hm, rfl⟩ := List.mem_map.1 hc; exact commentOf_strings (h c hm))
    (by rintro c hc; obtain ⟨c, hm, rfl⟩ := List.mem_map.1 hc; exact commentOf_readable (h c hm)) e
  refine ⟨k, fun n hn => ⟨_, hk n hn, ?_⟩⟩
  rw [List.map_map, List.map_map, List.map_map]
  exact List.map_congr_left fun c hc => commentOf_reread (h c hc)

/-- **C57.** The comments of the body of a packed file: a reader of both parts that hold comments finds each of them, as often as it
has paragraphs, with the comment it answers if that one is there and has a paragraph. -/
theorem C57_package (x : ReadEnv) (d : DocxFile) (env : Env) (w : World) (es : List Entry) (items : List CommentItem) (hs : Copied d)
    (hi : ∀ i ∈ bodyIds (walkStory ⟨d.document, d.comments, d.footnotes⟩), PlainValue i) (hp : Packed env d w es)
    (hb : bodyComments d.document = items.map commentOf) (hk : ∀ c ∈ items, c.Kept) (hne : ∃ c ∈ items, c.paragraphs ≠ []) :
    ∃ comments records, ⟨c!"word/comments.xml", .text comments⟩ ∈ es ∧ ⟨c!"word/commentsExtended.xml", .text records⟩ ∈ es ∧
      ∃ k, ∀ n, k ≤ n → ∃ cs rs, readComments x n comments = .ok cs [.endDocument] ∧
        readCommentsExtended n records = .ok rs [.endDocument] ∧
        ((threads cs rs).map fun c => (seenComment c).map CommentItem.dropIds) =
          (afterComments items).map fun c => some c.dropIds := by
  obtain ⟨written, s, t, g, g', e1, e2, e3, e4, e5, _, e7, e8⟩ := comments_packed hs (by
    obtain ⟨c, hc, hne⟩ := hne
    refine ⟨commentOf c, by rw [hb]; exact List.mem_map_of_mem hc, fun h0 => hne ?_⟩
    have := commentOf_ids c
    rw [directParagraphs_ids, h0] at this
    exact List.length_eq_zero_iff.1 this.symm) hp
  have hn : (written.flatMap Comment.paragraphIds).Nodup := e7 ▸ prepared_comment_ids env d w
  have hpl : ∀ c ∈ written, ∀ i ∈ c.paragraphIds, Plain i := e7 ▸ prepared_comment_plain env d w hi
  have hsn : ∀ c ∈ written, ∀ i ∈ c.paragraphIds, seen i = i := fun c hc i h => Spec.PlainValue.seen (hpl c hc i h)
  clear e7
  rw [hb] at e1
  have hr : ∀ c ∈ written, c.Readable := by
    intro c hc
    obtain ⟨c', hc', e⟩ := blank_mem e1 hc
    obtain ⟨i, hi, rfl⟩ := List.mem_map.1 hc'
    exact readable_blank e (commentOf_readable (hk i hi)) (e4 c hc)
  have hmem : ∀ {c}, c ∈ written.flatMap (fun c => List.replicate (directParagraphs c).length c) → c ∈ written := by
    intro c hc
    obtain ⟨c', h1, h2⟩ := List.mem_flatMap.1 hc
    rw [(List.mem_replicate.1 h2).2]
    exact h1
  obtain ⟨k1, hk1⟩ := reads_comments (x := x) _ (fun c hc => e4 c (hmem hc)) (fun c hc => hr c (hmem hc)) e3
  have hrec : ∀ r ∈ recordsOf written, (seen r.paragraphId = r.paragraphId ∧ Stored r.paragraphId) ∧
      ∀ j, r.parentParagraphId = some j → seen j = j ∧ Stored j := by
    intro r hr
    simp only [recordsOf, List.mem_flatMap] at hr
    obtain ⟨c, hc, i, hi, hr⟩ := hr
    have h1 := (hpl c hc i hi)
    cases hpar : c.parent with
    | none =>
      rw [hpar] at hr
      simp only [List.mem_singleton] at hr
      subst hr
      exact ⟨⟨Spec.PlainValue.seen h1, h1.stored⟩, fun j e => by cases e⟩
    | some n =>
      rw [hpar] at hr
      simp only [List.mem_map, Option.mem_toList] at hr
      obtain ⟨j, hj, rfl⟩ := hr
      obtain ⟨p, hp, _, hjp⟩ := lastParagraph_some hj
      have h2 := hpl p hp j hjp
      refine ⟨⟨Spec.PlainValue.seen h1, h1.stored⟩, fun j' e => ?_⟩
      obtain rfl := Option.some.inj e
      exact ⟨Spec.PlainValue.seen h2, h2.stored⟩
  obtain ⟨k2, hk2⟩ := reads_records (recordsOf written) (by
    intro r hr s hs
    obtain ⟨h1, h2⟩ := hrec r hr
    simp only [CommentExtended.strings, List.mem_cons] at hs
    rcases hs with rfl | hs
    · exact h1.2
    · cases e : r.parentParagraphId with
      | none => rw [e] at hs; cases hs
      | some j =>
        rw [e] at hs
        have : s = j := by simpa [optS] using hs
        exact this ▸ (h2 _ e).2) (by
    rw [List.map_congr_left (g := CommentExtended.paragraphId) fun r hr => (hrec r hr).1.1]
    exact hn.sublist (recordsOf_ids written)) e8
  have hrr : (recordsOf written).map CommentExtended.reread = recordsOf written := by
    rw [List.map_congr_left (g := id), List.map_id]
    intro r hr
    obtain ⟨h1, h2⟩ := hrec r hr
    obtain ⟨p, b, q⟩ := r
    simp only [CommentExtended.reread, id, CommentExtended.mk.injEq, true_and]
    refine ⟨h1.1, ?_⟩
    cases q with
    | none => rfl
    | some j => exact congrArg some (h2 j rfl).1
  refine ⟨s, t, e2, e5, max k1 k2, fun n hm => ⟨_, _, hk1 n (Nat.le_trans (Nat.le_max_left _ _) hm),
    hk2 n (Nat.le_trans (Nat.le_max_right _ _) hm), ?_⟩⟩
  rw [hrr, threads_eq _ _ (by intro c hc; obtain ⟨c, _, rfl⟩ := List.mem_map.1 hc; rfl), List.map_map, List.map_map]
  have hcs : ∀ c, c ∈ (written.flatMap (fun c => List.replicate (directParagraphs c).length c)).map Comment.reread ↔
      ∃ c' ∈ written, c'.paragraphIds ≠ [] ∧ c = c'.reread := by
    intro c
    have hne : ∀ c : Comment, c.paragraphIds ≠ [] ↔ (directParagraphs c).length ≠ 0 := by
      intro c
      rw [directParagraphs_ids, ne_eq, ne_eq, List.map_eq_nil_iff, List.length_eq_zero_iff]
    constructor
    · intro h
      obtain ⟨c', h1, rfl⟩ := List.mem_map.1 h
      obtain ⟨c2, h2, h3⟩ := List.mem_flatMap.1 h1
      obtain ⟨h4, rfl⟩ := List.mem_replicate.1 h3
      exact ⟨_, h2, (hne _).2 h4, rfl⟩
    · rintro ⟨c', h1, h2, rfl⟩
      exact List.mem_map_of_mem (List.mem_flatMap.2 ⟨c', h1, List.mem_replicate.2 ⟨(hne _).1 h2, rfl⟩⟩)
  generalize hcs' : (written.flatMap (fun c => List.replicate (directParagraphs c).length c)).map Comment.reread = cs at hcs ⊢
  rw [List.map_flatMap]
  unfold afterComments
  rw [List.map_flatMap]
  have hR : (items.flatMap fun a => (List.replicate a.paragraphs.length { afterComment a with parent := answered items a }).map
        fun c => some c.dropIds) =
      (items.map commentOf).flatMap fun c => List.replicate c.paragraphIds.length
        ((seenComment { c.reread with parent := foundParent (items.map commentOf) c }).map CommentItem.dropIds) := by
    rw [List.flatMap_map]
    refine flatMap_alike (b := id) rfl fun a ha c _ e => ?_
    cases e
    rw [List.map_replicate, commentOf_ids, seen_parent, commentOf_reread (hk _ ha), foundParent_items]
    rfl
  rw [hR]
  refine flatMap_alike e1 fun a ha c hc e => ?_
  rw [List.map_replicate, ← blank_paragraphIds e, directParagraphs_ids, List.length_map]
  by_cases h0 : a.paragraphIds = []
  · rw [directParagraphs_ids, List.map_eq_nil_iff] at h0
    rw [h0]
    rfl
  · congr 1
    simp only [Function.comp_apply]
    rw [threads_found (g := Comment.reread) hn hcs (fun c hc => ⟨rfl, reread_paragraphIds (hsn c hc)⟩) a ha h0,
      foundParent_blank e1 e, seen_parent, seen_parent, Option.map_map, Option.map_map]
    have hd : ∀ q : Option Nat, (CommentItem.dropIds ∘ fun i : CommentItem => { i with parent := q }) =
        (fun i : CommentItem => { i with parent := q }) ∘ CommentItem.dropIds := fun q => rfl
    rw [hd, ← Option.map_map, ← Option.map_map, ← seenComment_bare, ← seenComment_bare, reread_blank e]

/-- **C57, in part.** Comments come back the same, apart from what each answers, exactly if every author is escaped and no text is
empty, has a line end or shows an entity reference. Full statement: always; it is false, see `C57_fails_author`. -/
theorem C57_same_partial (items : List CommentItem) :
    items.map afterComment = items.map (fun c => { c with parent := none }) ↔
      ∀ c ∈ items, afterAuthor c.author = c.author ∧ ∀ p ∈ c.paragraphs, ∀ t ∈ p.2.2.flatMap ParagraphPart.texts, BodyText t := by
  have h1 : ∀ c : CommentItem, afterComment c = { c with parent := none } ↔
      afterAuthor c.author = c.author ∧ ∀ p ∈ c.paragraphs, ∀ t ∈ p.2.2.flatMap ParagraphPart.texts, BodyText t := by
    intro c
    simp only [afterComment, CommentItem.mk.injEq, true_and]
    rw [map_same]
    simp only [← parts_same]
    refine and_congr Iff.rfl (forall_congr' fun p => forall_congr' fun _ => ?_)
    obtain ⟨a, b, l⟩ := p
    simp
  induction items with
  | nil => simp
  | cons c cs ih => simp only [List.map_cons, List.cons.injEq, List.forall_mem_cons, ih, h1]

/-- An author that was escaped by the caller comes back the same. -/
theorem C57_author (t : Str) (h : KeptText t) : afterAuthor (escape t) = escape t := by
  have := (Spec.EscapedFrom.again ⟨t, h, rfl⟩ : again (escapeOwned t) = escapeOwned t)
  rw [again, C03_escape_owned, C03_escape_owned, Docx.seen] at this
  exact this

/-- **C57 fails** for an author with an apostrophe that is not escaped: it comes back as an entity reference. -/
theorem C57_fails_author : Stored c!"O'Brien" ∧ afterAuthor c!"O'Brien" = c!"O&apos;Brien" := by
  constructor <;> decide +kernel

/-- What a loop keeps. -/
theorem run_keeps {σ : Type} {L : Loop σ} {I : σ → Prop} (hs : ∀ s q as es s' es', I s → L.start s q as es = .ok s' es' → I s')
    (ht : ∀ s b t, I s → I (L.text s b t)) (hc : ∀ s q s', I s → L.close s q = some s' → I s') :
    ∀ n s es s' es', I s → L.run n s es = .ok s' es' → I s'
  | 0, _, _, _, _, _, e => by simp [Loop.run] at e
  | n + 1, s, es, s', es', h, e => by
    rw [Loop.run] at e
    split at e
    · rename_i q as es1 _
      cases hst : L.start s q as es1 with
      | ok a r =>
        rw [hst] at e
        exact run_keeps hs ht hc n a r s' es' (hs _ _ _ _ _ _ h hst) e
      | err r => rw [hst] at e; simp [Read.bind] at e
      | panic => rw [hst] at e; simp [Read.bind] at e
      | running => rw [hst] at e; simp [Read.bind] at e
    · split at e
      · simp only [Read.ok.injEq] at e
        exact e.1 ▸ h
      · rename_i h2
        exact run_keeps hs ht hc n _ _ s' es' (hc _ _ _ h h2) e
    · exact run_keeps hs ht hc n _ _ s' es' (ht _ _ _ h) e
    · exact run_keeps hs ht hc n _ _ s' es' (ht _ _ _ h) e
    · split at e
      · simp only [Read.ok.injEq] at e
        exact e.1 ▸ h
      · exact run_keeps hs ht hc n _ _ s' es' h e
    · split at e
      · exact run_keeps hs ht hc n _ _ s' es' h e
      · cases e

theorem closesAt_keeps {σ : Type} {I : σ → Prop} {e : El} : ∀ s q s', I s → closesAt e s q = some s' → I s' := by
  intro s q s' h e'
  unfold closesAt at e'
  split at e'
  · cases e'
  · exact Option.some.inj e' ▸ h

/-- **C57 fails** for tables: whatever the text of a comments part, the comments that are read from it hold paragraphs only, and no
comment says which one it answers. -/
theorem C57_fails_tables (x : ReadEnv) (n : Nat) (text : Str) (cs : List Comment) (rest : List REvent)
    (e : readComments x n text = .ok cs rest) : ∀ c ∈ cs, c.parent = none ∧ ∀ b ∈ c.children, ∃ p, b = .paragraph p := by
  unfold readComments at e
  refine run_keeps (I := fun cs : List Comment => ∀ c ∈ cs, c.parent = none ∧ ∀ b ∈ c.children, ∃ p, b = .paragraph p) ?_ (fun _ _ _ h => h)
    closesAt_keeps n _ _ cs rest (fun _ h => by cases h) e
  intro l q as es l' es' h e
  simp only [commentsLoop] at e
  split at e
  · unfold readComment at e
    split at e
    · cases e
    · rename_i v _
      cases hu : usizeFromStr v with
      | none => rw [hu] at e; simp [orErr, Read.bind, Read.map] at e
      | some i =>
        rw [hu] at e
        simp only [orErr, Read.bind] at e
        cases hr : (commentLoop x (readers x n)).run (readers x n).fuel (commentOfAttrs i as) es with
        | ok c r =>
          rw [hr] at e
          simp only [Read.map, Read.bind, Read.ok.injEq] at e
          obtain ⟨rfl, rfl⟩ := e
          intro c' hc'
          rcases List.mem_append.1 hc' with hc' | hc'
          · exact h c' hc'
          · rw [List.mem_singleton.1 hc']
            refine run_keeps (I := fun c : Comment => c.parent = none ∧ ∀ b ∈ c.children, ∃ p, b = .paragraph p) ?_ (fun _ _ _ h => h)
              closesAt_keeps _ _ _ c r ⟨rfl, fun _ h => by cases h⟩ hr
            intro c q as es c' es' h e
            simp only [commentLoop] at e
            split at e
            · cases hp : readParagraph x (readers x n) as es with
              | ok p r =>
                rw [hp] at e
                simp only [Read.map, Read.bind, Read.ok.injEq] at e
                obtain ⟨rfl, rfl⟩ := e
                refine ⟨h.1, fun b hb => ?_⟩
                rcases List.mem_append.1 hb with hb | hb
                · exact h.2 b hb
                · exact ⟨p, List.mem_singleton.1 hb⟩
              | err r => rw [hp] at e; simp [Read.map, Read.bind] at e
              | panic => rw [hp] at e; simp [Read.map, Read.bind] at e
              | running => rw [hp] at e; simp [Read.map, Read.bind] at e
            · simp only [Read.ok.injEq] at e
              exact e.1 ▸ h
        | err r => rw [hr] at e; simp [Read.map, Read.bind] at e
        | panic => rw [hr] at e; simp [Read.map, Read.bind] at e
        | running => rw [hr] at e; simp [Read.map, Read.bind] at e
  · simp only [Read.ok.injEq] at e
    exact e.1 ▸ h

/-! ## Witnesses -/

/-- A comment, an answer, and an answer to a comment that is not there. -/
def threadItems : List CommentItem :=
  [⟨1, c!"A", c!"D", none, [(c!"a", {}, [.run ({}, [.text c!"one"])]), (c!"b", {}, [])]⟩,
   ⟨2, c!"B", c!"D", some 1, [(c!"c", {}, [.run ({}, [.text c!"two"])])]⟩,
   ⟨3, c!"C", c!"D", some 9, [(c!"d", {}, [.run ({}, [.text c!"three"])])]⟩]

theorem threadItems_kept : ∀ c ∈ threadItems, c.Kept := by
  have hp : ∀ id l, PlainValue id → KeptItem (.paragraph id {} [.run ({}, [.text l])]) := by
    intro id l h
    rw [KeptItem]
    refine ⟨h, kept_default, fun p hp => ?_⟩
    simp only [List.mem_singleton] at hp
    subst hp
    exact kept_empty
  have hq : KeptItem (.paragraph c!"b" {} []) := by
    rw [KeptItem]
    exact ⟨plain_lit (by decide), kept_default, fun p hp => by cases hp⟩
  intro c hc
  simp only [threadItems, List.mem_cons, List.not_mem_nil, or_false] at hc
  rcases hc with rfl | rfl | rfl
  · refine ⟨show 1 < 2 ^ 64 by omega, (plain_lit (by decide)).stored, plain_lit (by decide), fun p h => ?_⟩
    simp only [List.mem_cons, List.not_mem_nil, or_false] at h
    rcases h with rfl | rfl
    · exact hp _ _ (plain_lit (by decide))
    · exact hq
  · refine ⟨show 2 < 2 ^ 64 by omega, (plain_lit (by decide)).stored, plain_lit (by decide), fun p h => ?_⟩
    simp only [List.mem_singleton] at h
    subst h
    exact hp _ _ (plain_lit (by decide))
  · refine ⟨show 3 < 2 ^ 64 by omega, (plain_lit (by decide)).stored, plain_lit (by decide), fun p h => ?_⟩
    simp only [List.mem_singleton] at h
    subst h
    exact hp _ _ (plain_lit (by decide))

/-- The answer is found, the other one is not; the comment of two paragraphs is there twice. -/
example : (afterComments threadItems).map (fun c => (c.id, c.parent, c.paragraphs.length)) =
    [(1, none, 2), (1, none, 2), (2, some 1, 1), (3, none, 1)] := by decide +kernel

private def threadCalls : List Call :=
  [.addParagraph { id := c!"x", children := (threadItems.map commentOf).flatMap fun c => [.commentStart c.id c, .commentEnd c.id] }]

private theorem thread_pack : packs (fun d _ => copiedB d &&
    decide (∀ i ∈ bodyIds (walkStory ⟨d.document, d.comments, d.footnotes⟩), ∀ c ∈ i,
      c ≠ '&' ∧ c ≠ '<' ∧ c ≠ '"' ∧ c ≠ '\r' ∧ c ≠ '\t' ∧ c ≠ '\n')) threadCalls = true := by decide +kernel

private theorem thread_comments : (DocxFile.new.calls threadCalls).map (fun d => bodyComments d.document) =
    some (threadItems.map commentOf) := by rfl

/-- A packed file meets the hypotheses of `C57_package`. -/
example : ∃ d es, DocxFile.new.calls threadCalls = some d ∧ Copied d ∧
    (∀ i ∈ bodyIds (walkStory ⟨d.document, d.comments, d.footnotes⟩), PlainValue i) ∧ Packed anEnv d {} es ∧
    bodyComments d.document = threadItems.map commentOf ∧ (∀ c ∈ threadItems, c.Kept) ∧ ∃ c ∈ threadItems, c.paragraphs ≠ [] := by
  obtain ⟨d, es, h1, h2, h3⟩ := packs_spec thread_pack
  rw [Bool.and_eq_true, decide_eq_true_eq] at h3
  have h4 := thread_comments
  rw [h1] at h4
  exact ⟨d, es, h1, copiedB_spec h3.1, h3.2, h2, Option.some.inj h4, threadItems_kept, _, .head _, by simp⟩

end Props
end Docx
