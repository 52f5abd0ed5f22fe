import Verif.Model.ReadComments
import Verif.Lemmas.ReadDocument
import Verif.Lemmas.ReadNumberings
import Verif.Lemmas.ReadRels
import Verif.Lemmas.PackageXml

/-!
# Reading back the comments
-/

namespace Docx

open Docx.Xml Docx.Spec

set_option linter.unusedSimpArgs false

variable {x : ReadEnv}

/-- A child of a comment that the reader keeps as it is. -/
def Block.ReadableAlone : Block → Prop
  | .paragraph p => p.Readable
  | .table _ => False

/-- A paragraph of a comment, read back. -/
def Block.rereadAlone : Block → List Block
  | .paragraph p => [.paragraph p.reread]
  | .table _ => []

/-- A comment that can be read back. -/
def Comment.Readable (c : Comment) : Prop :=
  Fits c.id ∧ (decodeAttr c.author).isSome ∧ (decodeAttr c.date).isSome ∧ ∀ b ∈ c.children, b.ReadableAlone

/-- A comment read back: the author is escaped, the parent is found later. -/
def Comment.reread (c : Comment) : Comment :=
  { id := c.id, author := escape (seen c.author), date := seen c.date, children := c.children.flatMap Block.rereadAlone }

/-- More children for a comment. -/
def Comment.addAll (c : Comment) (l : List Block) : Comment := { c with children := c.children ++ l }

theorem takes_blocks : (bs : List Block) → (∀ b ∈ bs, b.ReadableAlone) →
    TakesN x (commentLoop x) (nodesBlocks bs) (fun c => c.addAll (bs.flatMap Block.rereadAlone))
  | [], _ => by
    rw [nodesBlocks]
    exact TakesN.nil.congr fun c => by cases c; simp [Comment.addAll]
  | .table t :: bs, h => absurd (h _ (.head _)) id
  | .paragraph p :: bs, h => by
    rw [nodesBlocks, Block.nodes]
    have h1 : TakesN x (commentLoop x) p.nodes (fun c => c.addAll [.paragraph p.reread]) := by
      intro g f g' e c
      obtain ⟨as, body, rfl, hr⟩ := returns_paragraph (x := x) p (h _ (.head _)) e
      refine TakesF.child ((hr.map c.addParagraph).congr (fun _ es hd => ?_) |>.mono ?_)
      · simp [-String.reduceToList, commentLoop]
      · rfl
    exact (h1.then (takes_blocks bs fun b hb => h b (.tail _ hb))).congr fun c => by
      simp [Comment.addAll, Block.rereadAlone]

theorem takes_comment (c : Comment) (h : c.Readable) : TakesN x (commentsLoop x) c.nodes (fun l => l ++ [c.reread]) := by
  intro g f g' e l
  obtain ⟨body, hb, rfl⟩ := elemN_eq e
  have hl : ∀ d, ((commentLoop x (readers x d)).close ((commentOfAttrs c.id (expectAttrs [(c!"w:id", dec c.id), (c!"w:author", c.author),
      (c!"w:date", c.date), (c!"w:initials", [])])).addAll (c.children.flatMap Block.rereadAlone)) (splitQName c!"w:comment")) = none := by
    intro d
    simp [-String.reduceToList, commentLoop, closesAt]
  have := (Returns.loop (n := c!"w:comment") (takes_blocks (x := x) c.children h.2.2.2 _ _ _ hb
    (commentOfAttrs c.id (expectAttrs [(c!"w:id", dec c.id), (c!"w:author", c.author), (c!"w:date", c.date), (c!"w:initials", [])]))) hl).map
    fun c => l ++ [c]
  refine TakesF.child ((this.mono ?_).congr fun d es hd => ?_)
  · simp [-String.reduceToList, String.toList_inj, commentOfAttrs, Comment.addAll, Comment.reread, expectAttrs_dec, expectAttrs_nil,
      expectAttrs_cons h.2.1, expectAttrs_cons h.2.2.1, expectAttrs_lit, attrNamed_cons]
  · simp [-String.reduceToList, String.toList_inj, commentsLoop, readComment, expectAttrs_dec, attrNamed_cons, usizeFromStr_dec h.1, orErr,
      Read.bind, Read.map]

theorem foldl_push {α β : Type} (f : α → β) (l : List α) (a : List β) : l.foldl (fun l a => l ++ [f a]) a = a ++ l.map f := by
  induction l generalizing a with
  | nil => simp
  | cons b l ih => simp [ih]

/-- The comments part, written, reads as the comments read back. -/
theorem reads_comments (cs : List Comment) (hs : ∀ c ∈ cs, AllS c.strings) (h : ∀ c ∈ cs, c.Readable) {g g' : Gen} {out : Str}
    (e : writeComments cs g = some (.ok out, g')) :
    ∃ k, ∀ d, k ≤ d → readComments x d out = .ok (cs.map Comment.reread) [.endDocument] := by
  rw [writeComments, ← commentsB_flat] at e
  obtain ⟨f, hf, _, hr⟩ := writePart_reads (commentsN_ok cs hs) e
  obtain ⟨body, hb, rfl⟩ := elemN_eq hf
  have k1 : TakesN x (commentsLoop x) (eachN Comment.nodes cs) (fun p => cs.foldl (fun p a => p ++ [Comment.reread a]) p) :=
    .each (add := fun (p : List Comment) a => p ++ [Comment.reread a]) fun a ha => takes_comment a (h a ha)
  have hk := k1 _ _ _ hb []
  dsimp only at hk
  rw [foldl_push, List.nil_append] at hk
  obtain ⟨k, hk⟩ := runs_root (L := commentsLoop x) (n := c!"w:comments") (as := commentsAttrs)
    (fun d es => by simp [-String.reduceToList, commentsLoop]) hk
    (fun d => by simp [-String.reduceToList, commentsLoop, closesAt])
  exact ⟨k, fun d hd => by rw [readComments, hr]; exact hk d hd d hd⟩

/-! ## Records -/

/-- A record read back. -/
def CommentExtended.reread (r : CommentExtended) : CommentExtended := ⟨seen r.paragraphId, r.done, r.parentParagraphId.map seen⟩

theorem takes_record (r : CommentExtended) (h : ∀ s ∈ r.strings, (decodeAttr s).isSome) (l : List CommentExtended) :
    TakesF x (fun _ => commentsExtendedLoop) l r.nodes (putRecord r.reread l) := by
  obtain ⟨p, b, q⟩ := r
  have hp := h p (.head _)
  have s1 : (splitQName c!"w15:paraId").loc = c!"paraId" := by decide
  have s2 : (splitQName c!"w15:paraIdParent").loc = c!"paraIdParent" := by decide
  have s3 : (splitQName c!"w15:done").loc = c!"done" := by decide
  have s4 : elementOf (splitQName c!"w15:commentEx").loc = .commentExtended := by decide +kernel
  have s5 : expectAttrs [(c!"w15:done", c!"0")] = [(⟨some c!"w15", c!"done"⟩, c!"0")] := by decide +kernel
  have s6 : expectAttrs [(c!"w15:done", c!"1")] = [(⟨some c!"w15", c!"done"⟩, c!"1")] := by decide +kernel
  have s7 : isFalse c!"0" = true := by decide
  have s8 : isFalse c!"1" = false := by decide
  have s9 : ∀ k : Str, attrNamed [] k = none := fun _ => rfl
  refine TakesF.leaf' (fun d es _ => ?_) (fun d => ?_)
  · cases q with
    | none =>
      cases b <;>
      simp [-String.reduceToList, String.toList_inj, commentsExtendedLoop, readCommentExtended, optAttr, bitText, expectAttrs_cons hp,
        expectAttrs_nil, expectAttrs_lit, attrNamed_cons, CommentExtended.reread, s1, s2, s3, s4, s5, s6, s7, s8, s9]
    | some q =>
      have hq := h q (.tail _ (.head _))
      cases b <;>
      simp [-String.reduceToList, String.toList_inj, commentsExtendedLoop, readCommentExtended, optAttr, bitText, expectAttrs_cons hp,
        expectAttrs_cons hq, expectAttrs_nil, expectAttrs_lit, attrNamed_cons, CommentExtended.reread, s1, s2, s3, s4, s5, s6, s7, s8, s9]
  · simp [-String.reduceToList, commentsExtendedLoop, closesAt, s4]

theorem takes_records (rs : List CommentExtended) (h : ∀ r ∈ rs, ∀ s ∈ r.strings, (decodeAttr s).isSome) :
    ∀ l, TakesF x (fun _ => commentsExtendedLoop) l (rs.flatMap CommentExtended.nodes) (rs.foldl (fun l r => putRecord r.reread l) l) := by
  induction rs with
  | nil => exact fun l => .nil _
  | cons r rs ih =>
    intro l
    rw [List.flatMap_cons]
    exact (takes_record r (h r (.head _)) l).append (ih (fun r hr => h r (.tail _ hr)) _)

theorem putRecord_new (r : CommentExtended) : ∀ l : List CommentExtended, r.paragraphId ∉ l.map CommentExtended.paragraphId → putRecord r l = l ++ [r]
  | [], _ => rfl
  | a :: l, h => by
    simp only [List.map_cons, List.mem_cons, not_or] at h
    rw [putRecord, if_neg fun e => h.1 e.symm, putRecord_new r l h.2]
    rfl

theorem putRecords (rs : List CommentExtended) (hn : (rs.map fun r => seen r.paragraphId).Nodup) :
    rs.foldl (fun l r => putRecord r.reread l) [] = rs.map CommentExtended.reread := by
  have key : ∀ (rs acc : List CommentExtended), (acc.map CommentExtended.paragraphId ++ rs.map fun r => seen r.paragraphId).Nodup →
      rs.foldl (fun l r => putRecord r.reread l) acc = acc ++ rs.map CommentExtended.reread := by
    intro rs
    induction rs with
    | nil => intro acc _; simp
    | cons r rs ih =>
      intro acc h
      have h1 : r.reread.paragraphId ∉ acc.map CommentExtended.paragraphId := by
        rw [List.nodup_append] at h
        exact fun hm => h.2.2 _ hm _ (.head _) rfl
      rw [List.foldl_cons, putRecord_new _ _ h1, ih]
      · simp
      · rw [List.map_append, List.append_assoc]
        exact h
  simpa using key rs [] (by simpa using hn)

theorem reads_records (rs : List CommentExtended) (hs : ∀ r ∈ rs, ∀ s ∈ r.strings, Stored s)
    (hn : (rs.map fun r => seen r.paragraphId).Nodup) {out : Str} (hr : readEvents out = expect [] none (tagsForest (commentsExtendedN rs))) :
    ∃ k, ∀ d, k ≤ d → readCommentsExtended d out = .ok (rs.map CommentExtended.reread) [.endDocument] := by
  have x : ReadEnv := ⟨fun _ => none, fun _ => none, fun _ => none, []⟩
  have hk := takes_records (x := x) rs (fun r hr s h => (hs r hr s h).2.1) []
  rw [putRecords rs hn] at hk
  have s1 : elementOf (splitQName c!"w15:commentsEx").loc = .commentsExtended := by decide +kernel
  obtain ⟨k, hk⟩ := runs_root (x := x) (L := fun _ => commentsExtendedLoop) (n := c!"w15:commentsEx") (as := commentsExtendedAttrs)
    (fun d es => by simp [-String.reduceToList, commentsExtendedLoop, s1]) hk
    (fun d => by simp [-String.reduceToList, commentsExtendedLoop, closesAt, s1])
  exact ⟨k, fun d hd => by rw [readCommentsExtended, hr]; exact hk d hd d hd⟩

end Docx
