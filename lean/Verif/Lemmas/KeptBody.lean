import Verif.Lemmas.ReadDocument
import Verif.Props.C51_ParagraphFormatting
import Verif.Props.C52_PageSetup
import Verif.Props.C53_TableFormatting
import Verif.Props.C07_C08_Strings
import Verif.Spec.BodyItems

/-!
# Bodies that survive writing and reading
-/

namespace Docx

open Docx.Spec Docx.Props

/-! ## Texts -/

theorem noEntity_tail {c : Char} {t : Str} (h : NoEntity (c :: t)) : NoEntity t :=
  fun e he hi => h e he (hi.trans (List.suffix_cons c t).isInfix)

/-- Without literal entity references nothing is replaced. -/
theorem replaceEscaped_noEntity : ∀ (t : Str), NoEntity t → replaceEscaped t = t
  | [], _ => rfl
  | c :: t, h => by
    have ih := replaceEscaped_noEntity t (noEntity_tail h)
    have E := C04_replace_equations t
    by_cases hc : c = '&'
    · subst hc
      rw [E.2.2, ih]
      intro e he hp
      refine h ('&' :: e) ?_ (List.IsPrefix.isInfix ((List.cons_prefix_cons).2 ⟨rfl, hp⟩))
      simp only [List.mem_cons, List.not_mem_nil, or_false] at he ⊢
      rcases he with rfl | rfl | rfl | rfl | rfl | rfl | rfl <;> decide
    · have := E.1 [c] (by simpa using fun e => hc e.symm)
      rw [List.singleton_append, List.singleton_append, ih] at this
      exact this

theorem dropLineFeeds_line {t : Str} (h : '\n' ∉ t) : dropLineFeeds t = t := by
  unfold dropLineFeeds
  rw [List.filter_eq_self]
  intro a ha
  simp only [ne_eq, decide_eq_true_eq]
  rintro rfl
  exact h ha

theorem visibleText_line {t : Str} (h1 : '\n' ∉ t) (h2 : '\r' ∉ t) : visibleText t = t := by
  unfold visibleText
  rw [List.filter_eq_self]
  intro a ha
  simp only [ne_eq, Bool.and_eq_true, decide_eq_true_eq]
  exact ⟨by rintro rfl; exact h1 ha, by rintro rfl; exact h2 ha⟩

/-- The references that are replaced. -/
def entityNames : List Str := [c!"&lt;", c!"&gt;", c!"&amp;", c!"&quot;", c!"&#39;", c!"&apos;", c!"&nbsp;"]

theorem replaceEscaped_at {e : Str} (he : e ∈ entityNames) (t : Str) : (replaceEscaped (e ++ t)).length < (e ++ t).length := by
  have E := (C04_replace_equations t).2.1
  have L := C04_replace_length t
  have key : ∀ ch : Char, 4 ≤ e.length → replaceEscaped (e ++ t) = ch :: replaceEscaped t →
      (replaceEscaped (e ++ t)).length < (e ++ t).length := by
    intro ch hl h
    rw [h, List.length_cons, List.length_append]
    omega
  simp only [entityNames, List.mem_cons, List.not_mem_nil, or_false] at he
  rcases he with rfl | rfl | rfl | rfl | rfl | rfl | rfl
  · exact key _ (by decide) (E _ '<' (by decide))
  · exact key _ (by decide) (E _ '>' (by decide))
  · exact key _ (by decide) (E _ '&' (by decide))
  · exact key _ (by decide) (E _ '"' (by decide))
  · exact key _ (by decide) (E _ '\'' (by decide))
  · exact key _ (by decide) (E _ '\'' (by decide))
  · exact key _ (by decide) (E _ ' ' (by decide))

/-- A reference anywhere in a text makes it shorter. -/
theorem replaceEscaped_shorter : ∀ (t : Str), (∃ e ∈ entityNames, e <:+: t) → (replaceEscaped t).length < t.length
  | [], ⟨e, he, hi⟩ => by
    rw [List.infix_nil] at hi
    subst hi
    exact absurd he (by decide)
  | c :: t, ⟨e, he, hi⟩ => by
    by_cases hp : ∃ e ∈ entityNames, e <+: c :: t
    · obtain ⟨e, he, b, hb⟩ := hp
      rw [← hb]
      exact replaceEscaped_at he b
    · have hi : e <:+: t := (List.infix_cons_iff.1 hi).resolve_left fun h => hp ⟨e, he, h⟩
      have ih := replaceEscaped_shorter t ⟨e, he, hi⟩
      have E := C04_replace_equations t
      have : replaceEscaped (c :: t) = c :: replaceEscaped t := by
        by_cases hc : c = '&'
        · subst hc
          refine E.2.2 fun e he h => hp ⟨'&' :: e, ?_, (List.cons_prefix_cons).2 ⟨rfl, h⟩⟩
          simp only [entityNames, List.mem_cons, List.not_mem_nil, or_false] at he ⊢
          rcases he with rfl | rfl | rfl | rfl | rfl | rfl | rfl <;> decide
        · exact E.1 [c] (by simpa using fun e => hc e.symm)
      rw [this, List.length_cons, List.length_cons]
      omega

/-- Line feeds are not made. -/
theorem replaceEscaped_lines : ∀ (n : Nat) (t : Str), t.length ≤ n → '\n' ∉ t → '\n' ∉ replaceEscaped t
  | 0, [], _, _ => by decide
  | n + 1, [], _, _ => by decide
  | n + 1, c :: t, hn, h => by
    simp only [List.length_cons, Nat.add_le_add_iff_right] at hn
    simp only [List.mem_cons, not_or] at h
    by_cases hp : ∃ e ∈ [(c!"&lt;", '<'), (c!"&gt;", '>'), (c!"&amp;", '&'), (c!"&quot;", '"'),
        (c!"&#39;", '\''), (c!"&apos;", '\''), (c!"&nbsp;", ' ')], e.1 <+: c :: t
    · obtain ⟨⟨e, ch⟩, he, b, hb⟩ := hp
      rw [← hb, (C04_replace_equations b).2.1 e ch he]
      have hch : ch ≠ '\n' ∧ e ≠ [] := by
        simp only [List.mem_cons, Prod.mk.injEq, List.not_mem_nil, or_false] at he
        rcases he with ⟨rfl, rfl⟩ | ⟨rfl, rfl⟩ | ⟨rfl, rfl⟩ | ⟨rfl, rfl⟩ | ⟨rfl, rfl⟩ | ⟨rfl, rfl⟩ | ⟨rfl, rfl⟩ <;> decide
      have hl : b.length ≤ n := by
        have := congrArg List.length hb
        have := List.length_pos_iff.2 hch.2
        simp only [List.length_append, List.length_cons] at *
        omega
      simp only [List.mem_cons, not_or]
      refine ⟨hch.1.symm, replaceEscaped_lines n b hl fun hm => ?_⟩
      have : '\n' ∈ c :: t := hb ▸ List.mem_append_right _ hm
      simp only [List.mem_cons] at this
      exact this.elim h.1 h.2
    · have E := C04_replace_equations t
      have : replaceEscaped (c :: t) = c :: replaceEscaped t := by
        by_cases hc : c = '&'
        · subst hc
          refine E.2.2 fun e he hq => hp ?_
          have hq := (List.cons_prefix_cons (a := '&') (b := '&')).2 ⟨rfl, hq⟩
          simp only [List.mem_cons, List.not_mem_nil, or_false] at he
          rcases he with rfl | rfl | rfl | rfl | rfl | rfl | rfl
          · exact ⟨(_, '<'), by decide, hq⟩
          · exact ⟨(_, '>'), by decide, hq⟩
          · exact ⟨(_, '&'), by decide, hq⟩
          · exact ⟨(_, '"'), by decide, hq⟩
          · exact ⟨(c!"&#39;", '\''), by decide, hq⟩
          · exact ⟨(c!"&apos;", '\''), by decide, hq⟩
          · exact ⟨(_, ' '), by decide, hq⟩
        · exact E.1 [c] (by simpa using fun e => hc e.symm)
      rw [this, List.mem_cons, not_or]
      exact ⟨h.1, replaceEscaped_lines n t hn h.2⟩

theorem textAgain_after (t : Str) : textAgain (escapeOwned (dropLineFeeds t)) = afterText t := by
  have hd : decoded (escapeOwned (dropLineFeeds t)) = visibleText t := by
    unfold decoded
    rw [addText_decodes]
    rfl
  have hv : visibleText t = t.filter fun c => c ≠ '\n' ∧ c ≠ '\r' := by simp [visibleText]
  unfold textAgain afterText
  rw [hd, hv]
  dsimp only
  split
  · rfl
  · rw [dropLineFeeds_line (replaceEscaped_lines _ _ (Nat.le_refl _) _)]
    simp

/-! ## Runs -/

/-- The child of a run that a piece becomes. -/
def pieceChild : RunPiece → RunChild
  | .text t => .text (escapeOwned (dropLineFeeds t))
  | .deletedText t => .deleteText (escapeOwned (dropLineFeeds t))
  | .tab => .tab
  | .brk k => .brk k
  | .carriageReturn => .carriageReturn

theorem runOfItem_eq (r : RunItem) : runOfItem r = ⟨r.1, r.2.map pieceChild⟩ := by
  obtain ⟨p, ps⟩ := r
  suffices h : ∀ (ps : List RunPiece) (cs : List RunChild), ps.foldl RunPiece.add ⟨p, cs⟩ = ⟨p, cs ++ ps.map pieceChild⟩ by
    exact (h ps []).trans (by simp)
  intro ps
  induction ps with
  | nil => intro cs; simp
  | cons a ps ih =>
    intro cs
    have : RunPiece.add ⟨p, cs⟩ a = ⟨p, cs ++ [pieceChild a]⟩ := by cases a <;> rfl
    rw [List.foldl_cons, this, ih]
    simp

/-- A run that is written, and read as the item. -/
structure FineRun (r : Run) (i : RunItem) : Prop where
  read : r.Readable
  strings : AllS r.strings
  walk : ∀ w, (walkRun w r).all (okIn elsewhereBody) = true
  seen : seenRun r.reread = some i

theorem allThere_cons {α : Type} {o : Option α} {os : List (Option α)} {a : α} {l : List α} (h1 : o = some a)
    (h2 : allThere os = some l) : allThere (o :: os) = some (a :: l) := by
  subst h1; simp only [allThere, h2]

theorem allThere_map' {α β γ : Type} (f : α → Option γ) (g : β → α) (k : β → γ) (l : List β) (h : ∀ b ∈ l, f (g b) = some (k b)) :
    allThere ((l.map g).map f) = some (l.map k) := by
  induction l with
  | nil => rfl
  | cons b l ih => exact allThere_cons (h b (by simp)) (ih fun b hb => h b (by simp [hb]))

theorem allThere_map {α β : Type} (f : α → Option β) (g : β → α) (l : List β) (h : ∀ b ∈ l, f (g b) = some b) :
    allThere ((l.map g).map f) = some l := by
  induction l with
  | nil => rfl
  | cons b l ih => exact allThere_cons (h b (by simp)) (ih fun b hb => h b (by simp [hb]))

theorem walkRunChildren_all (a : Place → Bool) (cs : List RunChild) (w : List Place)
    (h : ∀ c ∈ cs, (walkRunChild w c).all (okIn a) = true) : (walkRunChildren w cs).all (okIn a) = true := by
  induction cs with
  | nil => simp [walkRunChildren]
  | cons c cs ih => simp only [walkRunChildren, List.all_append, h c (by simp), ih fun c hc => h c (by simp [hc]), Bool.and_self]

theorem Spec.RunProperty.Kept.readable {p : RunProperty} (h : RunProperty.Kept p) : p.Readable :=
  ⟨fun s hs => (h.strings s hs).2.1, h.fitText⟩

/-- A piece as it is read. -/
def pieceRead : RunPiece → RunChild
  | .text t => .text t
  | .deletedText t => .deleteText t
  | .tab => .tab
  | .brk k => .brk k
  | .carriageReturn => .carriageReturn

theorem flatMap_single {α β γ : Type} (f : α → List β) (g : γ → α) (k : γ → β) (l : List γ) (h : ∀ c ∈ l, f (g c) = [k c]) :
    (l.map g).flatMap f = l.map k := by
  induction l with
  | nil => rfl
  | cons c l ih =>
    rw [List.map_cons, List.flatMap_cons, h c (by simp), ih fun c hc => h c (by simp [hc])]
    rfl

theorem fineRun {r : RunItem} (h : KeptRun r) : FineRun (runOfItem r) (afterRun r) := by
  rw [runOfItem_eq]
  obtain ⟨p, ps⟩ := r
  have hp : RunProperty.Kept p := h
  constructor
  · refine ⟨hp.readable, ?_⟩
    intro c hc
    obtain ⟨a, ha, rfl⟩ := List.mem_map.1 hc
    cases a <;> simp [pieceChild, RunChild.Readable, addText_decodes]
  · intro s hs
    simp only [Run.strings, List.mem_append, List.mem_flatMap, List.mem_map] at hs
    rcases hs with hs | ⟨c, ⟨a, ha, rfl⟩, hs⟩
    · exact hp.strings s hs
    · cases a <;> simp [pieceChild, RunChild.strings] at hs <;> subst hs <;> exact escapeOwned_stored _
  · intro w
    simp only [walkRun, List.all_cons, Bool.and_eq_true]
    refine ⟨by simp [okIn, Item.unwritable], walkRunChildren_all _ _ _ ?_⟩
    intro c hc
    obtain ⟨a, ha, rfl⟩ := List.mem_map.1 hc
    cases a <;> simp [pieceChild, walkRunChild, okIn, Item.unwritable]
  · have hr : (ps.map pieceChild).flatMap RunChild.reread = (ps.flatMap RunPiece.after).map pieceRead := by
      rw [List.flatMap_map, List.map_flatMap]
      refine List.flatMap_congr fun a _ => ?_
      cases a <;> simp [pieceChild, RunChild.reread, textAgain_after, RunPiece.after, pieceRead, Function.comp_def]
    simp only [Run.reread, seenRun, hp.reread, hr]
    rw [allThere_map _ _ _ fun a _ => by cases a <;> rfl]
    rfl

/-! ## Paragraphs -/

theorem escapeOwned_name {s : Str} (h : KeptPart.PlainName s) : escapeOwned s = s := by
  unfold escapeOwned
  rw [if_neg]
  simp only [Bool.not_eq_true, List.any_eq_false]
  intro c hc
  obtain ⟨h1, h2, h3, h4, h5, h6⟩ := h.1 c hc
  have h7 : c ≠ '>' := by rintro rfl; exact h.2.1 hc
  have h8 : c ≠ '\'' := by rintro rfl; exact h.2.2 hc
  simp [needsEscape, h1, h2, h3, h4, h6, h7, h8]

theorem escapedFrom_name {s : Str} (h : KeptPart.PlainName s) : EscapedFrom s :=
  ⟨s, ⟨fun hc => (h.1 _ hc).2.2.2.2.1 rfl, fun hc => (h.1 _ hc).2.2.2.1 rfl⟩, (escapeOwned_name h).symm⟩

/-- The child of a paragraph that a part becomes. -/
def partChild : ParagraphPart → ParagraphChild
  | .run r => .run (runOfItem r)
  | .inserted author date runs => .insert ⟨escapeOwned author, date, runs.map fun r => .run (runOfItem r)⟩
  | .deleted author date runs => .delete ⟨escapeOwned author, date, runs.map fun r => .run (runOfItem r)⟩
  | .bookmarkStart id name => .bookmarkStart id name
  | .bookmarkEnd id => .bookmarkEnd id
  | .link anchor runs => .hyperlink ⟨.anchor anchor, none, runs.map fun r => .run (runOfItem r)⟩

theorem part_add (p : Paragraph) (a : ParagraphPart) : a.add p = p.addChild (partChild a) := by
  cases a with
  | inserted author date runs =>
    have : ∀ (runs : List RunItem) (i : Insert), runs.foldl (fun i r => i.addRun (runOfItem r)) i =
        { i with children := i.children ++ runs.map fun r => .run (runOfItem r) } := by
      intro runs
      induction runs with
      | nil => intro i; cases i; simp
      | cons r rs ih => intro i; rw [List.foldl_cons, ih]; cases i; simp [Insert.addRun]
    simp only [ParagraphPart.add, this, partChild, Insert.setAuthor, Insert.setDate, List.nil_append]
  | deleted author date runs =>
    have : ∀ (runs : List RunItem) (i : Delete), runs.foldl (fun i r => i.addRun (runOfItem r)) i =
        { i with children := i.children ++ runs.map fun r => .run (runOfItem r) } := by
      intro runs
      induction runs with
      | nil => intro i; cases i; simp
      | cons r rs ih => intro i; rw [List.foldl_cons, ih]; cases i; simp [Delete.addRun]
    simp only [ParagraphPart.add, this, partChild, Delete.setAuthor, Delete.setDate, List.nil_append]
  | link anchor runs =>
    have : ∀ (runs : List RunItem) (h : Hyperlink), runs.foldl (fun h r => h.addChild (.run (runOfItem r))) h =
        { h with children := h.children ++ runs.map fun r => .run (runOfItem r) } := by
      intro runs
      induction runs with
      | nil => intro i; cases i; simp
      | cons r rs ih => intro i; rw [List.foldl_cons, ih]; cases i; simp [Hyperlink.addChild]
    simp only [ParagraphPart.add, this, partChild, Hyperlink.new, List.nil_append]
  | _ => rfl

theorem paragraphOf_eq (id : Str) (property : ParagraphProperty) (parts : List ParagraphPart) :
    paragraphOf id property parts = ⟨id, parts.map partChild, property, false⟩ := by
  suffices h : ∀ (ps : List ParagraphPart) (cs : List ParagraphChild), ps.foldl ParagraphPart.add ⟨id, cs, property, false⟩ =
      ⟨id, cs ++ ps.map partChild, property, false⟩ from (h parts []).trans (by simp)
  intro ps
  induction ps with
  | nil => intro cs; simp
  | cons a ps ih => intro cs; rw [List.foldl_cons, part_add, Paragraph.addChild, ih]; simp

/-- A child of a paragraph that is written, and read as the part. -/
structure FinePart (c : ParagraphChild) (i : ParagraphPart) : Prop where
  read : c.Readable
  strings : AllS c.strings
  walk : ∀ w, (walkParagraphChild w c).all (okIn elsewhereBody) = true
  seen : ∃ c', c.reread = [c'] ∧ seenPart c' = some i

theorem finePart {a : ParagraphPart} (h : KeptPart a) : FinePart (partChild a) a.after := by
  cases a with
  | run r =>
    have hr := fineRun h
    exact ⟨hr.read, by simpa only [partChild, ParagraphChild.strings] using hr.strings,
      fun w => by simpa only [partChild, walkParagraphChild] using hr.walk w, _, rfl, by
        rw [seenPart, hr.seen]; rfl⟩
  | inserted author date runs =>
    obtain ⟨h1, h2, h3⟩ := h
    have hr := fun r hr => fineRun (h3 r hr)
    refine ⟨⟨(escapeOwned_stored _).2.1, (stored_of_plain h2).2.1, ?_⟩, ?_, ?_, _, rfl, ?_⟩
    · intro c hc
      obtain ⟨r, hm, rfl⟩ := List.mem_map.1 hc
      exact (hr r hm).read
    · intro s hs
      simp only [partChild, ParagraphChild.strings, Insert.strings, List.mem_cons, List.mem_flatMap, List.mem_map] at hs
      rcases hs with rfl | rfl | ⟨c, ⟨r, hm, rfl⟩, hs⟩
      · exact escapeOwned_stored _
      · exact stored_of_plain h2
      · exact (hr r hm).strings s hs
    · intro w
      have : ∀ (l : List RunItem) (w : List Place), (∀ r ∈ l, KeptRun r) →
          (walkInsertChildren w (l.map fun r => .run (runOfItem r))).all (okIn elsewhereBody) = true := by
        intro l w hl
        induction l with
        | nil => simp [walkInsertChildren]
        | cons r l ih =>
          simp only [List.map_cons, walkInsertChildren, walkInsertChild, List.all_append, (fineRun (hl r (by simp))).walk w,
            ih fun r hr => hl r (by simp [hr]), Bool.and_self]
      simpa only [partChild, walkParagraphChild, walkInsert] using this runs _ h3
    · have : ((runs.map fun r => InsertChild.run (runOfItem r)).flatMap InsertChild.reread) =
          runs.map fun r => .run (runOfItem r).reread := flatMap_single _ _ _ _ fun _ _ => rfl
      simp only [Insert.reread, this, escapeOwned_name h1, (escapedFrom_name h1).again, h2.seen, seenPart]
      exact (congrArg _ (allThere_map' _ (fun r => InsertChild.run (runOfItem r).reread) afterRun _ fun r hm => (hr r hm).seen)).trans rfl
  | deleted author date runs =>
    obtain ⟨h1, h2, h3⟩ := h
    have hr := fun r hr => fineRun (h3 r hr)
    refine ⟨⟨(escapeOwned_stored _).2.1, (stored_of_plain h2).2.1, ?_⟩, ?_, ?_, _, rfl, ?_⟩
    · intro c hc
      obtain ⟨r, hm, rfl⟩ := List.mem_map.1 hc
      exact (hr r hm).read
    · intro s hs
      simp only [partChild, ParagraphChild.strings, Delete.strings, List.mem_cons, List.mem_flatMap, List.mem_map] at hs
      rcases hs with rfl | rfl | ⟨c, ⟨r, hm, rfl⟩, hs⟩
      · exact escapeOwned_stored _
      · exact stored_of_plain h2
      · exact (hr r hm).strings s hs
    · intro w
      have : ∀ (l : List RunItem) (w : List Place), (∀ r ∈ l, KeptRun r) →
          (walkDeleteChildren w (l.map fun r => .run (runOfItem r))).all (okIn elsewhereBody) = true := by
        intro l w hl
        induction l with
        | nil => simp [walkDeleteChildren]
        | cons r l ih =>
          simp only [List.map_cons, walkDeleteChildren, walkDeleteChild, List.all_append, (fineRun (hl r (by simp))).walk w,
            ih fun r hr => hl r (by simp [hr]), Bool.and_self]
      simpa only [partChild, walkParagraphChild, walkDelete] using this runs _ h3
    · have : ((runs.map fun r => DeleteChild.run (runOfItem r)).flatMap DeleteChild.reread) =
          runs.map fun r => .run (runOfItem r).reread := flatMap_single _ _ _ _ fun _ _ => rfl
      simp only [Delete.reread, this, escapeOwned_name h1, (escapedFrom_name h1).again, h2.seen, seenPart]
      exact (congrArg _ (allThere_map' _ (fun r => DeleteChild.run (runOfItem r).reread) afterRun _ fun r hm => (hr r hm).seen)).trans rfl
  | link anchor runs =>
    obtain ⟨h2, h3⟩ := h
    have hr := fun r hr => fineRun (h3 r hr)
    refine ⟨⟨(stored_of_plain h2).2.1, by simp [Fits], ?_⟩, ?_, ?_, _, rfl, ?_⟩
    · intro c hc
      obtain ⟨r, hm, rfl⟩ := List.mem_map.1 hc
      exact (hr r hm).read
    · have : ∀ (l : List RunItem), (∀ r ∈ l, KeptRun r) →
          AllS (stringsParagraphChildren (l.map fun r => .run (runOfItem r))) := by
        intro l hl
        induction l with
        | nil => simp [stringsParagraphChildren, AllS]
        | cons r l ih =>
          intro s hs
          simp only [List.map_cons, stringsParagraphChildren, ParagraphChild.strings, List.mem_append] at hs
          rcases hs with hs | hs
          · exact (fineRun (hl r (by simp))).strings s hs
          · exact ih (fun r hr => hl r (by simp [hr])) s hs
      intro s hs
      simp only [partChild, ParagraphChild.strings, Hyperlink.strings, HyperlinkData.strings, List.mem_append, List.mem_singleton] at hs
      rcases hs with rfl | hs
      · exact stored_of_plain h2
      · exact this runs h3 s hs
    · intro w
      have : ∀ (l : List RunItem) (w : List Place), (∀ r ∈ l, KeptRun r) →
          (walkParagraphChildren w (l.map fun r => .run (runOfItem r))).all (okIn elsewhereBody) = true := by
        intro l w hl
        induction l with
        | nil => simp [walkParagraphChildren]
        | cons r l ih =>
          simp only [List.map_cons, walkParagraphChildren, walkParagraphChild, List.all_append, (fineRun (hl r (by simp))).walk w,
            ih fun r hr => hl r (by simp [hr]), Bool.and_self]
      simp only [partChild, walkParagraphChild, walkHyperlink, List.all_cons, this runs _ h3, Bool.and_true]
      simp [okIn, Item.unwritable]
    · have : ((runs.map fun r => ParagraphChild.run (runOfItem r)).flatMap ParagraphChild.rereadInner) =
          runs.map fun r => .run (runOfItem r).reread := flatMap_single _ _ _ _ fun _ _ => rfl
      simp only [this, HyperlinkData.reread, h2.seen, seenPart]
      exact (congrArg _ (allThere_map' _ (fun r => ParagraphChild.run (runOfItem r).reread) afterRun _ fun r hm => (hr r hm).seen)).trans rfl
  | bookmarkStart id name =>
    obtain ⟨h1, h2⟩ := h
    refine ⟨⟨h1, (stored_of_plain h2).2.1⟩, ?_, ?_, _, rfl, ?_⟩
    · intro s hs
      simp only [partChild, ParagraphChild.strings, List.mem_singleton] at hs
      subst hs
      exact stored_of_plain h2
    · intro w; simp [partChild, walkParagraphChild]
    · simp [seenPart, h2.seen, ParagraphPart.after]
  | bookmarkEnd id =>
    refine ⟨h, ?_, ?_, _, rfl, ?_⟩
    · intro s hs
      simp [partChild, ParagraphChild.strings] at hs
    · intro w; simp [partChild, walkParagraphChild]
    · rfl

/-- A paragraph that is written, and read as the item. -/
structure FineParagraph (p : Paragraph) (i : BodyItem) : Prop where
  read : p.Readable
  strings : AllS p.strings
  walk : ∀ w, (walkParagraph w p).all (okIn elsewhereBody) = true
  seen : seenParagraph p.reread = some i

theorem fineParagraph {id : Str} {property : ParagraphProperty} {parts : List ParagraphPart} (h : KeptItem (.paragraph id property parts)) :
    FineParagraph (paragraphOf id property parts) (.paragraph id property (parts.map ParagraphPart.after)) := by
  rw [KeptItem] at h
  obtain ⟨h1, h2, h3⟩ := h
  obtain ⟨k1, k2, k3⟩ := kept_reread property h2
  have hp := fun a ha => finePart (h3 a ha)
  rw [paragraphOf_eq]
  refine ⟨⟨(stored_of_plain h1).2.1, k2, ?_⟩, ?_, ?_, ?_⟩
  · intro c hc
    obtain ⟨a, hm, rfl⟩ := List.mem_map.1 hc
    exact (hp a hm).read
  · have : ∀ (l : List ParagraphPart), (∀ a ∈ l, KeptPart a) → AllS (stringsParagraphChildren (l.map partChild)) := by
      intro l hl
      induction l with
      | nil => simp [stringsParagraphChildren, AllS]
      | cons r l ih =>
        intro s hs
        simp only [List.map_cons, stringsParagraphChildren, List.mem_append] at hs
        rcases hs with hs | hs
        · exact (finePart (hl r (by simp))).strings s hs
        · exact ih (fun r hr => hl r (by simp [hr])) s hs
    intro s hs
    simp only [Paragraph.strings, List.mem_cons, List.mem_append] at hs
    rcases hs with rfl | hs | hs
    · exact stored_of_plain h1
    · exact k3 s hs
    · exact this parts h3 s hs
  · intro w
    have : ∀ (l : List ParagraphPart) (w : List Place), (∀ r ∈ l, KeptPart r) →
        (walkParagraphChildren w (l.map partChild)).all (okIn elsewhereBody) = true := by
      intro l w hl
      induction l with
      | nil => simp [walkParagraphChildren]
      | cons r l ih =>
        simp only [List.map_cons, walkParagraphChildren, List.all_append, (finePart (hl r (by simp))).walk w,
          ih fun r hr => hl r (by simp [hr]), Bool.and_self]
    simp only [walkParagraph, List.all_cons, this parts _ h3, Bool.and_true]
    simp [okIn, Item.unwritable]
  · have : ∀ (l : List ParagraphPart), (∀ r ∈ l, KeptPart r) →
        allThere (((l.map partChild).flatMap ParagraphChild.reread).map seenPart) = some (l.map ParagraphPart.after) := by
      intro l hl
      induction l with
      | nil => rfl
      | cons r l ih =>
        obtain ⟨c', e1, e2⟩ := (finePart (hl r (by simp))).seen
        rw [List.map_cons, List.flatMap_cons, e1]
        exact allThere_cons e2 (ih fun r hr => hl r (by simp [hr]))
    simp only [Paragraph.reread, seenParagraph, k1, h1.seen, this parts h3]
    rfl

/-! ## Tables -/

/-- What an item becomes in a cell. -/
def itemContent : BodyItem → CellContent
  | .paragraph id property parts => .paragraph (paragraphOf id property parts)
  | .table rows => .table (Table.new (rowsOf rows))

theorem addItems_eq : ∀ (is : List BodyItem) (c : Cell), ∃ b, addItems c is = ⟨c.children ++ is.map itemContent, c.property, b⟩
  | [], c => ⟨c.hasNumbering, by cases c; simp [addItems]⟩
  | i :: is, c => by
    obtain ⟨b, e⟩ := addItems_eq is (i.addTo c)
    refine ⟨b, ?_⟩
    rw [addItems, e]
    cases i <;> simp [BodyItem.addTo, itemContent, Cell.addParagraph, Cell.addTable]

theorem tableProperty_default_strings : AllS (TableProperty.strings {}) := by
  have : ∀ s ∈ TableProperty.strings {}, plainB s = true := by decide +kernel
  exact fun s hs => stored_of_plain (plain_lit (this s hs))

theorem tableProperty_default_readable : TableProperty.Readable {} := by
  refine ⟨fun s hs => (tableProperty_default_strings s hs).2.1, ⟨?_, ?_, ?_, ?_, ?_, ?_, fun s hs => ?_⟩, ?_, ?_⟩
  any_goals (rintro _ ⟨⟩; rfl)
  · exact (tableProperty_default_strings s (by simp only [TableProperty.strings, List.mem_cons, List.mem_append, hs, true_or, or_true])).2.1
  · rintro _ ⟨⟩
  · rintro _ ⟨⟩

theorem cellProperty_default_readable : TableCellProperty.Readable {} := by
  refine ⟨fun s hs => ?_, ?_, ?_, ?_⟩
  · simp [TableCellProperty.strings, optStrings, optS] at hs
  all_goals rintro _ ⟨⟩

theorem not_onlyTable {c : List BodyItem} (h : ∀ rows, c ≠ [.table rows]) : ¬ onlyTable (c.map itemContent) := by
  intro ho
  match c, h, ho with
  | [.table rows], h, _ => exact h rows rfl
  | [.paragraph _ _ _], _, ho => exact ho
  | [], _, ho => exact ho
  | _ :: _ :: _, _, ho => simp [onlyTable] at ho

mutual
theorem fineContents (x : ReadEnv) : (is : List BodyItem) → KeptItems is →
    readableContents (is.map itemContent) ∧ AllS (stringsCellContents (is.map itemContent)) ∧
    (∀ w, (walkCellContents w (is.map itemContent)).all (okIn elsewhereBody) = true) ∧
    seenContents (rereadContents x (is.map itemContent)) = some (afterItems is)
  | [], _ => by simp [readableContents, stringsCellContents, AllS, walkCellContents, rereadContents, seenContents, afterItems]
  | .paragraph id property parts :: is, h => by
    rw [KeptItems] at h
    obtain ⟨a, b, c, d⟩ := fineContents x is h.2
    have hp := fineParagraph h.1
    simp only [List.map_cons, itemContent, readableContents, stringsCellContents, walkCellContents, rereadContents,
      CellContent.Readable, CellContent.strings, walkCellContent, CellContent.reread, List.singleton_append, seenContents, d, hp.seen, afterItems]
    refine ⟨⟨hp.read, a⟩, ?_, fun w => by rw [List.all_append, hp.walk, c]; rfl, trivial⟩
    intro s hs
    rcases List.mem_append.1 hs with hs | hs
    · exact hp.strings s hs
    · exact b s hs
  | .table rows :: is, h => by
    rw [KeptItems, KeptItem] at h
    obtain ⟨a, b, c, d⟩ := fineContents x is h.2
    obtain ⟨e1, e2, e3, e4⟩ := fineRows x rows h.1
    simp only [List.map_cons, itemContent, readableContents, stringsCellContents, walkCellContents, rereadContents, Table.new,
      CellContent.Readable, CellContent.strings, walkCellContent, CellContent.reread, List.singleton_append, seenContents, d,
      Table.reread, e4, Table.Readable, Table.strings, walkTable, afterItems]
    refine ⟨⟨⟨tableProperty_default_readable, e1⟩, a⟩, ?_, fun w => ?_, trivial⟩
    · intro s hs
      rcases List.mem_append.1 hs with hs | hs
      · rcases List.mem_append.1 hs with hs | hs
        · exact tableProperty_default_strings s hs
        · exact e2 s hs
      · exact b s hs
    · rw [List.all_append, List.all_cons, e3, c]
      simp [okIn, Item.unwritable]
theorem fineRows (x : ReadEnv) : (rs : List (List (List BodyItem))) → KeptRows rs →
    readableRows (rowsOf rs) ∧ AllS (stringsRows (rowsOf rs)) ∧
    (∀ w, (walkRows w (rowsOf rs)).all (okIn elsewhereBody) = true) ∧
    seenRows (rereadRows x (rowsOf rs)) = some (afterRows rs)
  | [], _ => by simp [readableRows, stringsRows, AllS, walkRows, rereadRows, seenRows, rowsOf, afterRows]
  | r :: rs, h => by
    rw [KeptRows] at h
    obtain ⟨a, b, c, d⟩ := fineRows x rs h.2
    obtain ⟨e1, e2, e3, e4⟩ := fineCells x r h.1
    simp only [rowsOf, Row.new, readableRows, stringsRows, walkRows, rereadRows, Row.Readable, Row.strings, walkRow, Row.reread,
      seenRows, d, e4, afterRows]
    refine ⟨⟨⟨?_, e1⟩, a⟩, ?_, fun w => ?_, trivial⟩
    · intro s hs; simp [TableRowProperty.strings, optStrings, optS] at hs
    · intro s hs
      rcases List.mem_append.1 hs with hs | hs
      · rcases List.mem_append.1 hs with hs | hs
        · simp [TableRowProperty.strings, optStrings, optS] at hs
        · exact e2 s hs
      · exact b s hs
    · rw [List.all_append, e3, c]; rfl
theorem fineCells (x : ReadEnv) : (cs : List (List BodyItem)) → KeptCells cs →
    readableCells (cellsOf cs) ∧ AllS (stringsCells (cellsOf cs)) ∧
    (∀ w, (walkCells w (cellsOf cs)).all (okIn elsewhereBody) = true) ∧
    seenCells (rereadCells x (cellsOf cs)) = some (afterCells cs)
  | [], _ => by simp [readableCells, stringsCells, AllS, walkCells, rereadCells, seenCells, cellsOf, afterCells]
  | c :: cs, h => by
    rw [KeptCells] at h
    obtain ⟨⟨h1, h2⟩, h3, h4⟩ := h
    obtain ⟨a, b, c1, d⟩ := fineCells x cs h4
    obtain ⟨e1, e2, e3, e4⟩ := fineContents x c h3
    obtain ⟨n, en⟩ := addItems_eq c {}
    rw [cellsOf, en]
    simp only [List.nil_append, readableCells, stringsCells, walkCells, rereadCells, Cell.Readable, Cell.strings, walkCell, Cell.reread,
      seenCells, d, e4, afterCells]
    refine ⟨⟨⟨?_, ?_, cellProperty_default_readable, e1⟩, a⟩, ?_, fun w => ?_, trivial⟩
    · simpa using h1
    · exact not_onlyTable h2
    · intro s hs
      rcases List.mem_append.1 hs with hs | hs
      · rcases List.mem_append.1 hs with hs | hs
        · simp [TableCellProperty.strings, optStrings, optS] at hs
        · exact e2 s hs
      · exact b s hs
    · rw [List.all_append, List.all_cons, e3, c1]
      simp [okIn, Item.unwritable]
end

/-! ## Documents -/

/-- What an item becomes in a document. -/
def itemChild : BodyItem → DocumentChild
  | .paragraph id property parts => .paragraph (paragraphOf id property parts)
  | .table rows => .table (Table.new (rowsOf rows))

theorem bodyOf_children (items : List BodyItem) :
    (bodyOf items).children = items.map itemChild ∧ (bodyOf items).sectionProperty = {} := by
  suffices h : ∀ (is : List BodyItem) (d : Document), d.sectionProperty = {} → (is.foldl (fun d i => match i with
      | .paragraph id property parts => d.addParagraph (paragraphOf id property parts)
      | .table rows => d.addTable (Table.new (rowsOf rows))) d).children = d.children ++ is.map itemChild ∧
      (is.foldl (fun d i => match i with
      | .paragraph id property parts => d.addParagraph (paragraphOf id property parts)
      | .table rows => d.addTable (Table.new (rowsOf rows))) d).sectionProperty = {} from by
    have := h items {} rfl
    exact ⟨this.1.trans (by simp), this.2⟩
  intro is
  induction is with
  | nil => intro d hd; exact ⟨by simp, hd⟩
  | cons i is ih =>
    intro d hd
    cases i with
    | paragraph id property parts =>
      obtain ⟨a, b⟩ := ih (d.addParagraph (paragraphOf id property parts)) hd
      exact ⟨a.trans (by simp [Document.addParagraph, itemChild]), b⟩
    | table rows =>
      obtain ⟨a, b⟩ := ih (d.addTable (Table.new (rowsOf rows))) hd
      exact ⟨a.trans (by simp [Document.addTable, itemChild]), b⟩

/-- A child of a document that is written, and read as the item. -/
structure FineChild (x : ReadEnv) (c : DocumentChild) (i : BodyItem) : Prop where
  read : c.Readable
  strings : AllS c.strings
  walk : ∀ w, (walkDocumentChild w c).all (okIn elsewhereBody) = true
  seen : ∃ c', c.reread x = [c'] ∧ seenChild c' = some i

/-- What becomes of one item. -/
def afterItem : BodyItem → BodyItem
  | .paragraph id property parts => .paragraph id property (parts.map ParagraphPart.after)
  | .table rows => .table (afterRows rows)

theorem afterItems_eq : ∀ is : List BodyItem, afterItems is = is.map afterItem
  | [] => by simp [afterItems]
  | .paragraph _ _ _ :: is => by rw [afterItems, afterItems_eq is]; rfl
  | .table _ :: is => by rw [afterItems, afterItems_eq is]; rfl

theorem fineChild (x : ReadEnv) : {i : BodyItem} → KeptItem i → FineChild x (itemChild i) (afterItem i)
  | .paragraph id property parts, h => by
    have hp := fineParagraph h
    exact ⟨hp.read, hp.strings, hp.walk, _, rfl, hp.seen⟩
  | .table rows, h => by
    rw [KeptItem] at h
    obtain ⟨e1, e2, e3, e4⟩ := fineRows x rows h
    refine ⟨?_, ?_, ?_, _, rfl, ?_⟩
    · show Table.Readable _
      rw [Table.new, Table.Readable]
      exact ⟨tableProperty_default_readable, e1⟩
    · intro s hs
      simp only [itemChild, DocumentChild.strings, Table.new, Table.strings, List.mem_append] at hs
      rcases hs with hs | hs
      · exact tableProperty_default_strings s hs
      · exact e2 s hs
    · intro w
      simp only [itemChild, walkDocumentChild, Table.new, walkTable, List.all_cons, e3, Bool.and_true]
      simp [okIn, Item.unwritable]
    · simp only [Table.new, Table.reread, seenChild, e4]
      rfl

theorem keptItems_mem : ∀ {is : List BodyItem}, KeptItems is → ∀ i ∈ is, KeptItem i
  | [], _, _, hi => by cases hi
  | _ :: _, h, i, hi => by
    rw [KeptItems] at h
    rcases List.mem_cons.1 hi with rfl | hi
    · exact h.1
    · exact keptItems_mem h.2 i hi

/-- A document that is written, and read as the items. -/
structure FineDocument (x : ReadEnv) (d : Document) (items : List BodyItem) : Prop where
  read : d.Readable
  strings : AllS d.strings
  walk : (walkDocument d).all (okIn elsewhereBody) = true
  seen : seenItems (d.reread x) = some items

theorem fineDocument_of (x : ReadEnv) (items seen : List BodyItem)
    (h : List.Forall₂ (fun i j => FineChild x (itemChild i) j) items seen) : FineDocument x (bodyOf items) seen := by
  obtain ⟨e1, e2⟩ := bodyOf_children items
  have hm : ∀ c ∈ items.map itemChild, ∃ j, FineChild x c j := by
    intro c hc
    obtain ⟨i, hi, rfl⟩ := List.mem_map.1 hc
    induction h with
    | nil => cases hi
    | cons h1 _ ih =>
      rcases List.mem_cons.1 hi with rfl | hi
      · exact ⟨_, h1⟩
      · exact ih (bodyOf_children _).1 (bodyOf_children _).2 hi (List.mem_map_of_mem hi)
  refine ⟨⟨?_, ?_⟩, ?_, ?_, ?_⟩
  · rw [e1]
    intro c hc
    obtain ⟨j, hj⟩ := hm c hc
    exact hj.read
  · rw [e2]
    exact section_default_kept.readable
  · intro s hs
    simp only [Document.strings, e1, e2, List.mem_append, List.mem_flatMap] at hs
    rcases hs with ⟨c, hc, hs⟩ | hs
    · obtain ⟨j, hj⟩ := hm c hc
      exact hj.strings s hs
    · exact section_default_kept.strings s hs
  · simp only [walkDocument, e1, e2, List.all_append, Bool.and_eq_true]
    refine ⟨?_, by rfl⟩
    rw [List.all_eq_true]
    intro y hy
    obtain ⟨c, hc, hy⟩ := List.mem_flatMap.1 hy
    obtain ⟨j, hj⟩ := hm c hc
    exact List.all_eq_true.1 (hj.walk _) y hy
  · simp only [seenItems, Document.reread, e1]
    clear e1 e2 hm
    induction h with
    | nil => rfl
    | cons h1 _ ih =>
      obtain ⟨c', a, b⟩ := h1.seen
      rw [List.map_cons, List.flatMap_cons, a]
      exact allThere_cons b ih

theorem fineDocument (x : ReadEnv) {items : List BodyItem} (h : KeptItems items) :
    FineDocument x (bodyOf items) (afterItems items) := by
  refine fineDocument_of x items _ ?_
  rw [afterItems_eq, List.forall₂_map_right_iff]
  exact List.forall₂_same.2 fun i hi => fineChild x (keptItems_mem h i hi)

end Docx
