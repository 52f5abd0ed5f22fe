import Verif.Lemmas.ReadSections
import Verif.Spec.TocSpread

/-!
# Reading back tables of contents
-/

namespace Docx

open Docx.Xml Docx.Spec

variable {x : ReadEnv} {σ : Type}

theorem zero_stored : Stored c!"0" := by decide

theorem thenN_emit_nil (a : N) : a.thenN (emitN []) = a := by
  funext g
  simp only [N.thenN, emitN]
  cases a g with
  | none => rfl
  | some r => simp

theorem emit_nil_thenN (a : N) : (emitN []).thenN a = a := by
  funext g
  simp only [N.thenN, emitN]
  cases a g with
  | none => rfl
  | some r => rfl

/-- The paragraphs and tables of a table of contents, read back. -/
def Block.reread (x : ReadEnv) : Block → Block
  | .paragraph p => .paragraph p.reread
  | .table t => .table (t.reread x)

/-- They can be read back. -/
def Block.Readable : Block → Prop
  | .paragraph p => p.Readable
  | .table t => t.Readable

/-- A loop that takes in paragraphs and tables. -/
structure TakesBlocks (x : ReadEnv) (L : Readers → Loop σ) (push : σ → List Block → σ) : Prop where
  nil : ∀ s, push s [] = s
  app : ∀ s a b, push (push s a) b = push s (a ++ b)
  block : ∀ b : Block, b.Readable → TakesN x L b.nodes (fun s => push s [b.reread x])

theorem blocks_body : TakesBlocks x (documentLoop x) (fun d bs => d.addAll (bs.map Block.inBody)) where
  nil := Document.addAll_nil
  app := fun s a b => by simp [Document.addAll, Bool.or_assoc]
  block := fun b h => by
    cases b with
    | paragraph p => exact takes_documentChild (.paragraph p) h
    | table t => exact takes_documentChild (.table t) h

theorem blocks_control : TakesBlocks x (sdtLoop x) (fun s bs => s.addAll (bs.map Block.inControl)) where
  nil := Sdt.addAll_nil
  app := fun s a b => by simp [Sdt.addAll]
  block := fun b h => by
    cases b with
    | paragraph p => exact sdt_paragraph h
    | table t =>
      have := takes_sdtChild (x := x) (.table t) (by rw [SdtChild.Readable]; exact h)
      rw [SdtChild.nodes, SdtChild.reread] at this
      exact this

section
variable {L : Readers → Loop σ} {push : σ → List Block → σ} (H : TakesBlocks x L push)
include H

theorem TakesBlocks.all : ∀ (bs : List Block) (_ : ∀ b ∈ bs, b.Readable), TakesN x L (nodesBlocks bs) (fun s => push s (bs.map (Block.reread x)))
  | [], _ => TakesN.nil.congr fun s => (H.nil s).symm
  | b :: bs, h => by
    rw [nodesBlocks]
    refine ((H.block b (h b (.head _))).then (TakesBlocks.all bs fun b hb => h b (.tail _ hb))).congr fun s => ?_
    simp [H.app]

/-- A paragraph that gets its id when it is written. -/
theorem TakesBlocks.fresh {q : ParagraphProperty} {cs : List ParagraphChild} {c : N} (hc : c = nodesParagraphChildren cs)
    (h : ∀ id, Stored id → Paragraph.Readable ⟨id, cs, q, false⟩) {g g' : Gen} {f : List Node} (e : newParagraphN q c g = some (f, g')) :
    ∃ id, Stored id ∧ ∀ s, TakesF x L s f (push s [.paragraph (Paragraph.reread ⟨id, cs, q, false⟩)]) := by
  subst hc
  have hs := paraId_stored g.para
  refine ⟨(generateParaId g.para).1, hs, fun s => ?_⟩
  have := H.block (.paragraph ⟨(generateParaId g.para).1, cs, q, false⟩) (h _ hs)
  rw [Block.nodes, Paragraph.nodes] at this
  exact this _ _ _ e s

end

theorem nodes_one (c : ParagraphChild) : nodesParagraphChildren [c] = c.nodes := by
  rw [nodesParagraphChildren, nodesParagraphChildren, thenN_emit_nil]

theorem entryRuns_nodes (t : TocItem) : nodesParagraphChildren (tocEntryRuns t) =
    catN [Run.nodes { children := [.text (textOf t.text)] }, Run.nodes { children := [.tab] }, (pageRefRun t).nodes] := by
  simp only [tocEntryRuns, nodesParagraphChildren, ParagraphChild.nodes]
  rfl

theorem nodes_append : ∀ a b : List ParagraphChild, nodesParagraphChildren (a ++ b) = (nodesParagraphChildren a).thenN (nodesParagraphChildren b)
  | [], b => by
    rw [nodesParagraphChildren]
    funext g
    simp only [List.nil_append, N.thenN, emitN]
    cases nodesParagraphChildren b g <;> rfl
  | c :: a, b => by
    rw [List.cons_append, nodesParagraphChildren, nodesParagraphChildren, nodes_append a b]
    funext g
    simp only [N.thenN]
    cases c.nodes g with
    | none => rfl
    | some r =>
      simp only
      cases nodesParagraphChildren a r.2 with
      | none => rfl
      | some r' =>
        simp only
        cases nodesParagraphChildren b r'.2 with
        | none => rfl
        | some r'' => simp

theorem entry_nodes (id : Str) (first : Bool) (t : TocItem) :
    catN [ifN first (Run.nodes { children := [.fieldChar .begin t.dirty, .instrText (.toc t.instr), .fieldChar .separate false] }),
      tocItemRunsN t] = nodesParagraphChildren (entryParagraph id first t).children := by
  have h1 : (tocItemRunsN t) =
      nodesParagraphChildren (if t.instr.hyperlink then [.hyperlink { link := .anchor t.tocKey, children := tocEntryRuns t }] else tocEntryRuns t) := by
    unfold tocItemRunsN
    by_cases h : t.instr.hyperlink
    · rw [if_pos h, if_pos h, nodes_one, ParagraphChild.nodes, Hyperlink.nodes, entryRuns_nodes]
    · rw [if_neg h, if_neg h, entryRuns_nodes]
  have h2 : ifN first (Run.nodes { children := [.fieldChar .begin t.dirty, .instrText (.toc t.instr), .fieldChar .separate false] }) =
      nodesParagraphChildren (if first then [.run (tocFieldRun t.dirty t.instr)] else []) := by
    cases first with
    | true => simp only [ifN, if_true, nodes_one, ParagraphChild.nodes, tocFieldRun]
    | false => simp only [ifN, Bool.false_eq_true, if_false, nodesParagraphChildren]
  rw [entryParagraph, nodes_append, ← h1, ← h2, catN, catN, catN, thenN_emit_nil]

theorem start_nodes (id : Str) (t : Toc) : tocStartChildrenN t.instr t.delete = nodesParagraphChildren (tocStart id t).children := by
  unfold tocStartChildrenN tocStart
  cases t.delete with
  | none => rw [nodes_one, ParagraphChild.nodes]; rfl
  | some m => rw [nodes_one, ParagraphChild.nodes]

section
variable {L : Readers → Loop σ} {push : σ → List Block → σ} (H : TakesBlocks x L push)
include H

/-- The paragraphs of the entries. -/
theorem TakesBlocks.entries : ∀ (ts : List TocItem) (first : Bool)
    (_ : ∀ ids : Nat → Str, (∀ n, Stored (ids n)) → ∀ p ∈ entryParagraphs ids first ts, p.Readable) {g g' : Gen} {f : List Node}
    (_ : tocItemsN first ts g = some (f, g')), ∃ ids : Nat → Str, (∀ n, Stored (ids n)) ∧
      ∀ s, TakesF x L s f (push s ((entryParagraphs ids first ts).map fun p => .paragraph p.reread))
  | [], _, _, g, g', f, e => by
    simp only [tocItemsN, emitN, Option.some.injEq, Prod.mk.injEq] at e
    obtain ⟨rfl, rfl⟩ := e
    refine ⟨fun _ => c!"0", fun _ => zero_stored, fun s => ?_⟩
    show TakesF x L s [] (push s [])
    rw [H.nil]
    exact .nil _
  | [t], first, h, g, g', f, e => by
    rw [tocItemsN, catN, catN, catN, thenN_emit_nil] at e
    obtain ⟨f1, g1, f2, e1, e2, rfl⟩ := thenN_eq e
    obtain ⟨i, hi, k1⟩ := H.fresh (entry_nodes [] first t) (fun id hid => h (fun _ => id) (fun _ => hid) (entryParagraph id first t) (.head _)) e1
    obtain ⟨j, hj, k2⟩ := H.fresh (q := styleProperty (c!"ToC" ++ dec t.level)) (cs := [.run fieldEndRun]) (by rw [nodes_one, ParagraphChild.nodes]; rfl)
      (fun id hid => h (fun _ => id) (fun _ => hid) (closingParagraph id t) (.tail _ (.head _))) e2
    refine ⟨fun n => if n = 0 then i else j, fun n => ?_, fun s => ?_⟩
    · dsimp only
      split
      · exact hi
      · exact hj
    · have := (k1 s).append (k2 _)
      rw [H.app] at this
      exact this
  | t :: u :: ts, first, h, g, g', f, e => by
    rw [tocItemsN, catN, catN, catN, thenN_emit_nil] at e
    · obtain ⟨f1, g1, f2, e1, e2, rfl⟩ := thenN_eq e
      obtain ⟨i, hi, k1⟩ := H.fresh (entry_nodes [] first t) (fun id hid => h (fun _ => id) (fun _ => hid) (entryParagraph id first t) (.head _)) e1
      obtain ⟨ids, hids, k2⟩ := TakesBlocks.entries (u :: ts) false (fun ids hids p hp =>
        h (fun n => match n with | 0 => c!"0" | n + 1 => ids n) (fun n => by cases n with | zero => exact zero_stored | succ n => exact hids n) p (.tail _ hp)) e2
      refine ⟨fun n => match n with | 0 => i | n + 1 => ids n, fun n => ?_, fun s => ?_⟩
      · cases n with
        | zero => exact hi
        | succ n => exact hids n
      · have := (k1 s).append (k2 _)
        rw [H.app] at this
        exact this
    · intro ht
      cases ht

/-- What comes later is written as it is. -/
theorem TakesBlocks.later : ∀ (bs : List Block) (_ : ∀ b ∈ bs, b.Readable),
    TakesN x L (nodesAfter .later bs) (fun s => push s (bs.map (Block.reread x)))
  | [], _ => by
    rw [nodesAfter]
    exact TakesN.nil.congr fun s => (H.nil s).symm
  | b :: bs, h => by
    have e : b.nodesAfter .later = b.nodes := by
      cases b with
      | paragraph p => obtain ⟨i, cs, q, n⟩ := p; rw [Block.nodesAfter, Block.nodes, Paragraph.nodes, catN, catN, catN, thenN_emit_nil, emit_nil_thenN]; intro h; cases h
      | table t => rw [Block.nodesAfter, Block.nodes, catN, catN, catN, thenN_emit_nil, emit_nil_thenN]
    rw [nodesAfter, e]
    refine ((H.block b (h b (.head _))).then (TakesBlocks.later bs fun b hb => h b (.tail _ hb))).congr fun s => ?_
    simp [H.app]

theorem TakesBlocks.emptyLine {g g' : Gen} {f : List Node} (h : ∀ id, Stored id → (emptyLine id).Readable) (e : emptyLineN g = some (f, g')) :
    ∃ id, Stored id ∧ ∀ s, TakesF x L s f (push s [.paragraph (Spec.emptyLine id).reread]) :=
  H.fresh (by rw [nodes_one, ParagraphChild.nodes]) h e

/-- What is behind the entries. -/
theorem TakesBlocks.behind (bs : List Block) (h : ∀ id, Stored id → ∀ b ∈ tocBehind id bs, b.Readable) {g g' : Gen} {f : List Node}
    (e : nodesAfter .first bs g = some (f, g')) :
    ∃ id, Stored id ∧ ∀ s, TakesF x L s f (push s ((tocBehind id bs).map (Block.reread x))) := by
  match bs, h, e with
  | [], h, e => exact ⟨c!"0", zero_stored, fun s => H.later [] (by simp) _ _ _ e s⟩
  | .paragraph p :: bs, h, e =>
    refine ⟨c!"0", zero_stored, fun s => H.later (.paragraph p :: bs) (h _ zero_stored) g f g' ?_ s⟩
    rw [nodesAfter] at e ⊢
    obtain ⟨i, cs, q, n⟩ := p
    exact e
  | .table t :: bs, h, e =>
    rw [nodesAfter, Block.nodesAfter] at e
    on_goal 2 => (intro h; cases h)
    obtain ⟨f1, g1, f2, e1, e2, rfl⟩ := thenN_eq e
    rw [catN, catN, catN, thenN_emit_nil] at e1
    obtain ⟨f3, g3, f4, e3, e4, rfl⟩ := thenN_eq e1
    obtain ⟨i, hi, k1⟩ := H.emptyLine (fun id hid => h id hid _ (.head _)) e3
    have k2 := H.block (.table t) (h _ hi _ (.tail _ (.head _)))
    have k3 := H.later bs fun b hb => h _ hi b (.tail _ (.tail _ hb))
    refine ⟨i, hi, fun s => ?_⟩
    have := ((k1 s).append (k2 _ _ _ (by rw [Block.nodes]; exact e4) _)).append (k3 _ _ _ e2 _)
    simp only [H.app] at this
    exact this

/-- What is behind the instruction of a table without entries. -/
theorem TakesBlocks.tail (bs : List Block) (h : ∀ id id', Stored id → Stored id' → ∀ b ∈ fieldTail id id' bs, b.Readable) {g g' : Gen} {f : List Node}
    (e : (withParaIdN fun id => catN [ifN bs.isEmpty (paragraphN id {} fieldEndRun.nodes), nodesAfter .firstMerging bs]) g = some (f, g')) :
    ∃ id id', Stored id ∧ Stored id' ∧ ∀ s, TakesF x L s f (push s ((fieldTail id id' bs).map (Block.reread x))) := by
  have hs := paraId_stored g.para
  match bs, h, e with
  | [], h, e =>
    have e' : newParagraphN {} fieldEndRun.nodes g = some (f, g') := by
      simp only [List.isEmpty_nil, ifN, if_true, nodesAfter, catN, thenN_emit_nil] at e
      exact e
    obtain ⟨i, hi, k⟩ := H.fresh (cs := [.run fieldEndRun]) (by rw [nodes_one, ParagraphChild.nodes])
      (fun id hid => h id id hid hid _ (.head _)) e'
    exact ⟨i, i, hi, hi, k⟩
  | .paragraph p :: bs, h, e =>
    refine ⟨c!"0", c!"0", zero_stored, zero_stored, fun s => ?_⟩
    have e' : ∃ g0, nodesAfter .later (.paragraph { p with children := .run fieldEndRun :: p.children } :: bs) g0 = some (f, g') := by
      obtain ⟨i0, g0, e⟩ : ∃ i g0, catN [ifN (List.isEmpty _) (paragraphN i {} fieldEndRun.nodes), nodesAfter .firstMerging _] g0 = some (f, g') :=
        ⟨_, _, e⟩
      refine ⟨g0, ?_⟩
      simp only [List.isEmpty_cons, ifN, Bool.false_eq_true, if_false, catN, thenN_emit_nil, emit_nil_thenN] at e
      rw [nodesAfter] at e ⊢
      obtain ⟨i, cs, q, n⟩ := p
      rw [Block.nodesAfter, catN, catN, catN, thenN_emit_nil] at e
      rw [Block.nodesAfter, catN, catN, catN, thenN_emit_nil, emit_nil_thenN, nodesParagraphChildren, ParagraphChild.nodes]
      · exact e
      · intro h; cases h
    obtain ⟨g0, e'⟩ := e'
    exact H.later _ (h _ _ zero_stored zero_stored) _ _ _ e' s
  | .table t :: bs, h, e =>
    have e' : ∃ g0, nodesAfter .first (.table t :: bs) g0 = some (f, g') := by
      obtain ⟨i0, g0, e⟩ : ∃ i g0, catN [ifN (List.isEmpty _) (paragraphN i {} fieldEndRun.nodes), nodesAfter .firstMerging _] g0 = some (f, g') :=
        ⟨_, _, e⟩
      refine ⟨g0, ?_⟩
      simp only [List.isEmpty_cons, ifN, Bool.false_eq_true, if_false, catN, thenN_emit_nil, emit_nil_thenN] at e
      rw [nodesAfter, Block.nodesAfter] at e ⊢
      · exact e
      all_goals (intro h; cases h)
    obtain ⟨g0, e'⟩ := e'
    obtain ⟨i, hi, k⟩ := H.behind (.table t :: bs) (fun id hid => h id id hid hid) e'
    exact ⟨c!"0", i, zero_stored, hi, k⟩

end

/-- What is read for a content control in the body. -/
theorem document_sdt {as : List (Str × Str)} {body : List Node} {s : Sdt} (h : Returns x (readSdt x) c!"w:sdt" body s) (d : Document) :
    TakesF x (documentLoop x) d [.elem c!"w:sdt" as body] (d.addSdt s) := by
  refine TakesF.child ((h.caught (g := fun s es => match s with
      | some s => .ok (d.addSdt s) es
      | none => .ok d es) (fun es => rfl)).congr (fun _ es hd => ?_))
  simp [-String.reduceToList, documentLoop]
  rfl

theorem sdt_wrap {n : Str} {as : List (Str × Str)} {f : List Node} {s s' : Sdt} (hn : n = c!"w:sdtContent" ∨ n = c!"w:sdtPr")
    (h : TakesF x (sdtLoop x) s f s') : TakesF x (sdtLoop x) s [.elem n as f] s' := by
  refine TakesF.wrap (s₁ := s) (s₂ := s') (fun d es hd => ?_) h (fun d => ?_) <;>
    rcases hn with rfl | rfl <;> simp [-String.reduceToList, sdtLoop, closesAt]

theorem controlPr {al : Option Str} {g g' : Gen} {f : List Node} (e : SdtProperty.nodes { «alias» := al } g = some (f, g')) (s : Sdt) :
    TakesF x (sdtLoop x) s f s :=
  takes_sdtPr (x := x) { «alias» := al } rfl _ _ _ e s

theorem control_reread (al : Option Str) (bs : List Block) :
    (tocControl al bs).reread x = [.sdt (Sdt.addAll {} ((bs.map (Block.reread x)).map Block.inControl))] := by
  have : ∀ bs : List Block, rereadSdtChildren x (bs.map Block.inControl) = (bs.map (Block.reread x)).map Block.inControl := by
    intro bs
    induction bs with
    | nil => rw [List.map_nil, rereadSdtChildren]; rfl
    | cons b bs ih =>
      rw [List.map_cons, rereadSdtChildren, ih]
      cases b <;> (simp only [Block.inControl, SdtChild.reread]; rfl)
  simp only [tocControl, DocumentChild.reread, Sdt.reread, this, Sdt.addAll, List.nil_append]

theorem document_addSdt (d : Document) (cs : List SdtChild) : d.addSdt (Sdt.addAll {} cs) = d.addAll [.sdt (Sdt.addAll {} cs)] := by
  simp [Document.addSdt, Document.addAll, DocumentChild.numbered]

theorem body_reread (bs : List Block) : (bs.map Block.inBody).flatMap (DocumentChild.reread x) = (bs.map (Block.reread x)).map Block.inBody := by
  induction bs with
  | nil => rfl
  | cons b bs ih =>
    rw [List.map_cons, List.flatMap_cons, ih]
    cases b <;> rfl

theorem control_readable {al : Option Str} {bs : List Block} (h : (tocControl al bs).Readable) : ∀ b ∈ bs, b.Readable := by
  have key : ∀ bs : List Block, readableSdtChildren (bs.map Block.inControl) → ∀ b ∈ bs, b.Readable := by
    intro bs
    induction bs with
    | nil => intro _ b hb; cases hb
    | cons b bs ih =>
      intro h c hc
      rw [List.map_cons, readableSdtChildren] at h
      rcases List.mem_cons.1 hc with rfl | hc
      · cases c with
        | paragraph p => have := h.1; simp only [Block.inControl, SdtChild.Readable] at this; exact this
        | table t => have := h.1; simp only [Block.inControl, SdtChild.Readable] at this; exact this
      · exact ih h.2 c hc
  have h2 : Sdt.Readable { children := bs.map Block.inControl, property := { «alias» := al } } := h
  rw [Sdt.Readable] at h2
  exact key bs h2.2

theorem body_readable {bs : List Block} (h : ∀ k ∈ bs.map Block.inBody, k.Readable) : ∀ b ∈ bs, b.Readable := by
  intro b hb
  have := h _ (List.mem_map_of_mem hb)
  cases b <;> exact this

/-- Three ids, and those of the entries. -/
def someIds (a b c : Str) : Nat → Str
  | 0 => a
  | 1 => b
  | _ + 2 => c

theorem someIds_stored {a b c : Str} (ha : Stored a) (hb : Stored b) (hc : Stored c) : ∀ n, Stored (someIds a b c n)
  | 0 => ha
  | 1 => hb
  | _ + 2 => hc

/-- One id, and others. -/
def withId (a : Str) (ids : Nat → Str) : Nat → Str
  | 0 => a
  | n + 1 => ids n

theorem withId_stored {a : Str} {ids : Nat → Str} (ha : Stored a) (h : ∀ n, Stored (ids n)) : ∀ n, Stored (withId a ids n)
  | 0 => ha
  | n + 1 => h n

section
variable {σ : Type} {L : Readers → Loop σ} {push : σ → List Block → σ}

/-- The whole of a table without entries. -/
theorem TakesBlocks.bare (H : TakesBlocks x L push) (t : Toc)
    (h : ∀ a b c, Stored a → Stored b → Stored c → ∀ k ∈ t.before ++ .paragraph (tocStart a t) :: fieldTail b c t.after, k.Readable)
    {g g' : Gen} {f : List Node}
    (e : catN [nodesBlocks t.before, newParagraphN (t.paragraphProperty.getD {}) (tocStartChildrenN t.instr t.delete),
      (withParaIdN fun id => catN [ifN t.after.isEmpty (paragraphN id {} fieldEndRun.nodes), nodesAfter .firstMerging t.after])] g = some (f, g')) :
    ∃ a b c, Stored a ∧ Stored b ∧ Stored c ∧
      ∀ s, TakesF x L s f (push s ((t.before ++ .paragraph (tocStart a t) :: fieldTail b c t.after).map (Block.reread x))) := by
  rw [catN, catN, catN, catN, thenN_emit_nil] at e
  obtain ⟨f1, g1, f2, e1, e2, rfl⟩ := thenN_eq e
  obtain ⟨f3, g3, f4, e3, e4, rfl⟩ := thenN_eq e2
  obtain ⟨a, ha, k2⟩ := H.fresh (start_nodes [] t)
    (fun id hid => h id id id hid hid hid (.paragraph (tocStart id t)) (List.mem_append_right _ (.head _))) e3
  obtain ⟨b, c, hb, hc, k3⟩ := H.tail t.after
    (fun b c hb hc k hk => h b b c hb hb hc k (List.mem_append_right _ (.tail _ hk))) e4
  have k1 := H.all t.before fun k hk => h a b c ha hb hc k (List.mem_append_left _ hk)
  refine ⟨a, b, c, ha, hb, hc, fun s => ?_⟩
  have := (k1 _ _ _ e1 s).append ((k2 _).append (k3 _))
  simp only [H.app, List.append_assoc] at this
  simp only [List.map_append, List.map_cons]
  exact this

end

theorem sdt_passes (n : Str) (hn : n = c!"w:sdtContent" ∨ n = c!"w:sdt") (R : Readers) (s : Sdt) (as : Attrs) (es : List REvent) :
    (sdtLoop x R).start s (splitQName n) as es = .ok s es := by
  rcases hn with rfl | rfl <;> simp [-String.reduceToList, sdtLoop]

/-- A content control inside another one ends both for the reader: what is behind the inner one is read as if it were behind the outer one. -/
theorem document_nested {f1 f2 f3 f4 : List Node} {s1 s2 : Sdt} {d d' : Document} (h1 : TakesF x (sdtLoop x) {} f1 {}) (h2 : TakesF x (sdtLoop x) {} f2 s1)
    (h3 : TakesF x (sdtLoop x) s1 f3 s2) (h4 : TakesF x (documentLoop x) (d.addSdt s2) f4 d') :
    TakesF x (documentLoop x) d
      [.elem c!"w:sdt" [] (f1 ++ [.elem c!"w:sdtContent" [] (f2 ++ ([.elem c!"w:sdt" [] (leafN c!"w:sdtPr" ++ [.elem c!"w:sdtContent" [] f3])] ++ f4))])] d' := by
  intro stk r res hr
  rw [expect_elem]
  have h5 : Runs x (documentLoop x) (d.addSdt s2)
      (expect (c!"w:sdtContent" :: c!"w:sdt" :: stk) none (tagsForest f4 ++ .cls :: .cls :: r)) res := by
    refine h4 _ _ _ ?_
    rw [expect_cls]
    refine runs_end (fun _ => rfl) ?_
    rw [expect_cls]
    exact runs_end (fun _ => rfl) hr
  have h6 : Runs x (sdtLoop x) {}
      (expect (c!"w:sdt" :: stk) none (tagsForest (f1 ++ [.elem c!"w:sdtContent" []
        (f2 ++ ([.elem c!"w:sdt" [] (leafN c!"w:sdtPr" ++ [.elem c!"w:sdtContent" [] f3])] ++ f4))]) ++ .cls :: r))
      (.ok s2 (expect (c!"w:sdtContent" :: c!"w:sdt" :: stk) none (tagsForest f4 ++ .cls :: .cls :: r))) := by
    rw [tagsForest_append', List.append_assoc]
    refine h1 _ _ _ ?_
    rw [expect_elem]
    refine runs_start (s' := {}) ⟨0, fun d hd => sdt_passes _ (.inl rfl) _ _ _ _⟩ ?_
    rw [tagsForest_append', List.append_assoc]
    refine h2 _ _ _ ?_
    rw [tagsForest_append', List.append_assoc, expect_elem]
    refine runs_start (s' := s1) ⟨0, fun d hd => sdt_passes _ (.inr rfl) _ _ _ _⟩ ?_
    have h7 : TakesF x (sdtLoop x) s1 (leafN c!"w:sdtPr" ++ [.elem c!"w:sdtContent" [] f3]) s2 :=
      (show TakesF x (sdtLoop x) s1 (leafN c!"w:sdtPr") s1 from sdt_wrap (.inr rfl) (.nil _)).append (sdt_wrap (.inl rfl) h3)
    refine h7 _ _ _ ?_
    rw [expect_cls]
    exact runs_close (fun _ => by simp [-String.reduceToList, sdtLoop, closesAt])
  obtain ⟨k, hk⟩ := h6
  refine runs_start (s' := d.addSdt s2) ⟨k, fun m hm => ?_⟩ h5
  have := hk m hm m hm
  simp only [documentLoop, readSdt, fuel_readers, this]
  simp [-String.reduceToList, Read.caught]

theorem takes_toc (t : Toc) (h : ∀ ids : Nat → Str, (∀ n, Stored (ids n)) → ∀ k ∈ t.spread ids, k.Readable) {g g' : Gen} {f : List Node}
    (e : t.nodes g = some (f, g')) : ∃ ids : Nat → Str, (∀ n, Stored (ids n)) ∧
      ∀ d : Document, TakesF x (documentLoop x) d f (d.addAll ((t.spread ids).flatMap (DocumentChild.reread x))) := by
  obtain ⟨instr, items, auto, dirty, without, al, placeholder, before, after, delete, property⟩ := t
  cases items with
  | nil =>
    rw [Toc.nodes] at e
    cases without with
    | true =>
      simp only [wrapSdt, if_true] at e
      obtain ⟨a, b, c, ha, hb, hc, k⟩ := (blocks_body (x := x)).bare ⟨instr, [], auto, dirty, true, al, placeholder, before, after, delete, property⟩
        (fun a b c ha hb hc => body_readable (h (someIds a b c) (someIds_stored ha hb hc))) e
      refine ⟨someIds a b c, someIds_stored ha hb hc, fun d => ?_⟩
      have := k d
      rw [← body_reread] at this
      exact this
    | false =>
      simp only [wrapSdt, Bool.false_eq_true, if_false] at e
      obtain ⟨body, eb, rfl⟩ := elemN_eq e
      rw [catN, catN, catN, thenN_emit_nil] at eb
      obtain ⟨f1, g1, f2, e1, e2, rfl⟩ := thenN_eq eb
      obtain ⟨f3, e3, rfl⟩ := elemN_eq e2
      obtain ⟨a, b, c, ha, hb, hc, k⟩ := (blocks_control (x := x)).bare ⟨instr, [], auto, dirty, false, al, placeholder, before, after, delete, property⟩
        (fun a b c ha hb hc => control_readable (h (someIds a b c) (someIds_stored ha hb hc) _ (.head _))) e3
      refine ⟨someIds a b c, someIds_stored ha hb hc, fun d => ?_⟩
      have hr : Returns x (readSdt x) c!"w:sdt" (f1 ++ [.elem c!"w:sdtContent" [] f3]) _ :=
        Returns.loop ((controlPr e1 {}).append (sdt_wrap (.inl rfl) (k {}))) (n := c!"w:sdt") (fun _ => by
          simp [-String.reduceToList, sdtLoop, closesAt])
      have := document_sdt (as := []) hr d
      rw [document_addSdt, ← control_reread al] at this
      simp only [Toc.spread, Bool.false_eq_true, if_false, List.flatMap_cons, List.flatMap_nil, List.append_nil]
      exact this
  | cons item items =>
    rw [Toc.nodes] at e
    obtain ⟨its, hits⟩ : ∃ its, its = tocPreparedItems instr dirty placeholder (item :: items) := ⟨_, rfl⟩
    rw [← hits] at e
    have key : ∀ {g g' : Gen} {f : List Node},
        catN [nodesBlocks before, tocEntriesN its, nodesAfter .first after] g = some (f, g') →
        ∃ f1 f3 f4 g1 g2 g3, f = f1 ++ ([.elem c!"w:sdt" [] (leafN c!"w:sdtPr" ++ [.elem c!"w:sdtContent" [] f3])] ++ f4) ∧
          nodesBlocks before g = some (f1, g1) ∧ tocItemsN true its g1 = some (f3, g2) ∧ nodesAfter .first after g2 = some (f4, g3) := by
      intro g g' f e
      rw [catN, catN, catN, catN, thenN_emit_nil] at e
      obtain ⟨f1, g1, f2, e1, e2, rfl⟩ := thenN_eq e
      obtain ⟨f3, g3, f4, e3, e4, rfl⟩ := thenN_eq e2
      obtain ⟨body, eb, rfl⟩ := elemN_eq e3
      rw [catN, catN, catN, thenN_emit_nil] at eb
      obtain ⟨f5, g5, f6, e5, e6, rfl⟩ := thenN_eq eb
      obtain ⟨f7, e7, rfl⟩ := elemN_eq e6
      simp only [emitN, Option.some.injEq, Prod.mk.injEq] at e5
      obtain ⟨rfl, rfl⟩ := e5
      exact ⟨f1, f7, f4, g1, g3, g', rfl, e1, e7, e4⟩
    cases without with
    | true =>
      simp only [wrapSdt, if_true] at e
      obtain ⟨f1, f3, f4, g1, g2, g3, rfl, e1, e3, e4⟩ := key e
      have hh : ∀ (a : Str) (ids : Nat → Str), Stored a → (∀ n, Stored (ids n)) →
          ∀ k ∈ before.map Block.inBody ++ tocControl none ((entryParagraphs ids true its).map Block.paragraph) :: (tocBehind a after).map Block.inBody,
          k.Readable := by
        intro a ids ha hids
        rw [hits]
        exact h (withId a ids) (withId_stored ha hids)
      have b1 := (blocks_body (x := x)).all before (body_readable fun k hk => hh _ _ zero_stored (fun _ => zero_stored) k (List.mem_append_left _ hk))
      obtain ⟨ids, hids, b2⟩ := (blocks_control (x := x)).entries its true (fun ids hids p hp =>
        control_readable (hh _ _ zero_stored hids _ (List.mem_append_right _ (.head _))) _ (List.mem_map_of_mem hp)) e3
      obtain ⟨a, ha, b3⟩ := (blocks_body (x := x)).behind after
        (fun a ha => body_readable fun k hk => hh a _ ha (fun _ => zero_stored) k (List.mem_append_right _ (.tail _ hk))) e4
      refine ⟨withId a ids, withId_stored ha hids, fun d => ?_⟩
      have hr : ∀ d : Document, TakesF x (documentLoop x) d [.elem c!"w:sdt" [] (leafN c!"w:sdtPr" ++ [.elem c!"w:sdtContent" [] f3])] _ := fun d =>
        document_sdt (as := []) (Returns.loop ((show TakesF x (sdtLoop x) {} (leafN c!"w:sdtPr") {} from sdt_wrap (.inr rfl) (.nil _)).append
          (sdt_wrap (.inl rfl) (b2 {}))) (n := c!"w:sdt") (fun _ => by simp [-String.reduceToList, sdtLoop, closesAt])) d
      have := (b1 _ _ _ e1 d).append ((hr _).append (b3 _))
      have em : (entryParagraphs ids true its).map (fun p => Block.paragraph p.reread) = ((entryParagraphs ids true its).map Block.paragraph).map (Block.reread x) := by
        rw [List.map_map]
        rfl
      rw [document_addSdt, em, ← control_reread none, ← body_reread, ← body_reread] at this
      have es : Toc.spread (withId a ids) ⟨instr, item :: items, auto, dirty, true, al, placeholder, before, after, delete, property⟩ =
          before.map Block.inBody ++ tocControl none ((entryParagraphs ids true its).map Block.paragraph) :: (tocBehind a after).map Block.inBody := by
        rw [hits]
        rfl
      rw [es, List.flatMap_append, List.flatMap_cons]
      simpa only [Document.addAll, List.append_assoc, List.any_append, Bool.or_assoc] using this
    | false =>
      simp only [wrapSdt, Bool.false_eq_true, if_false] at e
      obtain ⟨body, eb, rfl⟩ := elemN_eq e
      rw [catN, catN, catN, thenN_emit_nil] at eb
      obtain ⟨f0, g0, f2, e0, e2, rfl⟩ := thenN_eq eb
      obtain ⟨f', e', rfl⟩ := elemN_eq e2
      obtain ⟨f1, f3, f4, g1, g2, g3, rfl, e1, e3, e4⟩ := key e'
      have hh : ∀ (a : Str) (ids : Nat → Str), Stored a → (∀ n, Stored (ids n)) →
          ∀ k ∈ tocControl al (before ++ (entryParagraphs ids true its).map Block.paragraph) :: (tocBehind a after).map Block.inBody, k.Readable := by
        intro a ids ha hids
        rw [hits]
        exact h (withId a ids) (withId_stored ha hids)
      have b1 := (blocks_control (x := x)).all before
        (fun b hb => control_readable (hh _ _ zero_stored (fun _ => zero_stored) _ (.head _)) b (List.mem_append_left _ hb))
      obtain ⟨ids, hids, b2⟩ := (blocks_control (x := x)).entries its true (fun ids hids p hp =>
        control_readable (hh _ _ zero_stored hids _ (.head _)) _ (List.mem_append_right _ (List.mem_map_of_mem hp))) e3
      obtain ⟨a, ha, b3⟩ := (blocks_body (x := x)).behind after
        (fun a ha => body_readable fun k hk => hh a _ ha (fun _ => zero_stored) k (.tail _ hk)) e4
      refine ⟨withId a ids, withId_stored ha hids, fun d => ?_⟩
      have := document_nested (d := d) (controlPr e0 {}) (b1 _ _ _ e1 {}) (b2 _) (b3 _)
      have em : (entryParagraphs ids true its).map (fun p => Block.paragraph p.reread) = ((entryParagraphs ids true its).map Block.paragraph).map (Block.reread x) := by
        rw [List.map_map]
        rfl
      rw [(blocks_control (x := x)).app, em, ← List.map_append, document_addSdt, ← control_reread al, ← body_reread] at this
      have es : Toc.spread (withId a ids) ⟨instr, item :: items, auto, dirty, false, al, placeholder, before, after, delete, property⟩ =
          tocControl al (before ++ (entryParagraphs ids true its).map Block.paragraph) :: (tocBehind a after).map Block.inBody := by
        rw [hits]
        rfl
      rw [es, List.flatMap_cons]
      simpa only [Document.addAll, List.append_assoc, List.any_append, Bool.or_assoc] using this

/-! ## Whole bodies -/

/-- Whatever ids are drawn, what becomes of the tables of contents can be read back. -/
def FlatReadable (cs : List DocumentChild) : Prop :=
  ∀ c ∈ cs, ∀ ids : Nat → Str, (∀ n, Stored (ids n)) → ∀ k ∈ c.flatAs ids, k.Readable

theorem takes_flat (c : DocumentChild) (h : ∀ ids : Nat → Str, (∀ n, Stored (ids n)) → ∀ k ∈ c.flatAs ids, k.Readable) {g g' : Gen} {f : List Node}
    (e : c.nodes g = some (f, g')) : ∃ ids : Nat → Str, (∀ n, Stored (ids n)) ∧
      ∀ d : Document, TakesF x (documentLoop x) d f (d.addAll ((c.flatAs ids).flatMap (DocumentChild.reread x))) := by
  by_cases hc : ∃ t, c = .toc t
  · obtain ⟨t, rfl⟩ := hc
    rw [DocumentChild.nodes] at e
    exact takes_toc t h e
  · have hs : ∀ ids, c.flatAs ids = [c] := by
      intro id
      cases c <;> first | rfl | exact absurd ⟨_, rfl⟩ hc
    refine ⟨fun _ => c!"0", fun _ => zero_stored, fun d => ?_⟩
    rw [hs, List.flatMap_cons, List.flatMap_nil, List.append_nil]
    exact takes_documentChild c (h (fun _ => c!"0") (fun _ => zero_stored) c (by rw [hs]; exact List.mem_singleton.2 rfl)) _ _ _ e d

theorem takes_flatAll : ∀ (cs : List DocumentChild) (_ : FlatReadable cs) {g g' : Gen} {f : List Node}
    (_ : eachN DocumentChild.nodes cs g = some (f, g')), ∃ ids : Nat → Nat → Str, (∀ m n, Stored (ids m n)) ∧
      ∀ d : Document, TakesF x (documentLoop x) d f (d.addAll ((flatAll ids cs).flatMap (DocumentChild.reread x)))
  | [], _, g, g', f, e => by
    simp only [eachN, emitN, Option.some.injEq, Prod.mk.injEq] at e
    obtain ⟨rfl, rfl⟩ := e
    refine ⟨fun _ _ => c!"0", fun _ _ => zero_stored, fun d => ?_⟩
    show TakesF x (documentLoop x) d [] (d.addAll [])
    rw [Document.addAll_nil]
    exact .nil _
  | c :: cs, h, g, g', f, e => by
    obtain ⟨f1, g1, f2, e1, e2, rfl⟩ := thenN_eq e
    obtain ⟨i, hi, h1⟩ := takes_flat (x := x) c (h c (.head _)) e1
    obtain ⟨ids, hids, h2⟩ := takes_flatAll cs (fun c hc => h c (.tail _ hc)) e2
    refine ⟨fun | 0 => i | n + 1 => ids n, fun m n => ?_, fun d => ?_⟩
    · cases m with
      | zero => exact hi n
      | succ m => exact hids m n
    · have := (h1 d).append (h2 _)
      simpa [flatAll, Document.addAll, Bool.or_assoc] using this

theorem flatAll_append : ∀ (a b : List DocumentChild) (ids ids' : Nat → Nat → Str), (∀ m n, Stored (ids m n)) → (∀ m n, Stored (ids' m n)) →
    ∃ all : Nat → Nat → Str, (∀ m n, Stored (all m n)) ∧ flatAll all (a ++ b) = flatAll ids a ++ flatAll ids' b
  | [], b, ids, ids', _, h' => ⟨ids', h', rfl⟩
  | c :: a, b, ids, ids', h, h' => by
    obtain ⟨all, ha, e⟩ := flatAll_append a b (fun n => ids (n + 1)) ids' (fun m => h (m + 1)) h'
    refine ⟨fun | 0 => ids 0 | n + 1 => all n, fun m n => ?_, ?_⟩
    · cases m with
      | zero => exact h 0 n
      | succ m => exact ha m n
    · rw [List.cons_append, flatAll, flatAll, e, List.append_assoc]

theorem takes_spreadFlat (c : DocumentChild) (h : FlatReadable (c.spreadAs [])) {g g' : Gen} {f : List Node} (e : c.nodes g = some (f, g')) :
    ∃ id, Stored id ∧ ∃ ids : Nat → Nat → Str, (∀ m n, Stored (ids m n)) ∧
      ∀ d, TakesF x (documentLoop x) d f (d.addAll ((flatAll ids (c.spreadAs id)).flatMap (DocumentChild.reread x))) := by
  by_cases hc : ∃ s, c = .section s
  · obtain ⟨s, rfl⟩ := hc
    obtain ⟨i, hi⟩ : ∃ i, i = (generateParaId g.para).1 := ⟨_, rfl⟩
    have hst : Stored i := hi ▸ paraId_stored _
    simp only [DocumentChild.nodes, Section.nodes, withParaIdN, eachN_spread] at e
    rw [← hi, catN, catN, catN, thenN_emit_nil] at e
    obtain ⟨f1, g1, f2, e1, e2, rfl⟩ := thenN_eq e
    obtain ⟨ids, hids, h1⟩ := takes_flatAll (x := x) (s.children.map SectionChild.spread) (fun c hc => h c (List.mem_append_left _ hc)) e1
    have hp : DocumentChild.Readable (.paragraph (sectionEnd [] s.property.base)) :=
      h (.paragraph (sectionEnd [] s.property.base)) (by simp [DocumentChild.spreadAs]) (fun _ => c!"0") (fun _ => zero_stored) _ (.head _)
    have hb : s.property.base.Readable := by
      have h2 : ParagraphProperty.Readable ⟨{ sectionProperty := some s.property.base }, none⟩ := hp.2.1
      rw [ParagraphProperty.Readable] at h2
      exact h2.1.2.2.2.2.2.2 _ rfl
    have h2 : TakesN x (documentLoop x) (emitN [.elem c!"w:p" [(c!"w14:paraId", i)] [.elem c!"w:pPr" [] s.property.base.nodes]])
        (fun d => d.addAll [.paragraph (sectionEnd (seen i) s.property.base.reread)]) := by
      refine .emit fun d => ?_
      refine TakesF.child (((returns_sectionEnd _ hb (hst.2.1)).map d.addParagraph).congr (fun _ es hd => ?_) |>.mono ?_)
      · simp [-String.reduceToList, documentLoop]
      · simp [Document.addAll, Document.addParagraph, DocumentChild.numbered]
    obtain ⟨all, hall, ea⟩ := flatAll_append (s.children.map SectionChild.spread) [.paragraph (sectionEnd i s.property.base)] ids
      (fun _ _ => c!"0") hids (fun _ _ => zero_stored)
    refine ⟨i, hst, all, hall, fun d => ?_⟩
    have := (h1 d).append (h2 _ _ _ e2 _)
    rw [DocumentChild.spreadAs, ea]
    simpa [flatAll, DocumentChild.flatAs, Document.addAll, DocumentChild.reread, sectionEnd_reread, Bool.or_assoc] using this
  · have hs : ∀ id, c.spreadAs id = [c] := by
      intro id
      cases c <;> first | rfl | exact absurd ⟨_, rfl⟩ hc
    obtain ⟨ids, hids, k⟩ := takes_flat (x := x) c (h c (by rw [hs]; exact List.mem_singleton.2 rfl)) e
    refine ⟨c!"0", zero_stored, fun _ => ids, fun _ => hids, fun d => ?_⟩
    rw [hs, flatAll, flatAll, List.append_nil]
    exact k d

theorem takes_spreadFlatAll : ∀ (cs : List DocumentChild) (_ : FlatReadable (spreadAll [] cs)) {g g' : Gen} {f : List Node}
    (_ : eachN DocumentChild.nodes cs g = some (f, g')), ∃ sids, (∀ i ∈ sids, Stored i) ∧ ∃ ids : Nat → Nat → Str, (∀ m n, Stored (ids m n)) ∧
      ∀ d, TakesF x (documentLoop x) d f (d.addAll ((flatAll ids (spreadAll sids cs)).flatMap (DocumentChild.reread x)))
  | [], _, g, g', f, e => by
    simp only [eachN, emitN, Option.some.injEq, Prod.mk.injEq] at e
    obtain ⟨rfl, rfl⟩ := e
    refine ⟨[], fun _ h => (by cases h), fun _ _ => c!"0", fun _ _ => zero_stored, fun d => ?_⟩
    show TakesF x (documentLoop x) d [] (d.addAll [])
    rw [Document.addAll_nil]
    exact .nil _
  | c :: cs, h, g, g', f, e => by
    obtain ⟨f1, g1, f2, e1, e2, rfl⟩ := thenN_eq e
    rw [spreadAll] at h
    obtain ⟨i, hi, ids1, hids1, h1⟩ := takes_spreadFlat (x := x) c (fun k hk => h k (List.mem_append_left _ hk)) e1
    obtain ⟨sids, hsids, ids2, hids2, h2⟩ := takes_spreadFlatAll cs (fun k hk => h k (List.mem_append_right _ hk)) e2
    obtain ⟨all, hall, ea⟩ := flatAll_append (c.spreadAs i) (spreadAll sids cs) ids1 ids2 hids1 hids2
    refine ⟨i :: sids, fun j hj => ?_, all, hall, fun d => ?_⟩
    · rcases List.mem_cons.1 hj with rfl | hj
      · exact hi
      · exact hsids j hj
    · have := (h1 d).append (h2 _)
      rw [spreadAll, List.headD_cons, List.tail_cons, ea]
      simpa [Document.addAll, Bool.or_assoc] using this

/-- The document with its sections and tables of contents spread out. -/
def Document.flat (sids : List Str) (ids : Nat → Nat → Str) (d : Document) : Document := { d with children := flatAll ids (spreadAll sids d.children) }

theorem takes_document_flat (d : Document) (h : FlatReadable (spreadAll [] d.children)) (hp : d.sectionProperty.base.Readable) {g g' : Gen}
    {f : List Node} (e : d.nodes g = some (f, g')) : ∃ sids, (∀ i ∈ sids, Stored i) ∧ ∃ ids : Nat → Nat → Str, (∀ m n, Stored (ids m n)) ∧
      TakesF x (documentLoop x) {} f ((d.flat sids ids).reread x) := by
  obtain ⟨body, hb, rfl⟩ := elemN_eq e
  obtain ⟨body, hb', rfl⟩ := elemN_eq hb
  obtain ⟨f1, g1, f2, e1, e2, rfl⟩ := thenN_eq hb'
  obtain ⟨sids, hsids, ids, hids, h1⟩ := takes_spreadFlatAll (x := x) d.children h e1
  refine ⟨sids, hsids, ids, hids, document_wrap (by simp) (document_wrap (by simp) ?_)⟩
  have h2 := ((takes_bodySectPr (x := x) d.sectionProperty.base hp).cat_cons .cat_nil) _ _ _ e2
  have := (h1 {}).append (h2 _)
  simpa [Document.addAll, Document.reread, Document.flat] using this

/-- The document part, written, reads as the document with its sections and tables of contents spread out. -/
theorem reads_document_flat (d : Document) (hs : AllS d.strings) (h : FlatReadable (spreadAll [] d.children)) (hp : d.sectionProperty.base.Readable)
    {sa : Option Bool} {g g' : Gen} {out : Str} (e : writePart sa d.build g = some (.ok out, g')) :
    ∃ sids, (∀ i ∈ sids, Stored i) ∧ ∃ ids : Nat → Nat → Str, (∀ m n, Stored (ids m n)) ∧
      ∃ k, ∀ n, k ≤ n → readDocument x n out = .ok ((d.flat sids ids).reread x) [] := by
  rw [← Document_build_flat] at e
  obtain ⟨f, hf, _, hr⟩ := writePart_reads (d.ok hs) e
  have hend : ∀ q, Runs x (documentLoop x) q (expect [] none []) (.ok q []) := by
    refine fun q => ⟨1, fun _ _ n hn => ?_⟩
    obtain ⟨n, rfl⟩ : ∃ m, n = m + 1 := ⟨n - 1, by omega⟩
    rfl
  obtain ⟨sids, hsids, ids, hids, ht⟩ := takes_document_flat (x := x) d h hp hf
  obtain ⟨k, hk⟩ := ht [] [] _ (hend _)
  rw [List.append_nil] at hk
  exact ⟨sids, hsids, ids, hids, k, fun n hn => by rw [readDocument, hr]; exact hk n hn n hn⟩

end Docx
