import Verif.Lemmas.Names

/-!
# Ids drawn while writing

`Draws own pid R`: `own` picks ids out of tracked changes and paragraphs and nothing out of other elements;
`R g g' l ids` relates the generators before and after, the things `pid` finds in the paragraphs of the
content, and the ids found in what is written; and `R` is closed under putting content together. Then `R`
holds for whole parts.
-/

namespace Docx

set_option linter.unusedSimpArgs false

open Docx.Spec

/-- What `pid` finds in paragraph items. -/
def Spec.Item.ofParagraph {α} (pid : Paragraph → List α) : Item → List α
  | .paragraph p => pid p
  | _ => []

/-- The generators after drawing a revision id. -/
def Gen.drawHistory (g : Gen) : Gen := { g with history := (generateId g.history).2 }
/-- The generators after drawing a paragraph property change id. -/
def Gen.drawChange (g : Gen) : Gen := { g with change := (generateId g.change).2 }
/-- The generators after drawing a paragraph id. -/
def Gen.drawPara (g : Gen) : Gen := { g with para := g.para + 1 }

/-- See the module comment. -/
structure Draws {α} (own : Str → List (Str × Str) → List Node → List α) (pid : Paragraph → List α)
    (R : Gen → Gen → List α → List α → Prop) : Prop where
  nil : ∀ g, R g g [] []
  append : ∀ {g1 g2 g3 a b c d}, R g1 g2 a b → R g2 g3 c d → R g1 g3 (a ++ c) (b ++ d)
  silent : ∀ n as cs, n ∉ revisionNames → n ≠ c!"w:p" → own n as cs = []
  history : ∀ g, ∀ n ∈ [c!"w:ins", c!"w:del", c!"w:moveFrom", c!"w:moveTo"], ∀ a d cs,
    R g g.drawHistory [] (own n (revisionAttrs (dec g.history) a d) cs)
  change : ∀ g a d cs, R g g.drawChange [] (own c!"w:pPrChange" (revisionAttrs (dec g.change) a d) cs)
  paraUnused : ∀ g, R g g.drawPara [] []
  para : ∀ g cs, R g g.drawPara [] (own c!"w:p" [(c!"w14:paraId", paraIdText g.para)] cs)
  paraLate : ∀ g g' l out cs, R g.drawPara g' l out →
    R g g' l (out ++ own c!"w:p" [(c!"w14:paraId", paraIdText g.para)] cs)
  paragraph : ∀ g (p : Paragraph) cs, R g g (pid p) (own c!"w:p" [(c!"w14:paraId", p.id)] cs)

/-- `R` holds for whatever `n` writes. -/
def Drw {α} (own : Str → List (Str × Str) → List Node → List α) (R : Gen → Gen → List α → List α → Prop) (n : N)
    (l : List α) : Prop :=
  ∀ g f g', n g = some (f, g') → R g g' l (collectForest own f)

mutual
theorem Node.collect_silent {α} {own : Str → List (Str × Str) → List Node → List α} : (x : Node) →
    (∀ n ∈ x.names, ∀ as cs, own n as cs = []) → x.collect own = []
  | .text s, _ => rfl
  | .elem n as cs, h => by
    simp only [Node.names, List.mem_cons, forall_eq_or_imp] at h
    simp only [Node.collect, h.1, collectForest_silent cs h.2, List.append_nil]
theorem collectForest_silent {α} {own : Str → List (Str × Str) → List Node → List α} : (f : List Node) →
    (∀ n ∈ namesForest f, ∀ as cs, own n as cs = []) → collectForest own f = []
  | [], _ => rfl
  | x :: f, h => by
    simp only [namesForest, List.mem_append] at h
    simp only [collectForest, Node.collect_silent x fun n hn => h n (.inl hn),
      collectForest_silent f fun n hn => h n (.inr hn), List.append_nil]
end

/-- Run content draws no ids. -/
theorem RunChild.noDraw (c : RunChild) (g f g') (h : c.nodes g = some (f, g')) : g' = g := by
  cases c with
  | instrText i => 
    cases i <;>
    simp [RunChild.nodes, InstrText.nodes, elemN, catN, N.thenN, emitN, panicN] at h <;> exact h.2.symm
  | deleteInstrText i =>
    cases i <;>
    simp [RunChild.nodes, DeleteInstrText.nodes, elemN, catN, N.thenN, emitN, panicN] at h <;> exact h.2.symm
  | _ => simp [RunChild.nodes, emitN, panicN] at h <;> exact h.2.symm

section
variable {α : Type} {own : Str → List (Str × Str) → List Node → List α} {pid : Paragraph → List α}
  {R : Gen → Gen → List α → List α → Prop} (h : Draws own pid R)
include h

omit h in
theorem Drw.congr {n : N} {l l' : List α} (hc : Drw own R n l) (e : l = l') : Drw own R n l' := e ▸ hc

theorem Draws.silentPlain {n : Str} (hn : PlainName n) (as cs) : own n as cs = [] := by
  unfold PlainName at hn
  simp only [List.mem_append, not_or] at hn
  refine h.silent n as cs hn.2 fun e => hn.1 ?_
  rw [e]; decide

theorem Drw.emitSilent {f : List Node} (hf : ∀ n ∈ namesForest f, n ∉ revisionNames ∧ n ≠ c!"w:p") :
    Drw own R (emitN f) [] := by
  intro g f' g' e
  simp only [emitN, Option.some.injEq, Prod.mk.injEq] at e
  rw [← e.1, ← e.2, collectForest_silent f fun n hn as cs => h.silent n as cs (hf n hn).1 (hf n hn).2]
  exact h.nil g

theorem Drw.plainF {f : List Node} (hf : PlainF f) : Drw own R (emitN f) [] := by
  refine Drw.emitSilent h fun n hn => ?_
  have := hf.names n hn
  unfold PlainName at this
  simp only [List.mem_append, not_or] at this
  exact ⟨this.2, fun e => this.1 (by rw [e]; decide)⟩

theorem Drw.emitNil : Drw own R (emitN []) [] := Drw.emitSilent h (by simp [namesForest])

theorem Drw.thenN {m n : N} {a b : List α} (hm : Drw own R m a) (hn : Drw own R n b) :
    Drw own R (m.thenN n) (a ++ b) := by
  intro g f g' e
  unfold N.thenN at e
  cases e1 : m g with
  | none => rw [e1] at e; exact absurd e (by simp)
  | some r =>
    obtain ⟨f1, g1⟩ := r
    rw [e1] at e
    dsimp only at e
    cases e2 : n g1 with
    | none => rw [e2] at e; exact absurd e (by simp)
    | some r =>
      obtain ⟨f2, g2⟩ := r
      rw [e2] at e
      simp only [Option.some.injEq, Prod.mk.injEq] at e
      rw [← e.1, ← e.2, collectForest_append]
      exact h.append (hm _ _ _ e1) (hn _ _ _ e2)

theorem Drw.catNil : Drw own R (catN []) [] := Drw.emitNil h
theorem Drw.catCons {m : N} {l : List N} {a b : List α} (hm : Drw own R m a) (hl : Drw own R (catN l) b) :
    Drw own R (catN (m :: l)) (a ++ b) := Drw.thenN h hm hl

omit h in
/-- One element, with the ids of its own drawn before its content is written. -/
theorem elemN_some {n : Str} {as : List (Str × Str)} {m : N} {g g' : Gen} {f : List Node}
    (e : elemN n as m g = some (f, g')) :
    ∃ f1, m g = some (f1, g') ∧ f = [.elem n as f1] := by
  unfold elemN at e
  cases e1 : m g with
  | none => rw [e1] at e; exact absurd e (by simp)
  | some r =>
    obtain ⟨f1, g1⟩ := r
    rw [e1] at e
    simp only [Option.some.injEq, Prod.mk.injEq] at e
    exact ⟨f1, by rw [e.2], e.1.symm⟩

omit h in
theorem collect_elem (n : Str) (as : List (Str × Str)) (f : List Node) :
    collectForest own [.elem n as f] = own n as f ++ collectForest own f := by
  simp [collectForest, Node.collect]

theorem Drw.elem {n : Str} {as : List (Str × Str)} {m : N} {b : List α} (hn : n ∉ revisionNames) (hp : n ≠ c!"w:p")
    (hm : Drw own R m b) : Drw own R (elemN n as m) b := by
  intro g f g' e
  obtain ⟨f1, e1, rfl⟩ := elemN_some e
  rw [collect_elem, h.silent n as f1 hn hp, List.nil_append]
  exact hm _ _ _ e1

theorem Drw.historyElem {n : Str} (hn : n ∈ [c!"w:ins", c!"w:del", c!"w:moveFrom", c!"w:moveTo"]) (a d : Str)
    {m : N} {b : List α} (hm : Drw own R m b) :
    Drw own R (withHistoryN fun id => elemN n (revisionAttrs id a d) m) b := by
  intro g f g' e
  obtain ⟨f1, e1, rfl⟩ := elemN_some e
  rw [collect_elem]
  exact h.append (h.history g n hn a d f1) (hm _ _ _ e1)

theorem Drw.newPara {as : Str → List (Str × Str)} (ha : ∀ i, as i = [(c!"w14:paraId", i)]) {m : N} {b : List α}
    (hm : Drw own R m b) :
    Drw own R (withParaIdN fun id => elemN c!"w:p" (as id) m) b := by
  intro g f g' e
  obtain ⟨f1, e1, rfl⟩ := elemN_some e
  rw [collect_elem, ha]
  exact h.append (h.para g f1) (hm _ _ _ e1)

/-- Formatting. -/
theorem Draws.formats : Formats fun n => Drw own R n [] where
  emit := fun hf => Drw.plainF h hf
  panic := by intro g f g' e; simp [panicN] at e
  thenN := fun hm hn => (Drw.thenN h hm hn).congr rfl
  elem := fun hn hm => by
    intro g f g' e
    obtain ⟨f1, e1, rfl⟩ := elemN_some e
    rw [collect_elem, h.silentPlain hn, List.nil_append]
    exact hm _ _ _ e1
  mark := fun name hn m => by
    intro g f g' e
    simp only [Mark.nodes, withHistoryN, emitN, Option.some.injEq, Prod.mk.injEq] at e
    rw [← e.1, ← e.2]
    simp only [revisionNode, collectForest, Node.collect, List.append_nil]
    refine h.history g name ?_ _ _ _
    simp only [List.mem_cons, List.not_mem_nil, or_false] at hn ⊢
    rcases hn with rfl | rfl
    · exact .inl rfl
    · exact .inr (.inl rfl)
  change := fun a d m hm => by
    intro g f g' e
    obtain ⟨f1, e1, rfl⟩ := elemN_some e
    rw [collect_elem]
    exact h.append (h.change g a d f1) (hm _ _ _ e1)

theorem Drw.ifN {c : Bool} {m : N} (hm : Drw own R m []) : Drw own R (Docx.ifN c m) [] := h.formats.ifN hm

theorem Drw.runChild (c : RunChild) : Drw own R c.nodes [] := by
  intro g f g' e
  rw [c.noDraw g f g' e, collectForest_silent f fun n hn as cs => ?_]
  · exact h.nil g
  · rcases c.names_ok g f g' e n hn with h1 | h1
    · have : ∀ c : RunChild, ∀ n ∈ c.contentNames, n ∉ revisionNames ∧ n ≠ c!"w:p" := by
        intro c
        cases c <;> simp only [RunChild.contentNames] <;> decide
      exact h.silent n as cs (this c n h1).1 (this c n h1).2
    · exact h.silentPlain h1 as cs

theorem Drw.run (r : Run) : Drw own R r.nodes [] := by
  obtain ⟨pr, cs⟩ := r
  have h2 : Drw own R (eachN RunChild.nodes cs) [] := by
    induction cs with
    | nil => exact .emitNil h
    | cons c cs ih => exact (Drw.thenN h (Drw.runChild h c) ih).congr rfl
  exact .elem h (by decide) (by decide)
    ((Drw.catCons h (pr.formats h.formats) (.catCons h h2 (.catNil h))).congr rfl)

theorem Drw.newParagraphN {p : ParagraphProperty} {n : N} {l : List α} (hn : Drw own R n l) :
    Drw own R (newParagraphN p n) l :=
  Drw.newPara h (fun _ => rfl) ((Drw.catCons h (p.formats h.formats) (.catCons h hn (.catNil h))).congr (by simp))

theorem Drw.tocItemN (first : Bool) (t : TocItem) : Drw own R (tocItemN first t) [] := by
  unfold Docx.tocItemN
  apply Drw.newParagraphN h
  have h6 := Drw.catCons h (Drw.run h { children := [.text (textOf t.text)] })
    (.catCons h (Drw.run h { children := [.tab] }) (.catCons h (Drw.run h (pageRefRun t)) (.catNil h)))
  have h5 : Drw own R (tocItemRunsN t) [] := by
    unfold tocItemRunsN
    split
    · exact (Drw.elem h (by decide) (by decide) h6).congr rfl
    · exact h6.congr rfl
  exact (Drw.catCons h (.ifN h (Drw.run h _)) (.catCons h h5 (.catNil h))).congr rfl

theorem Drw.tocItemsN (ts : List TocItem) : ∀ first, Drw own R (tocItemsN first ts) [] := by
  induction ts with
  | nil => intro first; exact .emitNil h
  | cons t ts ih =>
    intro first
    have h1 := Drw.tocItemN h first t
    have h2 : Drw own R (tocEndN t) [] := Drw.newParagraphN h (Drw.run h _)
    cases ts with
    | nil => exact (Drw.catCons h h1 (.catCons h h2 (.catNil h))).congr rfl
    | cons u us => exact (Drw.catCons h h1 (.catCons h (ih false) (.catNil h))).congr rfl

theorem Drw.tocEntriesN (ts : List TocItem) : Drw own R (tocEntriesN ts) [] :=
  .elem h (by decide) (by decide) ((Drw.catCons h (.plainF h (.leaf (by decide)))
    (.catCons h (.elem h (by decide) (by decide) (Drw.tocItemsN h ts true)) (.catNil h))).congr rfl)

theorem Drw.tocStart (i : InstrToC) (d : Option Mark) : Drw own R (tocStartChildrenN i d) [] := by
  cases d with
  | none => exact Drw.run h _
  | some m =>
    simp only [tocStartChildrenN, Delete.nodes, eachN, DeleteChild.nodes]
    exact Drw.historyElem h (by simp) _ _ ((Drw.thenN h (Drw.run h _) (.emitNil h)).congr rfl)

theorem Drw.wrapSdt (x : Bool) (a : Option Str) {n : N} {l : List α} (hn : Drw own R n l) :
    Drw own R (wrapSdt x a n) l := by
  unfold Docx.wrapSdt
  split
  · exact hn
  · exact .elem h (by decide) (by decide) ((Drw.catCons h (SdtProperty.formats h.formats _)
      (.catCons h (.elem h (by decide) (by decide) hn) (.catNil h))).congr (by simp))

/-- A paragraph of the content. -/
theorem Drw.paragraphN {id : Str} {cs : List ParagraphChild} {pr : ParagraphProperty} {hn : Bool} {n : N}
    {l : List α} (hc : Drw own R n l) : Drw own R (paragraphN id pr n) (pid ⟨id, cs, pr, hn⟩ ++ l) := by
  intro g f g' e
  obtain ⟨f1, e1, rfl⟩ := elemN_some e
  rw [collect_elem]
  exact h.append (h.paragraph g ⟨id, cs, pr, hn⟩ f1)
    (((Drw.catCons h (pr.formats h.formats) (.catCons h hc (.catNil h))).congr (by simp)) _ _ _ e1)

/-- The induction hypotheses hold. -/
theorem Draws.along : Along fun n l => Drw own R n (l.flatMap (Item.ofParagraph pid)) where
  later := trivial
  nil := .emitNil h
  seq := fun hm hn => (Drw.thenN h hm hn).congr (by simp)
  runChild := fun c => (Drw.runChild h c).congr (by cases c <;> rfl)
  run := fun pr cs l hc => (Drw.elem h (by decide) (by decide)
    (Drw.catCons h (pr.formats h.formats) (.catCons h hc (.catNil h)))).congr (by simp [Item.ofParagraph])
  commentStart := fun i c => .emitSilent h (by simp only [commentStartNodes, leafN, namesForest, Node.names]; decide)
  commentEnd := fun i => .emitSilent h (by simp only [commentEndNodes, leafN, List.cons_append, List.nil_append, namesForest, Node.names]; decide)
  bookmarkStart := fun i n => .emitSilent h (by simp only [bookmarkStartNodes, leafN, namesForest, Node.names]; decide)
  bookmarkEnd := fun i => .emitSilent h (by simp only [bookmarkEndNodes, leafN, namesForest, Node.names]; decide)
  delete := by
    intro name hn a d cs l hc
    simp only [Delete.nodes]
    refine Drw.historyElem h ?_ _ _ hc
    simp only [List.mem_cons, List.not_mem_nil, or_false] at hn
    rcases hn with rfl | rfl <;> decide
  insert := by
    intro name hn a d cs l hc
    simp only [Insert.nodes]
    refine Drw.historyElem h ?_ _ _ hc
    simp only [List.mem_cons, List.not_mem_nil, or_false] at hn
    rcases hn with rfl | rfl <;> decide
  pageNum := Drw.run h _
  numPages := Drw.run h _
  hyperlink := fun link hist cs l hc => by
    simp only [Hyperlink.nodes]
    exact (Drw.elem h (by decide) (by decide) hc).congr (by simp [Item.ofParagraph])
  sdt := fun cs pr hn l hc => by
    simp only [Sdt.nodes]
    exact (Drw.elem h (by decide) (by decide) (Drw.catCons h (pr.formats h.formats)
      (.catCons h (.elem h (by decide) (by decide) hc) (.catNil h)))).congr (by simp [Item.ofParagraph])
  paragraph := fun id cs pr hn l hc => by
    simp only [Paragraph.nodes]
    exact (Drw.paragraphN h (cs := cs) (hn := hn) hc).congr (by simp [Item.ofParagraph])
  table := fun rs grid hn pr l hc => by
    simp only [Table.nodes]
    exact (Drw.elem h (by decide) (by decide) (Drw.catCons h (.plainF h pr.plain)
      (.catCons h (.plainF h (grid_plain _)) (.catCons h hc (.catNil h))))).congr (by simp [Item.ofParagraph])
  row := fun cs hn pr l hc => by
    simp only [Row.nodes]
    exact .elem h (by decide) (by decide)
      ((Drw.catCons h (pr.formats h.formats) (.catCons h hc (.catNil h))).congr (by simp))
  cell := fun cs pr hn l hc => by
    simp only [Cell.nodes]
    exact (Drw.elem h (by decide) (by decide) (Drw.catCons h (.plainF h pr.plain) (.catCons h hc
      (.catCons h (.ifN h (Drw.newParagraphN h (.emitNil h))) (.catNil h))))).congr (by simp [Item.ofParagraph])
  cellTable := fun only t l hc => by
    simp only [CellContent.nodes]
    exact (Drw.thenN h hc (.ifN h (Drw.newParagraphN h (.emitNil h)))).congr (by simp)
  toc := by
    intro t a b h1 h2
    obtain ⟨instr, items, au, dirty, withoutSdt, alias, placeholder, before, after, delete, property⟩ := t
    refine Drw.congr (l := (a ++ b).flatMap (Item.ofParagraph pid)) ?_ (by simp [Item.ofParagraph])
    simp only [Toc.nodes]
    apply Drw.wrapSdt h
    cases items with
    | nil =>
      have h3 : Drw own R (withParaIdN fun id => catN [Docx.ifN after.isEmpty (Docx.paragraphN id {} fieldEndRun.nodes),
          nodesAfter .firstMerging after]) (b.flatMap (Item.ofParagraph pid)) := by
        intro g f g' e
        cases after with
        | nil =>
          have h4 := Drw.thenN h (Drw.newParagraphN h (p := {}) (Drw.run h fieldEndRun)) (h2 .firstMerging trivial)
          refine (h4.congr (List.nil_append _)) g f g' ?_
          simp only [withParaIdN, catN, List.isEmpty_nil, ifN, if_true, N.thenN, emitN, List.append_nil,
            Docx.newParagraphN, Docx.paragraphN] at e ⊢
          exact e
        | cons x xs =>
          have h4 := ((Drw.catCons h (h2 .firstMerging trivial) (.catNil h)).congr (List.append_nil _))
          simp only [withParaIdN, List.isEmpty_cons, ifN] at e
          have e' : catN [nodesAfter .firstMerging (x :: xs)] g.drawPara = some (f, g') := by
            simp only [catN, N.thenN, emitN, List.append_nil, List.nil_append, Bool.false_eq_true, if_false] at e ⊢
            cases e2 : nodesAfter .firstMerging (x :: xs) g.drawPara with
            | none =>
              have e3 : nodesAfter .firstMerging (x :: xs)
                { history := g.history, change := g.change, para := (generateParaId g.para).2 } = none := e2
              rw [e3] at e
              exact absurd e (by simp)
            | some r =>
              have e3 : nodesAfter .firstMerging (x :: xs)
                { history := g.history, change := g.change, para := (generateParaId g.para).2 } = some r := e2
              rw [e3] at e
              simpa using e
          have := h.append (h.paraUnused g) (h4 _ _ _ e')
          simpa using this
      exact (Drw.catCons h h1 (.catCons h (Drw.newParagraphN h (Drw.tocStart h instr delete))
        (.catCons h h3 (.catNil h)))).congr (by simp)
    | cons i is =>
      exact (Drw.catCons h h1 (.catCons h (Drw.tocEntriesN h _) (.catCons h (h2 .first trivial) (.catNil h)))).congr
        (by simp)
  afterParagraph := fun pos _ id cs pr hn l hc => by
    have h2 : Drw own R (match pos with | .firstMerging => fieldEndRun.nodes | _ => emitN []) [] := by
      cases pos
      · exact Drw.run h _
      · exact .emitNil h
      · exact .emitNil h
    simp only [Block.nodesAfter]
    exact (Drw.paragraphN h (cs := cs) (hn := hn) (Drw.catCons h h2 (.catCons h hc (.catNil h)))).congr
      (by simp [Item.ofParagraph])
  afterTable := fun pos _ t l hc => by
    have h2 : Drw own R (match pos with | .later => emitN [] | _ => emptyLineN) [] := by
      cases pos
      · exact Drw.newParagraphN h (Drw.run h _)
      · exact Drw.newParagraphN h (Drw.run h _)
      · exact .emitNil h
    simp only [Block.nodesAfter]
    exact (Drw.catCons h h2 (.catCons h hc (.catNil h))).congr (by simp)

theorem Draws.section (s : Section) (l : List Item)
    (hc : Drw own R (eachN SectionChild.nodes s.children) (l.flatMap (Item.ofParagraph pid))) :
    Drw own R s.nodes (l.flatMap (Item.ofParagraph pid)) := by
  intro g f g' e
  simp only [Section.nodes, withParaIdN, catN, N.thenN, emitN, List.append_nil] at e
  split at e
  · exact absurd e (by simp)
  · rename_i f1 g1 e1
    simp only [Option.some.injEq, Prod.mk.injEq] at e
    rw [← e.1, ← e.2, collectForest_append, collect_elem]
    have hq : collectForest own [.elem c!"w:pPr" [] s.property.base.nodes] = [] := by
      refine collectForest_silent _ fun n hn as cs => ?_
      have hp : PlainF [.elem c!"w:pPr" [] s.property.base.nodes] := .elem (by decide) s.property.base.plain
      exact h.silentPlain (hp.names n hn) as cs
    rw [hq, List.append_nil]
    exact h.paraLate g g1 _ _ _ (hc _ _ _ e1)

/-- The ids in `word/document.xml`. -/
theorem Draws.document (d : Document) :
    Drw own R d.nodes ((here elsewhereBody (walkDocument d)).flatMap (Item.ofParagraph pid)) := by
  have h1 := Document.alongAt h.along (fun s l => h.section s l) d
  unfold Document.nodes
  exact .elem h (by decide) (by decide) (.elem h (by decide) (by decide) ((Drw.catCons h h1
    (.catCons h (.plainF h d.sectionProperty.base.plain) (.catNil h))).congr (by simp)))

/-- The ids in a header or footer part. -/
theorem Draws.header {n : Str} (hn : n ∉ revisionNames) (hp : n ≠ c!"w:p") (x : Header) (w : List Place)
    (hw : w.any elsewhere = false) :
    Drw own R (x.nodes n) ((here elsewhere (walkHeader w x)).flatMap (Item.ofParagraph pid)) :=
  .elem h hn hp (Header.alongAt away_elsewhere h.along x w hw)

theorem Drw.each {β} {f : β → N} {k : β → List α} (xs : List β) (hf : ∀ x ∈ xs, Drw own R (f x) (k x)) :
    Drw own R (eachN f xs) (xs.flatMap k) := by
  induction xs with
  | nil => exact .emitNil h
  | cons x xs ih => exact Drw.thenN h (hf x (by simp)) (ih fun y hy => hf y (by simp [hy]))

omit h in
theorem flatMap_here {β} (k : β → Walk) (item : Item → List α) (l : List β) :
    (l.flatMap fun x => (here elsewhere (k x)).flatMap item) = (here elsewhere (l.flatMap k)).flatMap item := by
  induction l with
  | nil => rfl
  | cons x l ih => simp [here_append, ih]

/-- The ids in the comments part. -/
theorem Draws.comments (cs : List Comment) : Drw own R (commentsN cs)
    ((here elsewhere (cs.flatMap (walkComment [.comments]))).flatMap (Item.ofParagraph pid)) := by
  refine .elem h (by decide) (by decide) ((Drw.each h cs fun c _ => ?_).congr (flatMap_here _ _ cs))
  exact .elem h (by decide) (by decide) (Comment.alongAt h.along c _ (by simp [elsewhere]))

/-- The ids in the footnotes part. -/
theorem Draws.footnotes (fs : List Footnote) : Drw own R (footnotesN fs)
    ((here elsewhere (fs.flatMap fun f => walkParagraphs [.footnotes] f.content)).flatMap (Item.ofParagraph pid)) := by
  refine .elem h (by decide) (by decide) ((Drw.each h fs fun f _ => ?_).congr (flatMap_here _ _ fs))
  exact .elem h (by decide) (by decide) ((Drw.catCons h
    (Footnote.alongAt h.along f.content [.footnotes] (by simp [elsewhere]))
    (.catCons h (.ifN h (Drw.newParagraphN h (.emitNil h))) (.catNil h))).congr (by simp))
end

end Docx
