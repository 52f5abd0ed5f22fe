import Verif.Lemmas.Draws
import Verif.Lemmas.PackageXml
import Verif.Lemmas.PartReads
import Verif.Spec.Generated

/-!
# What is written depends on the generators only through the generated ids
-/

namespace Docx

set_option linter.unusedSectionVars false
set_option linter.unusedSimpArgs false

open Docx.Spec

theorem withoutIds_append (f f' : List Node) : withoutIds (f ++ f') = withoutIds f ++ withoutIds f' := by
  induction f with
  | nil => simp [withoutIds]
  | cons x f ih => simp [withoutIds, ih]

/-- Whatever the generators hold, the two write the same up to generated ids. -/
def Like (m n : N) : Prop :=
  ∀ g1 f1 g1' g2 f2 g2', m g1 = some (f1, g1') → n g2 = some (f2, g2') → withoutIds f1 = withoutIds f2

abbrev Alike (n : N) : Prop := Like n n

theorem Like.emit {f f' : List Node} (h : withoutIds f = withoutIds f') : Like (emitN f) (emitN f') := by
  intro g1 f1 g1' g2 f2 g2' e1 e2
  simp only [emitN, Option.some.injEq, Prod.mk.injEq] at e1 e2
  rw [← e1.1, ← e2.1, h]

theorem Alike.emit (f : List Node) : Alike (emitN f) := Like.emit rfl
theorem Like.panic (n : N) : Like panicN n := by intro g1 f1 g1' g2 f2 g2' e1; simp [panicN] at e1

theorem thenN_some {m n : N} {g g' : Gen} {f : List Node} (e : m.thenN n g = some (f, g')) :
    ∃ f1 g1 f2, m g = some (f1, g1) ∧ n g1 = some (f2, g') ∧ f = f1 ++ f2 := by
  unfold N.thenN at e
  cases e1 : m g with
  | none => rw [e1] at e; exact absurd e (by simp)
  | some r =>
    obtain ⟨f1, g1⟩ := r
    rw [e1] at e
    simp only at e
    cases e2 : n g1 with
    | none => rw [e2] at e; exact absurd e (by simp)
    | some r =>
      obtain ⟨f2, g2⟩ := r
      rw [e2] at e
      simp only [Option.some.injEq, Prod.mk.injEq] at e
      exact ⟨f1, g1, f2, rfl, by rw [e2, e.2], e.1.symm⟩

theorem Like.thenN {m n m' n' : N} (h : Like m m') (h' : Like n n') : Like (m.thenN n) (m'.thenN n') := by
  intro g1 f1 g1' g2 f2 g2' e1 e2
  obtain ⟨a1, b1, c1, h1, h2, rfl⟩ := thenN_some e1
  obtain ⟨a2, b2, c2, h3, h4, rfl⟩ := thenN_some e2
  rw [withoutIds_append, withoutIds_append, h _ _ _ _ _ _ h1 h3, h' _ _ _ _ _ _ h2 h4]

theorem Like.elem {name : Str} {as as' : List (Str × Str)} {m m' : N}
    (ha : (as.filter fun a => generatedAttr name ≠ some a.1) = as'.filter fun a => generatedAttr name ≠ some a.1)
    (h : Like m m') : Like (elemN name as m) (elemN name as' m') := by
  intro g1 f1 g1' g2 f2 g2' e1 e2
  obtain ⟨c1, h1, rfl⟩ := elemN_some e1
  obtain ⟨c2, h2, rfl⟩ := elemN_some e2
  simp only [withoutIds, Node.withoutIds, ha, h _ _ _ _ _ _ h1 h2]

theorem Alike.elem {name : Str} {as : List (Str × Str)} {m : N} (h : Alike m) : Alike (elemN name as m) := Like.elem rfl h

theorem Like.history {f f' : Str → N} (h : ∀ i j, Like (f i) (f' j)) : Like (withHistoryN f) (withHistoryN f') :=
  fun _ _ _ _ _ _ e1 e2 => h _ _ _ _ _ _ _ _ e1 e2
theorem Like.change {f f' : Str → N} (h : ∀ i j, Like (f i) (f' j)) : Like (withChangeN f) (withChangeN f') :=
  fun _ _ _ _ _ _ e1 e2 => h _ _ _ _ _ _ _ _ e1 e2
theorem Like.paraId {f f' : Str → N} (h : ∀ i j, Like (f i) (f' j)) : Like (withParaIdN f) (withParaIdN f') :=
  fun _ _ _ _ _ _ e1 e2 => h _ _ _ _ _ _ _ _ e1 e2

theorem Like.catNil : Like (catN []) (catN []) := Alike.emit []
theorem Like.catCons {m m' : N} {l l' : List N} (h : Like m m') (h' : Like (catN l) (catN l')) :
    Like (catN (m :: l)) (catN (m' :: l')) := Like.thenN h h'

theorem Alike.each {α} {f : α → N} (l : List α) (h : ∀ a ∈ l, Alike (f a)) : Alike (eachN f l) := by
  induction l with
  | nil => exact Alike.emit []
  | cons a l ih => exact Like.thenN (h a (by simp)) (ih fun b hb => h b (by simp [hb]))

theorem Alike.ifN {c : Bool} {m : N} (h : Alike m) : Alike (Docx.ifN c m) := by
  unfold Docx.ifN; split
  · exact h
  · exact Alike.emit []

theorem Alike.opt {α} {o : Option α} {f : α → N} (h : ∀ a, Alike (f a)) : Alike (optNB o f) := by
  unfold optNB; split
  · exact h _
  · exact Alike.emit []

theorem drop_generated {n a : Str} (h : generatedAttr n = some a) (i : Str) (rest : List (Str × Str)) :
    (((a, i) :: rest).filter fun x => generatedAttr n ≠ some x.1) = rest.filter fun x => generatedAttr n ≠ some x.1 := by
  rw [List.filter_cons_of_neg]
  simp [h]

theorem revision_like {name : Str} (hn : name ∈ [c!"w:ins", c!"w:del", c!"w:moveFrom", c!"w:moveTo", c!"w:pPrChange"]) (i j a d : Str) :
    ((revisionAttrs i a d).filter fun x => generatedAttr name ≠ some x.1) =
      (revisionAttrs j a d).filter fun x => generatedAttr name ≠ some x.1 := by
  have h1 : generatedAttr name = some c!"w:id" := by
    have : name ≠ c!"w:p" := by rintro rfl; revert hn; decide
    rw [generatedAttr, if_neg this, if_pos hn]
  rw [revisionAttrs, revisionAttrs, drop_generated h1, drop_generated h1]

theorem para_like (i j : Str) :
    ([(c!"w14:paraId", i)].filter fun x => generatedAttr c!"w:p" ≠ some x.1) =
      [(c!"w14:paraId", j)].filter fun x => generatedAttr c!"w:p" ≠ some x.1 := by
  have h1 : generatedAttr c!"w:p" = some c!"w14:paraId" := by decide
  rw [drop_generated h1, drop_generated h1]

/-- Formatting. -/
theorem alike_formats : Formats Alike where
  emit := fun _ => Alike.emit _
  panic := Like.panic _
  thenN := fun hm hn => Like.thenN hm hn
  elem := fun _ hm => Alike.elem hm
  mark := fun name hn m => by
    refine Like.history fun i j => Like.emit ?_
    have := revision_like (name := name) (by
      simp only [List.mem_cons, List.not_mem_nil, or_false] at hn
      rcases hn with rfl | rfl <;> decide) i j m.author m.date
    simp only [revisionNode, withoutIds, Node.withoutIds, this]
  change := fun a d m hm => Like.change fun i j => Like.elem (revision_like (by decide) i j a d) hm

theorem InstrText.alike (i : InstrText) : Alike i.nodes := by
  refine Alike.elem (Like.catCons ?_ Like.catNil)
  cases i <;> first | exact Alike.emit _ | exact Like.panic _

theorem DeleteInstrText.alike (i : DeleteInstrText) : Alike i.nodes := by
  refine Alike.elem (Like.catCons ?_ Like.catNil)
  cases i <;> first | exact Alike.emit _ | exact Like.panic _

theorem RunChild.alike (c : RunChild) : Alike c.nodes := by
  cases c <;> first | exact Alike.emit _ | exact Like.panic _ | exact InstrText.alike _ | exact DeleteInstrText.alike _

theorem Run.alike (r : Run) : Alike r.nodes := by
  obtain ⟨pr, cs⟩ := r
  exact Alike.elem (Like.catCons (pr.formats alike_formats) (Like.catCons (Alike.each cs fun c _ => c.alike) Like.catNil))

theorem Like.paragraphN {i j : Str} {p : ParagraphProperty} {m n : N} (h : Like m n) :
    Like (paragraphN i p m) (paragraphN j p n) :=
  Like.elem (para_like i j) (Like.catCons (p.formats alike_formats) (Like.catCons h Like.catNil))

theorem Alike.newParagraphN {p : ParagraphProperty} {n : N} (h : Alike n) : Alike (newParagraphN p n) :=
  Like.paraId fun _ _ => Like.paragraphN h

theorem Alike.tocItemN (first : Bool) (t : TocItem) : Alike (tocItemN first t) := by
  unfold Docx.tocItemN
  apply Alike.newParagraphN
  have h6 := Like.catCons (Run.alike { children := [.text (textOf t.text)] })
    (Like.catCons (Run.alike { children := [.tab] }) (Like.catCons (Run.alike (pageRefRun t)) Like.catNil))
  have h5 : Alike (tocItemRunsN t) := by
    unfold tocItemRunsN
    split
    · exact Alike.elem h6
    · exact h6
  exact Like.catCons (Alike.ifN (Run.alike _)) (Like.catCons h5 Like.catNil)

theorem Alike.tocItemsN (ts : List TocItem) : ∀ first, Alike (tocItemsN first ts) := by
  induction ts with
  | nil => intro first; exact Alike.emit []
  | cons t ts ih =>
    intro first
    have h1 := Alike.tocItemN first t
    have h2 : Alike (tocEndN t) := Alike.newParagraphN (Run.alike _)
    cases ts with
    | nil => exact Like.catCons h1 (Like.catCons h2 Like.catNil)
    | cons u us => exact Like.catCons h1 (Like.catCons (ih false) Like.catNil)

theorem Alike.tocEntriesN (ts : List TocItem) : Alike (tocEntriesN ts) :=
  Alike.elem (Like.catCons (Alike.emit _) (Like.catCons (Alike.elem (Alike.tocItemsN ts true)) Like.catNil))

theorem Alike.historyElem {n : Str} (hn : n ∈ [c!"w:ins", c!"w:del", c!"w:moveFrom", c!"w:moveTo", c!"w:pPrChange"]) (a d : Str)
    {m : N} (hm : Alike m) : Alike (withHistoryN fun id => elemN n (revisionAttrs id a d) m) :=
  Like.history fun i j => Like.elem (revision_like hn i j a d) hm

theorem Alike.tocStart (i : InstrToC) (d : Option Mark) : Alike (tocStartChildrenN i d) := by
  cases d with
  | none => exact Run.alike _
  | some m =>
    simp only [tocStartChildrenN, Delete.nodes, eachN, DeleteChild.nodes]
    exact Alike.historyElem (by decide) _ _ (Like.thenN (Run.alike _) (Alike.emit _))

theorem Alike.wrapSdt (x : Bool) (a : Option Str) {n : N} (hn : Alike n) : Alike (wrapSdt x a n) := by
  unfold Docx.wrapSdt
  split
  · exact hn
  · exact Alike.elem (Like.catCons (SdtProperty.formats alike_formats _) (Like.catCons (Alike.elem hn) Like.catNil))

/-- All content. -/
theorem alike_along : Along fun n _ => Alike n where
  later := trivial
  nil := Alike.emit []
  seq := fun hm hn => Like.thenN hm hn
  runChild := fun c => c.alike
  run := fun pr cs l hc => Alike.elem (Like.catCons (pr.formats alike_formats) (Like.catCons hc Like.catNil))
  commentStart := fun i c => Alike.emit _
  commentEnd := fun i => Alike.emit _
  bookmarkStart := fun i n => Alike.emit _
  bookmarkEnd := fun i => Alike.emit _
  delete := by
    intro name hn a d cs l hc
    simp only [Delete.nodes]
    refine Alike.historyElem ?_ _ _ hc
    simp only [List.mem_cons, List.not_mem_nil, or_false] at hn
    rcases hn with rfl | rfl <;> decide
  insert := by
    intro name hn a d cs l hc
    simp only [Insert.nodes]
    refine Alike.historyElem ?_ _ _ hc
    simp only [List.mem_cons, List.not_mem_nil, or_false] at hn
    rcases hn with rfl | rfl <;> decide
  pageNum := Run.alike _
  numPages := Run.alike _
  hyperlink := fun link hist cs l hc => by
    simp only [Hyperlink.nodes]
    exact Alike.elem hc
  sdt := fun cs pr hn l hc => by
    simp only [Sdt.nodes]
    exact Alike.elem (Like.catCons (pr.formats alike_formats) (Like.catCons (Alike.elem hc) Like.catNil))
  paragraph := fun id cs pr hn l hc => by
    simp only [Paragraph.nodes]
    exact Like.paragraphN hc
  table := fun rs grid hn pr l hc => by
    simp only [Table.nodes]
    exact Alike.elem (Like.catCons (Alike.emit _) (Like.catCons (Alike.emit _) (Like.catCons hc Like.catNil)))
  row := fun cs hn pr l hc => by
    simp only [Row.nodes]
    exact Alike.elem (Like.catCons (pr.formats alike_formats) (Like.catCons hc Like.catNil))
  cell := fun cs pr hn l hc => by
    simp only [Cell.nodes]
    exact Alike.elem (Like.catCons (Alike.emit _) (Like.catCons hc
      (Like.catCons (Alike.ifN (Alike.newParagraphN (Alike.emit []))) Like.catNil)))
  cellTable := fun only t l hc => by
    simp only [CellContent.nodes]
    exact Like.thenN hc (Alike.ifN (Alike.newParagraphN (Alike.emit [])))
  toc := by
    intro t a b h1 h2
    obtain ⟨instr, items, au, dirty, withoutSdt, alias, placeholder, before, after, delete, property⟩ := t
    simp only [Toc.nodes]
    apply Alike.wrapSdt
    cases items with
    | nil =>
      refine Like.catCons h1 (Like.catCons (Alike.newParagraphN (Alike.tocStart instr delete)) (Like.catCons ?_ Like.catNil))
      refine Like.paraId fun i j => Like.catCons ?_ (Like.catCons (h2 .firstMerging trivial) Like.catNil)
      unfold Docx.ifN
      split
      · exact Like.paragraphN (Run.alike _)
      · exact Alike.emit []
    | cons i is => exact Like.catCons h1 (Like.catCons (Alike.tocEntriesN _) (Like.catCons (h2 .first trivial) Like.catNil))
  afterParagraph := fun pos _ id cs pr hn l hc => by
    have h2 : Alike (match pos with | .firstMerging => fieldEndRun.nodes | _ => emitN []) := by
      cases pos
      · exact Run.alike _
      · exact Alike.emit []
      · exact Alike.emit []
    simp only [Block.nodesAfter]
    exact Like.paragraphN (Like.catCons h2 (Like.catCons hc Like.catNil))
  afterTable := fun pos _ t l hc => by
    have h2 : Alike (match pos with | .later => emitN [] | _ => emptyLineN) := by
      cases pos
      · exact Alike.newParagraphN (Run.alike _)
      · exact Alike.newParagraphN (Run.alike _)
      · exact Alike.emit []
    simp only [Block.nodesAfter]
    exact Like.catCons h2 (Like.catCons hc Like.catNil)

theorem Section.alike (s : Section) (hc : Alike (eachN SectionChild.nodes s.children)) : Alike s.nodes := by
  refine Like.paraId fun i j => Like.catCons hc (Like.catCons (Like.emit ?_) Like.catNil)
  have := para_like i j
  simp only [withoutIds, Node.withoutIds, this]

theorem Document.alike (d : Document) : Alike d.nodes := by
  have h1 := Document.alongAt alike_along (fun s _ => Section.alike s) d
  unfold Document.nodes
  exact Alike.elem (Alike.elem (Like.catCons h1 (Like.catCons (Alike.emit _) Like.catNil)))

theorem Header.alike (n : Str) (h : Header) : Alike (h.nodes n) :=
  Alike.elem (Header.alongAt away_elsewhere alike_along h [] (by simp))

theorem comments_alike (cs : List Comment) : Alike (commentsN cs) :=
  Alike.elem (Alike.each cs fun c _ => Alike.elem (Comment.alongAt alike_along c [] (by simp)))

theorem footnotes_alike (fs : List Footnote) : Alike (footnotesN fs) :=
  Alike.elem (Alike.each fs fun f _ => Alike.elem (Like.catCons (Footnote.alongAt alike_along f.content [] (by simp))
    (Like.catCons (Alike.ifN (Alike.newParagraphN (Alike.emit []))) Like.catNil)))

theorem Style.alike (x : Style) : Alike x.nodes :=
  Alike.elem (Like.catCons (Alike.emit _) (Like.catCons (x.runProperty.formats alike_formats)
    (Like.catCons (x.paragraphProperty.formats alike_formats) (Like.catCons (Alike.ifN (Alike.emit _))
    (Like.catCons (Alike.emit _) (Like.catCons (Alike.emit _) (Like.catCons (Alike.emit _) (Like.catCons (Alike.emit _)
    (Like.catCons (Alike.emit _) (Like.catCons (Alike.emit _) (Like.catCons (Alike.emit _) Like.catNil)))))))))))

theorem Styles.alike (x : Styles) : Alike x.nodes :=
  Alike.elem (Like.catCons
    (Alike.elem (Like.catCons (Alike.elem (x.docDefaults.runProperty.formats alike_formats))
      (Like.catCons (Alike.elem (x.docDefaults.paragraphProperty.formats alike_formats)) Like.catNil)))
    (Like.catCons (Style.alike _) (Like.catCons (Alike.each _ fun s _ => s.alike) Like.catNil)))

theorem Level.alike (x : Level) : Alike x.nodes :=
  Alike.elem (Like.catCons (Alike.emit _) (Like.catCons (Alike.emit _) (Like.catCons (Alike.emit _)
    (Like.catCons (Alike.emit _) (Like.catCons (x.paragraphProperty.formats alike_formats)
    (Like.catCons (x.runProperty.formats alike_formats) (Like.catCons (Alike.emit _) (Like.catCons (Alike.emit _)
    (Like.catCons (Alike.emit _) (Like.catCons (Alike.emit _) Like.catNil))))))))))

theorem AbstractNumbering.alike (x : AbstractNumbering) : Alike x.nodes :=
  Alike.elem (Like.catCons (Alike.emit _) (Like.catCons (Alike.each _ fun l _ => l.alike) Like.catNil))

theorem LevelOverride.alike (x : LevelOverride) : Alike x.nodes :=
  Alike.elem (Like.catCons (Alike.opt fun l => l.alike) (Like.catCons (Alike.emit _) Like.catNil))

theorem Numbering.alike (x : Numbering) : Alike x.nodes :=
  Alike.elem (Like.catCons (Alike.emit _) (Like.catCons (Alike.each _ fun l _ => l.alike) Like.catNil))

theorem Numberings.alike (x : Numberings) : Alike x.nodes :=
  Alike.elem (Like.catCons (AbstractNumbering.alike _) (Like.catCons (Alike.each _ fun l _ => l.alike)
    (Like.catCons (Numbering.alike _) (Like.catCons (Alike.each _ fun l _ => l.alike) Like.catNil))))

end Docx
