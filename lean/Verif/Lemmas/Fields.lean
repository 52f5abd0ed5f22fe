import Verif.Spec.Fields
import Verif.Lemmas.Collectors
import Verif.Lemmas.Draws

/-!
# Fields stay balanced
-/

namespace Docx

set_option linter.unusedSimpArgs false

open Docx.Spec

theorem fieldRun_append (a b : List Str) : ∀ o, fieldRun o (a ++ b) = (fieldRun o a).bind fun o' => fieldRun o' b := by
  induction a with
  | nil => intro o; rfl
  | cons s a ih =>
    intro o
    simp only [List.cons_append, fieldRun]
    cases fieldStep o s with
    | none => rfl
    | some o' => exact ih o'

/-- The same effect on the open fields. -/
def Same (a b : List Str) : Prop := ∀ o, fieldRun o a = fieldRun o b

theorem Same.refl (a : List Str) : Same a a := fun _ => rfl
theorem Same.append {a b c d : List Str} (h1 : Same a b) (h2 : Same c d) : Same (a ++ c) (b ++ d) := by
  intro o
  rw [fieldRun_append, fieldRun_append, h1 o]
  cases fieldRun o b with
  | none => rfl
  | some o' => exact h2 o'
theorem Same.trans {a b c : List Str} (h1 : Same a b) (h2 : Same b c) : Same a c := fun o => (h1 o).trans (h2 o)
theorem Same.symm {a b : List Str} (h1 : Same a b) : Same b a := fun o => (h1 o).symm

/-- A whole field has no effect. -/
theorem Same.field {l : List Str} (h : Same [] l) : Same [] ([c!"begin", c!"separate"] ++ (l ++ [c!"end"])) := by
  intro o
  rw [fieldRun_append, fieldRun]
  have : fieldRun o [c!"begin", c!"separate"] = some (true :: o) := rfl
  rw [this]
  simp only [Option.bind_some]
  rw [fieldRun_append, ← h]
  rfl

/-- The field characters of an element. -/
abbrev fieldOwn := attrIn c!"w:fldChar" c!"w:fldCharType"

theorem fieldOwn_other {n : Str} (h : n ≠ c!"w:fldChar") (as : List (Str × Str)) (cs : List Node) :
    fieldOwn n as cs = [] := attrIn_onName _ _ _ _ _ h

/-- What `n` writes has field characters with the same effect as `l`. -/
def Fld (n : N) (l : List Str) : Prop := ∀ g f g', n g = some (f, g') → Same l (collectForest fieldOwn f)

theorem Fld.same {n : N} {l l' : List Str} (h : Fld n l) (e : Same l' l) : Fld n l' :=
  fun g f g' e1 => e.trans (h g f g' e1)
theorem Fld.congr {n : N} {l l' : List Str} (h : Fld n l) (e : l = l') : Fld n l' := e ▸ h
theorem Fld.emit {f : List Node} {l : List Str} (hf : collectForest fieldOwn f = l) : Fld (emitN f) l := by
  intro g f' g' e
  simp only [emitN, Option.some.injEq, Prod.mk.injEq] at e
  rw [← e.1, hf]; exact .refl _
theorem Fld.emitNil : Fld (emitN []) [] := .emit rfl
theorem Fld.thenN {m n : N} {a b : List Str} (hm : Fld m a) (hn : Fld n b) : Fld (m.thenN n) (a ++ b) := by
  intro g f g' e
  unfold N.thenN at e
  cases e1 : m g with
  | none => rw [e1] at e; exact absurd e (by simp)
  | some r =>
    obtain ⟨f1, g1⟩ := r
    rw [e1] at e
    dsimp only at e
    cases e2 : n g1 with
    | none => rw [e2] at e; exact absurd e (by simp)
    | some r =>
      obtain ⟨f2, g2⟩ := r
      rw [e2] at e
      simp only [Option.some.injEq, Prod.mk.injEq] at e
      rw [← e.1, collectForest_append]
      exact (hm _ _ _ e1).append (hn _ _ _ e2)
theorem Fld.catNil : Fld (catN []) [] := .emitNil
theorem Fld.catCons {m : N} {l : List N} {a b : List Str} (hm : Fld m a) (hl : Fld (catN l) b) :
    Fld (catN (m :: l)) (a ++ b) := .thenN hm hl
theorem Fld.elem {n : Str} {as : List (Str × Str)} {m : N} {b : List Str} (hn : n ≠ c!"w:fldChar") (hm : Fld m b) :
    Fld (elemN n as m) b := by
  intro g f g' e
  obtain ⟨f1, e1, rfl⟩ := elemN_some e
  rw [collect_elem, fieldOwn_other hn, List.nil_append]
  exact hm _ _ _ e1
theorem Fld.plainF {f : List Node} (hf : PlainF f) : Fld (emitN f) [] := by
  refine .emit (collectForest_silent f fun n hn as cs => attrIn_onName _ _ _ _ _ fun e => ?_)
  have := hf.names n hn
  exact this (by rw [e]; decide)
theorem Fld.silent {f : List Node} (hf : c!"w:fldChar" ∉ namesForest f) : Fld (emitN f) [] :=
  .emit (collectForest_noName (attrIn_onName _ _) f hf)

theorem Fld.formats : Formats fun n => Fld n [] where
  emit := fun hf => .plainF hf
  panic := by intro g f g' e; simp [panicN] at e
  thenN := fun hm hn => (Fld.thenN hm hn).congr rfl
  elem := fun hn hm => .elem (fun e => hn (by rw [e]; decide)) hm
  mark := fun name hn m => by
    intro g f g' e
    simp only [Mark.nodes, withHistoryN, emitN, Option.some.injEq, Prod.mk.injEq] at e
    rw [← e.1]
    simp only [revisionNode, collectForest, Node.collect, List.append_nil]
    rw [fieldOwn_other]
    · exact .refl _
    · simp only [List.mem_cons, List.not_mem_nil, or_false] at hn
      rcases hn with rfl | rfl <;> decide
  change := fun a d m hm => by
    intro g f g' e
    exact Fld.elem (by decide) hm _ _ _ e

theorem Fld.ifN {c : Bool} {m : N} (hm : Fld m []) : Fld (Docx.ifN c m) [] := Fld.formats.ifN hm
theorem Fld.history {f : Str → N} {l : List Str} (hf : ∀ i, Fld (f i) l) : Fld (withHistoryN f) l := fun _ => hf _ _
theorem Fld.paraId {f : Str → N} {l : List Str} (hf : ∀ i, Fld (f i) l) : Fld (withParaIdN f) l := fun _ => hf _ _

/-- The field characters of run content. -/
def RunChild.fieldTypes : RunChild → List Str
  | .fieldChar t _ => [t.toStr]
  | _ => []

theorem Fld.runChild (c : RunChild) : Fld c.nodes c.fieldTypes := by
  cases c with
  | fieldChar t d =>
    simp only [RunChild.nodes]
    exact .emit (by cases t <;> cases d <;> rfl)
  | _ =>
    intro g f g' e
    rw [RunChild.collect_nil (attrIn_onName _ _) (by decide) _ (by simp only [RunChild.contentNames]; decide) _ _ _ e]
    exact .refl _

theorem Fld.run (r : Run) : Fld r.nodes (r.children.flatMap RunChild.fieldTypes) := by
  obtain ⟨pr, cs⟩ := r
  have h2 : Fld (eachN RunChild.nodes cs) (cs.flatMap RunChild.fieldTypes) := by
    induction cs with
    | nil => exact .emitNil
    | cons c cs ih => exact (Fld.thenN (Fld.runChild c) ih).congr rfl
  exact .elem (by decide) ((Fld.catCons (pr.formats Fld.formats) (.catCons h2 .catNil)).congr (by simp))

theorem Fld.paragraphN {id : Str} {p : ParagraphProperty} {n : N} {l : List Str} (hn : Fld n l) :
    Fld (paragraphN id p n) l :=
  .elem (by decide) ((Fld.catCons (p.formats Fld.formats) (.catCons hn .catNil)).congr (by simp))
theorem Fld.newParagraphN {p : ParagraphProperty} {n : N} {l : List Str} (hn : Fld n l) :
    Fld (newParagraphN p n) l := .paraId fun _ => .paragraphN hn

theorem Fld.pageField (i : InstrText) : Fld (pageFieldRun i).nodes [] :=
  (Fld.run _).same (Same.field (l := []) (.refl _))

theorem Fld.pageRef (t : TocItem) : Fld (pageRefRun t).nodes [] :=
  (Fld.run _).same (Same.field (l := []) (.refl _))

theorem Fld.tocItemRunsN (t : TocItem) : Fld (tocItemRunsN t) [] := by
  have h6 := Fld.catCons (Fld.run { children := [.text (textOf t.text)] })
    (.catCons (Fld.run { children := [.tab] }) (.catCons (Fld.pageRef t) .catNil))
  unfold Docx.tocItemRunsN
  split
  · exact (Fld.elem (by decide) h6).congr rfl
  · exact h6.congr rfl

theorem Fld.tocItemN (first : Bool) (t : TocItem) :
    Fld (tocItemN first t) (if first then [c!"begin", c!"separate"] else []) := by
  unfold Docx.tocItemN
  apply Fld.newParagraphN
  cases first with
  | true => exact (Fld.catCons (m := Docx.ifN true _) (Fld.run { children := [.fieldChar .begin t.dirty, .instrText (.toc t.instr),
      .fieldChar .separate false] }) (.catCons (Fld.tocItemRunsN t) .catNil)).congr rfl
  | false => exact (Fld.catCons Fld.emitNil (.catCons (Fld.tocItemRunsN t) .catNil)).congr rfl

theorem Fld.tocItemsN : (ts : List TocItem) → ts ≠ [] → ∀ first,
    Fld (tocItemsN first ts) ((if first then [c!"begin", c!"separate"] else []) ++ [c!"end"])
  | [], h, _ => absurd rfl h
  | [t], _, first => (Fld.catCons (Fld.tocItemN first t)
      (.catCons (Fld.newParagraphN (Fld.run fieldEndRun)) .catNil)).congr (by cases first <;> rfl)
  | t :: u :: us, _, first => (Fld.catCons (Fld.tocItemN first t)
      (.catCons (Fld.tocItemsN (u :: us) (by simp) false) .catNil)).congr (by cases first <;> rfl)

theorem Fld.tocEntriesN (ts : List TocItem) (h : ts ≠ []) : Fld (tocEntriesN ts) [] :=
  .elem (by decide) ((Fld.catCons (.plainF (.leaf (by decide)))
    (.catCons (.elem (by decide) ((Fld.tocItemsN ts h true).same (Same.field (l := []) (.refl _)))) .catNil)).congr rfl)

theorem Fld.tocStart (i : InstrToC) (d : Option Mark) : Fld (tocStartChildrenN i d) [c!"begin", c!"separate"] := by
  cases d with
  | none => exact Fld.run _
  | some m =>
    simp only [tocStartChildrenN, Delete.nodes, eachN, DeleteChild.nodes]
    exact .history fun _ => .elem (by decide) ((Fld.thenN (Fld.run _) .emitNil).congr rfl)

theorem Fld.wrapSdt (x : Bool) (a : Option Str) {n : N} {l : List Str} (hn : Fld n l) : Fld (wrapSdt x a n) l := by
  unfold Docx.wrapSdt
  split
  · exact hn
  · exact .elem (by decide) ((Fld.catCons (SdtProperty.formats Fld.formats _)
      (.catCons (.elem (by decide) hn) .catNil)).congr (by simp))

theorem tocPreparedItems_ne {instr : InstrToC} {dirty : Bool} {ph : Option Str} {i : TocItem} {is : List TocItem} :
    tocPreparedItems instr dirty ph (i :: is) ≠ [] := by simp [tocPreparedItems]

/-- What follows a table of contents written from its entries. -/
theorem Fld.afterFirst {bs : List Block} {l : List Str} (h : Fld (nodesAfter .later bs) l) :
    Fld (nodesAfter .first bs) l := by
  cases bs with
  | nil => simpa only [nodesAfter] using h
  | cons b bs =>
    cases b with
    | paragraph p =>
      obtain ⟨id, cs, pr, hn⟩ := p
      simpa only [nodesAfter, Block.nodesAfter] using h
    | table t =>
      have h3 : Fld emptyLineN [] := Fld.newParagraphN (Fld.run _)
      have h2 := Fld.thenN h3 h
      intro g f g' e
      refine (h2.congr (List.nil_append _)) g f g' ?_
      simp only [nodesAfter, Block.nodesAfter, catN, N.thenN, emitN] at e ⊢
      cases e1 : emptyLineN g with
      | none => rw [e1] at e; exact absurd e (by simp)
      | some r =>
        obtain ⟨f1, g1⟩ := r
        rw [e1] at e
        dsimp only at e ⊢
        cases e2 : t.nodes g1 with
        | none => rw [e2] at e; exact absurd e (by simp)
        | some r =>
          obtain ⟨f2, g2⟩ := r
          rw [e2] at e
          dsimp only at e ⊢
          cases e3 : nodesAfter .later bs g2 with
          | none => rw [e3] at e; exact absurd e (by simp)
          | some r =>
            obtain ⟨f3, g3⟩ := r
            rw [e3] at e
            simpa using e

theorem catN2_some {m n : N} {g g' : Gen} {f : List Node} (h : catN [m, n] g = some (f, g')) :
    ∃ f1 g1 f2, m g = some (f1, g1) ∧ n g1 = some (f2, g') ∧ f = f1 ++ f2 := by
  simp only [catN, N.thenN, emitN] at h
  cases e1 : m g with
  | none => rw [e1] at h; exact absurd h (by simp)
  | some r =>
    obtain ⟨f1, g1⟩ := r
    rw [e1] at h
    dsimp only at h
    cases e2 : n g1 with
    | none => rw [e2] at h; exact absurd h (by simp)
    | some r =>
      obtain ⟨f2, g2⟩ := r
      rw [e2] at h
      simp only [Option.some.injEq, Prod.mk.injEq, List.append_nil] at h
      exact ⟨f1, g1, f2, rfl, by rw [e2, h.2], h.1.symm⟩

theorem thenN_some {m n : N} {g g' : Gen} {f : List Node} (h : m.thenN n g = some (f, g')) :
    ∃ f1 g1 f2, m g = some (f1, g1) ∧ n g1 = some (f2, g') ∧ f = f1 ++ f2 := by
  simp only [N.thenN] at h
  cases e1 : m g with
  | none => rw [e1] at h; exact absurd h (by simp)
  | some r =>
    obtain ⟨f1, g1⟩ := r
    rw [e1] at h
    dsimp only at h
    cases e2 : n g1 with
    | none => rw [e2] at h; exact absurd h (by simp)
    | some r =>
      obtain ⟨f2, g2⟩ := r
      rw [e2] at h
      simp only [Option.some.injEq, Prod.mk.injEq] at h
      exact ⟨f1, g1, f2, rfl, by rw [e2, h.2], h.1.symm⟩

/-- The paragraph that follows a field begun before it: the field is ended, then comes the rest. -/
theorem Fld.afterMerging {p : Paragraph} {bs : List Block} {l : List Str}
    (h : Fld (nodesAfter .later (.paragraph p :: bs)) l) :
    Fld (nodesAfter .firstMerging (.paragraph p :: bs)) ([c!"end"] ++ l) := by
  obtain ⟨id, cs, pr, hn⟩ := p
  intro g f g' e
  simp only [nodesAfter, Block.nodesAfter] at e
  obtain ⟨f1, g1, f2, e1, e2, rfl⟩ := thenN_some e
  simp only [Docx.paragraphN] at e1
  obtain ⟨f3, e3, rfl⟩ := elemN_some e1
  obtain ⟨f4, g4, f5, e4, e5, rfl⟩ := catN2_some e3
  obtain ⟨f6, g6, f7, e6, e7, rfl⟩ := catN2_some e5
  have hg : g6 = g4 ∧ collectForest fieldOwn f6 = [c!"end"] := by
    have : fieldEndRun.nodes g4 = some ([.elem c!"w:r" [] [.elem c!"w:rPr" [] [],
      .elem c!"w:fldChar" [(c!"w:fldCharType", c!"end"), (c!"w:dirty", c!"false")] []]], g4) := rfl
    rw [this] at e6
    simp only [Option.some.injEq, Prod.mk.injEq] at e6
    exact ⟨e6.2.symm, by rw [← e6.1]; rfl⟩
  obtain ⟨rfl, hc⟩ := hg
  have hp : collectForest fieldOwn f4 = [] :=
    collectForest_quiet fieldOwn ((attrIn_onName _ _).quiet (by decide)) f4 (pr.quiet _ _ _ e4)
  have h1 := h g ([.elem c!"w:p" [(c!"w14:paraId", id)] (f4 ++ f7)] ++ f2) g' (by
    simp only [nodesAfter, Block.nodesAfter, Docx.paragraphN, N.thenN, elemN, catN, emitN, e4, e7, e2]
    simp)
  have hpn : ∀ cs, fieldOwn c!"w:p" [(c!"w14:paraId", id)] cs = [] := fun cs => attrIn_onName _ _ _ _ _ (by decide)
  simp only [collectForest_append, collect_elem, hpn, hp, hc, List.nil_append, List.append_assoc] at h1 ⊢
  exact Same.append (.refl _) h1

/-- The induction hypotheses hold. -/
theorem fields_along : Along (fun n l => (∀ t, .toc t ∈ l → tableFirst t = false) → Fld n (l.flatMap Item.fieldType))
    (· = .later) where
  later := rfl
  nil := fun _ => .emitNil
  seq := fun hm hn h => (Fld.thenN (hm fun t ht => h t (by simp [ht])) (hn fun t ht => h t (by simp [ht]))).congr
    (by simp)
  runChild := fun c _ => (Fld.runChild c).congr (by cases c <;> rfl)
  run := fun pr cs l hc h => (Fld.elem (by decide)
    (Fld.catCons (pr.formats Fld.formats) (.catCons (hc fun t ht => h t (by simp [ht])) .catNil))).congr
      (by simp [Item.fieldType])
  commentStart := fun i c _ => .silent (by simp only [commentStartNodes, leafN, namesForest, Node.names]; decide)
  commentEnd := fun i _ => .silent (by simp only [commentEndNodes, leafN, List.cons_append, List.nil_append, namesForest, Node.names]; decide)
  bookmarkStart := fun i n _ => .silent (by simp only [bookmarkStartNodes, leafN, namesForest, Node.names]; decide)
  bookmarkEnd := fun i _ => .silent (by simp only [bookmarkEndNodes, leafN, namesForest, Node.names]; decide)
  delete := by
    intro name hn a d cs l hc h
    simp only [Delete.nodes]
    refine .history fun _ => .elem ?_ (hc h)
    simp only [List.mem_cons, List.not_mem_nil, or_false] at hn
    rcases hn with rfl | rfl <;> decide
  insert := by
    intro name hn a d cs l hc h
    simp only [Insert.nodes]
    refine .history fun _ => .elem ?_ (hc h)
    simp only [List.mem_cons, List.not_mem_nil, or_false] at hn
    rcases hn with rfl | rfl <;> decide
  pageNum := fun _ => Fld.pageField _
  numPages := fun _ => Fld.pageField _
  hyperlink := fun link hist cs l hc h => by
    simp only [Hyperlink.nodes]
    exact (Fld.elem (by decide) (hc fun t ht => h t (by simp [ht]))).congr (by simp [Item.fieldType])
  sdt := fun cs pr hn l hc h => by
    simp only [Sdt.nodes]
    exact (Fld.elem (by decide) (Fld.catCons (pr.formats Fld.formats)
      (.catCons (.elem (by decide) (hc fun t ht => h t (by simp [ht]))) .catNil))).congr (by simp [Item.fieldType])
  paragraph := fun id cs pr hn l hc h => by
    simp only [Paragraph.nodes]
    exact (Fld.paragraphN (hc fun t ht => h t (by simp [ht]))).congr (by simp [Item.fieldType])
  table := fun rs grid hn pr l hc h => by
    simp only [Table.nodes]
    exact (Fld.elem (by decide) (Fld.catCons (.plainF pr.plain)
      (.catCons (.plainF (grid_plain _)) (.catCons (hc fun t ht => h t (by simp [ht])) .catNil)))).congr
        (by simp [Item.fieldType])
  row := fun cs hn pr l hc h => by
    simp only [Row.nodes]
    exact .elem (by decide) ((Fld.catCons (pr.formats Fld.formats) (.catCons (hc h) .catNil)).congr (by simp))
  cell := fun cs pr hn l hc h => by
    simp only [Cell.nodes]
    exact (Fld.elem (by decide) (Fld.catCons (.plainF pr.plain) (.catCons (hc fun t ht => h t (by simp [ht]))
      (.catCons (.ifN (Fld.newParagraphN .emitNil)) .catNil)))).congr (by simp [Item.fieldType])
  cellTable := fun only t l hc h => by
    simp only [CellContent.nodes]
    exact (Fld.thenN (hc h) (.ifN (Fld.newParagraphN .emitNil))).congr (by simp)
  toc := by
    intro t a b h1 h2 h
    have ht := h t (by simp)
    replace h1 := h1 fun t ht => h t (by simp [ht])
    replace h2 := h2 .later rfl fun t ht => h t (by simp [ht])
    obtain ⟨instr, items, au, dirty, withoutSdt, alias, placeholder, before, after, delete, property⟩ := t
    refine Fld.congr (l := (a ++ b).flatMap Item.fieldType) ?_ (by simp [Item.fieldType])
    simp only [Toc.nodes]
    apply Fld.wrapSdt
    cases items with
    | nil =>
      have h3 : Fld (withParaIdN fun id => catN [Docx.ifN after.isEmpty (Docx.paragraphN id {} fieldEndRun.nodes),
          nodesAfter .firstMerging after]) ([c!"end"] ++ b.flatMap Item.fieldType) := by
        refine .paraId fun id => ?_
        cases after with
        | nil =>
          have h4 : Fld (Docx.ifN ([] : List Block).isEmpty (Docx.paragraphN id {} fieldEndRun.nodes)) [c!"end"] := by
            have h6 : Fld (Docx.paragraphN id {} fieldEndRun.nodes) [c!"end"] := Fld.paragraphN (Fld.run fieldEndRun)
            simpa only [Docx.ifN, List.isEmpty_nil, if_true] using h6
          have h5 : Fld (nodesAfter .firstMerging []) (b.flatMap Item.fieldType) := by
            simpa only [nodesAfter] using h2
          exact (Fld.catCons h4 (.catCons h5 .catNil)).congr (by rw [List.append_nil])
        | cons x xs =>
          cases x with
          | paragraph p =>
            exact (Fld.catCons (m := Docx.ifN false _) .emitNil (.catCons (Fld.afterMerging h2) .catNil)).congr (by simp)
          | table t => simp [tableFirst] at ht
      refine (Fld.catCons h1 (.catCons (Fld.newParagraphN (Fld.tocStart instr delete))
        (.catCons h3 .catNil))).same ?_
      rw [List.flatMap_append]
      refine Same.append (.refl _) ?_
      rw [List.append_nil, ← List.append_assoc]
      exact Same.append (a := []) (Same.field (l := []) (.refl _)) (.refl _)
    | cons i is =>
      exact (Fld.catCons h1 (.catCons (Fld.tocEntriesN _ tocPreparedItems_ne)
        (.catCons (Fld.afterFirst h2) .catNil))).congr (by simp)
  afterParagraph := fun pos hp id cs pr hn l hc h => by
    subst hp
    simp only [Block.nodesAfter]
    exact (Fld.paragraphN (Fld.catCons .emitNil (.catCons (hc fun t ht => h t (by simp [ht])) .catNil))).congr
      (by simp [Item.fieldType])
  afterTable := fun pos hp t l hc h => by
    subst hp
    simp only [Block.nodesAfter]
    exact (Fld.catCons .emitNil (.catCons (hc h) .catNil)).congr (by simp)

theorem fields_section (s : Section) (l : List Item)
    (hc : (∀ t, .toc t ∈ l → tableFirst t = false) → Fld (eachN SectionChild.nodes s.children) (l.flatMap Item.fieldType))
    (h : ∀ t, .toc t ∈ l → tableFirst t = false) : Fld s.nodes (l.flatMap Item.fieldType) := by
  unfold Section.nodes
  refine .paraId fun i => ?_
  have h2 : Fld (emitN [Node.elem c!"w:p" [(c!"w14:paraId", i)] [.elem c!"w:pPr" [] s.property.base.nodes]]) [] := by
    have hp : PlainF [.elem c!"w:pPr" [] s.property.base.nodes] := .elem (by decide) s.property.base.plain
    exact Fld.elem (by decide) (Fld.plainF hp)
  exact (Fld.catCons (hc h) (.catCons h2 .catNil)).congr (by simp)

/-- The field characters of `word/document.xml`. -/
theorem fields_document (d : Document)
    (h : ∀ t, .toc t ∈ here elsewhereBody (walkDocument d) → tableFirst t = false) :
    Fld d.nodes ((here elsewhereBody (walkDocument d)).flatMap Item.fieldType) := by
  have h1 := Document.alongAt fields_along fields_section d h
  unfold Document.nodes
  exact .elem (by decide) (.elem (by decide) ((Fld.catCons h1
    (.catCons (.plainF d.sectionProperty.base.plain) .catNil)).congr (by simp)))

/-- The field characters of a header or footer part. -/
theorem fields_header {n : Str} (hn : n ≠ c!"w:fldChar") (x : Header) (w : List Place)
    (hw : w.any elsewhere = false) (h : ∀ t, .toc t ∈ here elsewhere (walkHeader w x) → tableFirst t = false) :
    Fld (x.nodes n) ((here elsewhere (walkHeader w x)).flatMap Item.fieldType) :=
  .elem hn (Header.alongAt away_elsewhere fields_along x w hw h)

end Docx
