import Verif.Lemmas.Along
import Verif.Lemmas.Quiet
import Verif.Spec.Collect

/-!
# What is written where, picked out of the element tree

`Gathers own item R`: what `own` picks out of the single elements stands in relation `R` to what `item`
expects of the single items. Then the same holds between a whole part and its walk.
-/

namespace Docx

set_option linter.unusedSectionVars false
set_option linter.unusedSimpArgs false

open Docx.Spec

theorem collectForest_append {α} (own : Str → List (Str × Str) → List Node → List α) (f f' : List Node) :
    collectForest own (f ++ f') = collectForest own f ++ collectForest own f' := by
  induction f with
  | nil => rfl
  | cons x f ih => simp [collectForest, ih]

theorem opn_mem_elem (n : Str) (as : List (Str × Str)) (cs : List Node) :
    Tag.opn n as ∈ (Node.elem n as cs).tags := by simp [Node.tags]

mutual
theorem Node.collect_quiet {α} (own : Str → List (Str × Str) → List Node → List α)
    (h : ∀ n as cs, QuietName n → own n as cs = []) :
    (x : Node) → QuietF [x] → x.collect own = []
  | .text s, _ => rfl
  | .elem n as cs, hq => by
    have h1 : QuietName n := hq n as (by simp [tagsForest, Node.tags])
    have h2 : QuietF cs := fun m bs hm => hq m bs (by simp [tagsForest, Node.tags, hm])
    simp only [Node.collect, h n as cs h1, collectForest_quiet own h cs h2, List.append_nil]
theorem collectForest_quiet {α} (own : Str → List (Str × Str) → List Node → List α)
    (h : ∀ n as cs, QuietName n → own n as cs = []) :
    (f : List Node) → QuietF f → collectForest own f = []
  | [], _ => rfl
  | x :: f, hq => by
    have h1 : QuietF [x] := fun m bs hm => hq m bs (by
      simp only [tagsForest, List.append_nil] at hm; simp [tagsForest, hm])
    have h2 : QuietF f := fun m bs hm => hq m bs (by simp [tagsForest, hm])
    simp only [collectForest, Node.collect_quiet own h x h1, collectForest_quiet own h f h2, List.append_nil]
end

/-- Run content the library itself puts into fields and tables of contents. -/
inductive Generated : RunChild → Prop where
  | text (s : Str) : Generated (.text s)
  | tab : Generated .tab
  | field (t : FieldCharType) (d : Bool) : Generated (.fieldChar t d)
  | page : Generated (.instrText .page)
  | numPages : Generated (.instrText .numPages)
  | toc (i : InstrToC) : Generated (.instrText (.toc i))
  | pageRef (i : InstrPAGEREF) : Generated (.instrText (.pageRef i))
  | deleteToc (i : InstrToC) : Generated (.deleteInstrText (.toc i))

/-- See the module comment. -/
structure Gathers {α} (own : Str → List (Str × Str) → List Node → List α) (item : Item → List α)
    (R : List α → List α → Prop) : Prop where
  nil : R [] []
  append : ∀ {a b c d}, R a b → R c d → R (a ++ c) (b ++ d)
  quiet : ∀ n as cs, QuietName n → own n as cs = []
  run : ∀ r cs, R (item (.run r)) (own c!"w:r" [] cs)
  runGen : ∀ cs, R [] (own c!"w:r" [] cs)
  runChild : ∀ (c : RunChild) g f g', c.nodes g = some (f, g') → R (c.items.flatMap item) (collectForest own f)
  gen : ∀ c, Generated c → ∀ g f g', c.nodes g = some (f, g') → R [] (collectForest own f)
  commentStart : ∀ i c, R (item (.comment i c)) (own c!"w:commentRangeStart" [(c!"w:id", dec i)] [])
  commentEnd : ∀ i, R [] (collectForest own (commentEndNodes i))
  bookmarkStart : ∀ i n, R [] (own c!"w:bookmarkStart" [(c!"w:id", dec i), (c!"w:name", n)] [])
  bookmarkEnd : ∀ i, R [] (own c!"w:bookmarkEnd" [(c!"w:id", dec i)] [])
  hyperlink : ∀ (h : Hyperlink) cs,
    R (item (.hyperlink h)) (own c!"w:hyperlink" (hyperlinkAttrs h.link h.history) cs)
  hyperlinkGen : ∀ k cs, R [] (own c!"w:hyperlink" (hyperlinkAttrs (.anchor k) none) cs)
  sdt : ∀ s cs, R (item (.sdt s)) (own c!"w:sdt" [] cs)
  sdtGen : ∀ cs, R [] (own c!"w:sdt" [] cs)
  sdtContent : ∀ cs, R [] (own c!"w:sdtContent" [] cs)
  paragraph : ∀ (p : Paragraph) cs, R (item (.paragraph p)) (own c!"w:p" [(c!"w14:paraId", p.id)] cs)
  paragraphGen : ∀ i cs, R [] (own c!"w:p" [(c!"w14:paraId", i)] cs)
  table : ∀ t cs, R (item (.table t)) (own c!"w:tbl" [] cs)
  row : ∀ cs, R [] (own c!"w:tr" [] cs)
  cell : ∀ (c : Cell) g cs g', c.nodes g = some ([.elem c!"w:tc" [] cs], g') →
    R (item (.cell c)) (own c!"w:tc" [] cs)
  toc : ∀ t, R (item (.toc t)) []

section
variable {α : Type} {own : Str → List (Str × Str) → List Node → List α} {item : Item → List α}
  {R : List α → List α → Prop} (h : Gathers own item R)
include h

/-- What is picked out of whatever `n` writes is related to `l`. -/
def Col {α} (own : Str → List (Str × Str) → List Node → List α) (R : List α → List α → Prop) (n : N)
    (l : List α) : Prop :=
  ∀ g f g', n g = some (f, g') → R l (collectForest own f)

omit h in
theorem Col.congr {n : N} {l l' : List α} (hc : Col own R n l) (e : l = l') : Col own R n l' := e ▸ hc

omit h in
theorem Col.emit {f : List Node} {l : List α} (hf : R l (collectForest own f)) : Col own R (emitN f) l := by
  intro g f' g' e
  simp only [emitN, Option.some.injEq, Prod.mk.injEq] at e
  rw [← e.1]; exact hf
theorem Col.emitNil : Col own R (emitN []) [] := .emit h.nil
theorem Col.thenN {m n : N} {a b : List α} (hm : Col own R m a) (hn : Col own R n b) :
    Col own R (m.thenN n) (a ++ b) := by
  intro g f g' e
  unfold N.thenN at e
  cases e1 : m g with
  | none => rw [e1] at e; exact absurd e (by simp)
  | some r =>
    obtain ⟨f1, g1⟩ := r
    rw [e1] at e
    dsimp only at e
    cases e2 : n g1 with
    | none => rw [e2] at e; exact absurd e (by simp)
    | some r =>
      obtain ⟨f2, g2⟩ := r
      rw [e2] at e
      simp only [Option.some.injEq, Prod.mk.injEq] at e
      rw [← e.1, collectForest_append]
      exact h.append (hm _ _ _ e1) (hn _ _ _ e2)
theorem Col.catNil : Col own R (catN []) [] := .emit h.nil
theorem Col.catCons {m : N} {l : List N} {a b : List α} (hm : Col own R m a) (hl : Col own R (catN l) b) :
    Col own R (catN (m :: l)) (a ++ b) := .thenN h hm hl
theorem Col.elem {n : Str} {as : List (Str × Str)} {m : N} {a b : List α} (ho : ∀ cs, R a (own n as cs))
    (hm : Col own R m b) : Col own R (elemN n as m) (a ++ b) := by
  intro g f g' e
  unfold elemN at e
  cases e1 : m g with
  | none => rw [e1] at e; exact absurd e (by simp)
  | some r =>
    obtain ⟨f1, g1⟩ := r
    rw [e1] at e
    simp only [Option.some.injEq, Prod.mk.injEq] at e
    rw [← e.1]
    simp only [collectForest, Node.collect, List.append_nil]
    exact h.append (ho _) (hm _ _ _ e1)
theorem Col.elemAt {n : Str} {as : List (Str × Str)} {m : N} {a b : List α}
    (ho : ∀ g f g', m g = some (f, g') → R a (own n as f))
    (hm : Col own R m b) : Col own R (elemN n as m) (a ++ b) := by
  intro g f g' e
  unfold elemN at e
  cases e1 : m g with
  | none => rw [e1] at e; exact absurd e (by simp)
  | some r =>
    obtain ⟨f1, g1⟩ := r
    rw [e1] at e
    simp only [Option.some.injEq, Prod.mk.injEq] at e
    rw [← e.1]
    simp only [collectForest, Node.collect, List.append_nil]
    exact h.append (ho _ _ _ e1) (hm _ _ _ e1)
theorem Col.elemQuiet {n : Str} {as : List (Str × Str)} {m : N} {b : List α} (hn : QuietName n)
    (hm : Col own R m b) : Col own R (elemN n as m) b :=
  (Col.elem h (a := []) (fun cs => by rw [h.quiet n as cs hn]; exact h.nil) hm).congr (List.nil_append _)
theorem Col.elemGen {n : Str} {as : List (Str × Str)} {m : N} {b : List α} (hn : ∀ cs, R [] (own n as cs))
    (hm : Col own R m b) : Col own R (elemN n as m) b :=
  (Col.elem h (a := []) hn hm).congr (List.nil_append _)
theorem Col.quiet {n : N} (hn : QuietN n) : Col own R n [] := by
  intro g f g' e
  rw [collectForest_quiet own h.quiet f (hn _ _ _ e)]
  exact h.nil
theorem Col.quietF {f : List Node} (hf : QuietF f) : Col own R (emitN f) [] := .quiet h (.emit hf)
theorem Col.ifN {c : Bool} {m : N} (hm : Col own R m []) : Col own R (Docx.ifN c m) [] := by
  cases c
  · exact .emitNil h
  · exact hm
omit h in
theorem Col.history {f : Str → N} {l : List α} (hf : ∀ i, Col own R (f i) l) : Col own R (withHistoryN f) l :=
  fun _ => hf _ _
omit h in
theorem Col.paraId {f : Str → N} {l : List α} (hf : ∀ i, Col own R (f i) l) : Col own R (withParaIdN f) l :=
  fun _ => hf _ _

theorem Col.genRun (r : Run) (hr : ∀ c ∈ r.children, Generated c) : Col own R r.nodes [] := by
  obtain ⟨pr, cs⟩ := r
  replace hr : ∀ c ∈ cs, Generated c := hr
  have h2 : Col own R (eachN RunChild.nodes cs) [] := by
    induction cs with
    | nil => exact .emitNil h
    | cons c cs ih =>
      exact (Col.thenN h (h.gen c (hr c (by simp))) (ih fun c hc => hr c (by simp [hc]))).congr rfl
  simp only [Run.nodes]
  exact .elemGen h h.runGen ((Col.catCons h (.quiet h pr.quiet) (.catCons h h2 (.catNil h))).congr rfl)

theorem Col.pageField (i : InstrText) (hi : i = .page ∨ i = .numPages) : Col own R (pageFieldRun i).nodes [] := by
  apply Col.genRun h
  intro c hc
  simp only [pageFieldRun, List.mem_cons, List.not_mem_nil, or_false] at hc
  rcases hc with rfl | rfl | rfl | rfl | rfl
  · exact .field _ _
  · rcases hi with rfl | rfl
    · exact .page
    · exact .numPages
  · exact .field _ _
  · exact .text _
  · exact .field _ _

theorem Col.tocRun (cs : List RunChild)
    (hc : ∀ c ∈ cs, (∃ t d, c = .fieldChar t d) ∨ (∃ i, c = .instrText (.toc i)) ∨
      (∃ i, c = .deleteInstrText (.toc i)) ∨ (∃ i, c = .instrText (.pageRef i)) ∨ (∃ s, c = .text s) ∨ c = .tab) :
    Col own R (Run.nodes { children := cs }) [] := by
  apply Col.genRun h
  intro c hm
  rcases hc c hm with ⟨t, d, rfl⟩ | ⟨i, rfl⟩ | ⟨i, rfl⟩ | ⟨i, rfl⟩ | ⟨i, rfl⟩ | rfl
  · exact .field _ _
  · exact .toc _
  · exact .deleteToc _
  · exact .pageRef _
  · exact .text _
  · exact .tab

theorem Col.paragraphN {id : Str} {p : ParagraphProperty} {n : N} {l : List α}
    (hn : Col own R n l) : Col own R (paragraphN id p n) l :=
  .elemGen h (h.paragraphGen id)
    ((Col.catCons h (.quiet h p.quiet) (.catCons h hn (.catNil h))).congr (by simp))
theorem Col.newParagraphN {p : ParagraphProperty} {n : N} {l : List α}
    (hn : Col own R n l) : Col own R (newParagraphN p n) l :=
  .paraId fun _ => Col.paragraphN h hn

theorem Col.tocItemN (first : Bool) (t : TocItem) : Col own R (tocItemN first t) [] := by
  unfold Docx.tocItemN
  apply Col.newParagraphN h
  have h1 : Col own R (Run.nodes { children := [.text (textOf t.text)] }) [] := Col.tocRun h _ (by simp)
  have h2 : Col own R (Run.nodes { children := [.tab] }) [] := Col.tocRun h _ (by simp)
  have h3 : Col own R (pageRefRun t).nodes [] := Col.tocRun h _ (by simp)
  have h4 : Col own R (Run.nodes { children := [.fieldChar .begin t.dirty, .instrText (.toc t.instr),
          .fieldChar .separate false] }) [] := Col.tocRun h _ (by cases t.dirty <;> simp)
  have h5 : Col own R (tocItemRunsN t) [] := by
    unfold tocItemRunsN
    have h6 := Col.catCons h h1 (.catCons h h2 (.catCons h h3 (.catNil h)))
    split
    · exact (Col.elemGen h (h.hyperlinkGen _) h6).congr rfl
    · exact h6.congr rfl
  exact (Col.catCons h (.ifN h h4) (.catCons h h5 (.catNil h))).congr rfl

theorem Col.tocEndN (t : TocItem) : Col own R (tocEndN t) [] := by
  unfold Docx.tocEndN
  exact Col.newParagraphN h (Col.tocRun h _ (by simp))

theorem Col.tocItemsN (ts : List TocItem) : ∀ first, Col own R (tocItemsN first ts) [] := by
  induction ts with
  | nil => intro first; exact .emitNil h
  | cons t ts ih =>
    intro first
    have h1 := Col.tocItemN h first t
    have h2 := Col.tocEndN h t
    cases ts with
    | nil => exact (Col.catCons h h1 (.catCons h h2 (.catNil h))).congr rfl
    | cons u us => exact (Col.catCons h h1 (.catCons h (ih false) (.catNil h))).congr rfl

theorem Col.tocEntriesN (ts : List TocItem) : Col own R (tocEntriesN ts) [] := by
  unfold Docx.tocEntriesN
  refine .elemGen h h.sdtGen ((Col.catCons h (.quietF h (.leaf (by decide)))
    (.catCons h (.elemGen h h.sdtContent (Col.tocItemsN h ts true)) (.catNil h))).congr rfl)

theorem Col.tocStart (i : InstrToC) (d : Option Mark) : Col own R (tocStartChildrenN i d) [] := by
  cases d with
  | none => exact Col.tocRun h _ (by simp)
  | some m =>
    have h1 : Col own R (Run.nodes { children := [.fieldChar .begin true, .deleteInstrText (.toc i),
          .fieldChar .separate false] }) [] := Col.tocRun h _ (by simp)
    simp only [tocStartChildrenN, Delete.nodes, eachN, DeleteChild.nodes]
    exact .history fun _ => .elemQuiet h (by decide) ((Col.thenN h h1 (.emitNil h)).congr rfl)

theorem Col.emptyLine : Col own R emptyLineN [] := Col.newParagraphN h (Col.tocRun h _ (by simp))
theorem Col.fieldEnd : Col own R fieldEndRun.nodes [] := Col.tocRun h _ (by simp)
theorem Col.wrapSdt (x : Bool) (a : Option Str) {n : N} {l : List α} (hn : Col own R n l) :
    Col own R (wrapSdt x a n) l := by
  unfold Docx.wrapSdt
  split
  · exact hn
  · exact .elemGen h h.sdtGen ((Col.catCons h (.quiet h (SdtProperty.quiet _))
      (.catCons h (.elemGen h h.sdtContent hn) (.catNil h))).congr (by simp))

/-- The induction hypotheses hold. -/
theorem Gathers.along : Along fun n l => Col own R n (l.flatMap item) where
  later := trivial
  nil := .emitNil h
  seq := fun hm hn => (Col.thenN h hm hn).congr (by simp)
  runChild := h.runChild
  run := fun pr cs l hc => (Col.elem h (h.run ⟨pr, cs⟩)
    (Col.catCons h (.quiet h pr.quiet) (.catCons h hc (.catNil h)))).congr (by simp)
  commentStart := fun i c => .emit (by
    simpa [commentStartNodes, leafN, collectForest, Node.collect] using h.commentStart i c)
  commentEnd := fun i => .emit (h.commentEnd i)
  bookmarkStart := fun i n => .emit (by
    simpa [bookmarkStartNodes, leafN, collectForest, Node.collect] using h.bookmarkStart i n)
  bookmarkEnd := fun i => .emit (by
    simpa [bookmarkEndNodes, leafN, collectForest, Node.collect] using h.bookmarkEnd i)
  delete := by
    intro name hn a d cs l hc
    simp only [Delete.nodes]
    refine .history fun _ => .elemQuiet h ?_ hc
    simp only [List.mem_cons, List.not_mem_nil, or_false] at hn
    rcases hn with rfl | rfl <;> decide
  insert := by
    intro name hn a d cs l hc
    simp only [Insert.nodes]
    refine .history fun _ => .elemQuiet h ?_ hc
    simp only [List.mem_cons, List.not_mem_nil, or_false] at hn
    rcases hn with rfl | rfl <;> decide
  pageNum := Col.pageField h _ (.inl rfl)
  numPages := Col.pageField h _ (.inr rfl)
  hyperlink := fun link hist cs l hc => by
    simp only [Hyperlink.nodes]
    exact (Col.elem h (h.hyperlink ⟨link, hist, cs⟩) hc).congr (by simp)
  sdt := fun cs pr hn l hc => by
    simp only [Sdt.nodes]
    exact (Col.elem h (h.sdt ⟨cs, pr, hn⟩) (Col.catCons h (.quiet h pr.quiet)
      (.catCons h (.elemGen h h.sdtContent hc) (.catNil h)))).congr (by simp)
  paragraph := fun id cs pr hn l hc => by
    simp only [Paragraph.nodes, Docx.paragraphN]
    exact (Col.elem h (h.paragraph ⟨id, cs, pr, hn⟩) (Col.catCons h (.quiet h pr.quiet)
      (.catCons h hc (.catNil h)))).congr (by simp)
  table := fun rs grid hn pr l hc => by
    simp only [Table.nodes]
    exact (Col.elem h (h.table ⟨rs, grid, hn, pr⟩) (Col.catCons h (.quietF h pr.quiet)
      (.catCons h (.quietF h (grid_quiet _)) (.catCons h hc (.catNil h))))).congr (by simp)
  row := fun cs hn pr l hc => by
    simp only [Row.nodes]
    exact .elemGen h h.row ((Col.catCons h (.quiet h pr.quiet) (.catCons h hc (.catNil h))).congr (by simp))
  cell := fun cs pr hn l hc => by
    simp only [Cell.nodes]
    exact (Col.elemAt h (fun g f g' e => h.cell ⟨cs, pr, hn⟩ g f g' (by simp only [Cell.nodes, elemN, e])) (Col.catCons h (.quietF h pr.quiet) (.catCons h hc
      (.catCons h (.ifN h (Col.newParagraphN h (.emitNil h))) (.catNil h))))).congr (by simp)
  cellTable := fun only t l hc => by
    simp only [CellContent.nodes]
    exact (Col.thenN h hc (.ifN h (Col.newParagraphN h (.emitNil h)))).congr (by simp)
  toc := by
    intro t a b h1 h2
    obtain ⟨instr, items, au, dirty, withoutSdt, alias, placeholder, before, after, delete, property⟩ := t
    intro g f g' e
    have hx : Col own R (Toc.nodes ⟨instr, items, au, dirty, withoutSdt, alias, placeholder, before, after, delete, property⟩)
        ((a ++ b).flatMap item) := by
      simp only [Toc.nodes]
      apply Col.wrapSdt h
      cases items with
      | nil =>
        exact (Col.catCons h h1 (.catCons h (Col.newParagraphN h (Col.tocStart h instr delete))
          (.catCons h (.paraId fun i => (Col.catCons h (.ifN h (Col.paragraphN h (Col.fieldEnd h)))
            (.catCons h (h2 .firstMerging trivial) (.catNil h)))) (.catNil h)))).congr (by simp)
      | cons i is =>
        exact (Col.catCons h h1 (.catCons h (Col.tocEntriesN h _) (.catCons h (h2 .first trivial) (.catNil h)))).congr
          (by simp)
    have := h.append (h.toc ⟨instr, items, au, dirty, withoutSdt, alias, placeholder, before, after, delete, property⟩)
      (hx g f g' e)
    simpa using this
  afterParagraph := fun pos _ id cs pr hn l hc => by
    have h2 : Col own R (match pos with | .firstMerging => fieldEndRun.nodes | _ => emitN []) [] := by
      cases pos
      · exact Col.fieldEnd h
      · exact .emitNil h
      · exact .emitNil h
    simp only [Block.nodesAfter, Docx.paragraphN]
    exact (Col.elem h (h.paragraph ⟨id, cs, pr, hn⟩) (Col.catCons h (.quiet h pr.quiet)
      (.catCons h (.catCons h h2 (.catCons h hc (.catNil h))) (.catNil h)))).congr (by simp)
  afterTable := fun pos _ t l hc => by
    have h2 : Col own R (match pos with | .later => emitN [] | _ => emptyLineN) [] := by
      cases pos
      · exact Col.emptyLine h
      · exact Col.emptyLine h
      · exact .emitNil h
    simp only [Block.nodesAfter]
    exact (Col.catCons h h2 (.catCons h hc (.catNil h))).congr (by simp)

theorem Gathers.section (s : Section) (l : List Item)
    (hc : Col own R (eachN SectionChild.nodes s.children) (l.flatMap item)) :
    Col own R s.nodes (l.flatMap item) := by
  unfold Section.nodes
  refine .paraId fun i => ?_
  have h2 : Col own R (emitN [Node.elem c!"w:p" [(c!"w14:paraId", i)] [.elem c!"w:pPr" [] s.property.base.nodes]]) [] :=
    .emit (by
      have hq := collectForest_quiet own h.quiet [.elem c!"w:pPr" [] s.property.base.nodes]
        (.elem (by decide) s.property.base.quiet)
      simp only [collectForest, Node.collect, List.append_nil] at hq ⊢
      rw [hq, List.append_nil]
      exact h.paragraphGen _ _)
  exact (Col.catCons h hc (.catCons h h2 (.catNil h))).congr (by simp)

/-- What is picked out of `word/document.xml`. -/
theorem Gathers.document (d : Document) :
    Col own R d.nodes ((here elsewhereBody (walkDocument d)).flatMap item) := by
  have h1 := Document.alongAt h.along (fun s l => h.section s l) d
  unfold Document.nodes
  exact .elemQuiet h (by decide) (.elemQuiet h (by decide) ((Col.catCons h h1
    (.catCons h (.quietF h d.sectionProperty.base.quiet) (.catNil h))).congr (by simp)))

/-- What is picked out of a header or footer part. -/
theorem Gathers.header {n : Str} (hn : QuietName n) (x : Header) (w : List Place) (hw : w.any elsewhere = false) :
    Col own R (x.nodes n) ((here elsewhere (walkHeader w x)).flatMap item) :=
  .elemQuiet h hn (Header.alongAt away_elsewhere h.along x w hw)

/-- What is picked out of one comment. -/
theorem Gathers.comment (c : Comment) (l : List α) (hc : ∀ cs, R l (own c!"w:comment" [(c!"w:id", dec c.id), (c!"w:author", c.author), (c!"w:date", c.date),
        (c!"w:initials", [])] cs)) (w : List Place) (hw : w.any elsewhere = false) :
    Col own R c.nodes (l ++ (here elsewhere (walkComment w c)).flatMap item) :=
  .elem h hc (Comment.alongAt h.along c w hw)

omit h in
theorem Col.each {β} {f : β → N} {k : β → List α} (hnil : R [] [])
    (happ : ∀ {a b c d}, R a b → R c d → R (a ++ c) (b ++ d)) (xs : List β)
    (hf : ∀ x ∈ xs, Col own R (f x) (k x)) : Col own R (eachN f xs) (xs.flatMap k) := by
  induction xs with
  | nil => exact .emit hnil
  | cons x xs ih =>
    intro g f' g' e
    simp only [eachN, N.thenN] at e
    split at e
    · exact absurd e (by simp)
    · rename_i f1 g1 e1
      split at e
      · exact absurd e (by simp)
      · rename_i f2 g2 e2
        simp only [Option.some.injEq, Prod.mk.injEq] at e
        rw [← e.1, collectForest_append, List.flatMap_cons]
        exact happ (hf x (by simp) _ _ _ e1) (ih (fun y hy => hf y (by simp [hy])) _ _ _ e2)

/-- What is picked out of the comments part. -/
theorem Gathers.commentsWith (k : Comment → List α) (hc : ∀ c : Comment, ∀ cs,
      R (k c) (own c!"w:comment" [(c!"w:id", dec c.id), (c!"w:author", c.author), (c!"w:date", c.date),
        (c!"w:initials", [])] cs)) (cs : List Comment) :
    Col own R (commentsN cs)
      (cs.flatMap fun c => k c ++ (here elsewhere (walkComment [.comments] c)).flatMap item) :=
  .elemQuiet h (by decide) (Col.each h.nil h.append cs fun c _ => h.comment c (k c) (hc c) _ (by simp [elsewhere]))

omit h in
theorem here_flatMap {β} (away : Place → Bool) (k : β → Walk) (l : List β) :
    here away (l.flatMap k) = l.flatMap fun x => here away (k x) := by
  induction l with
  | nil => rfl
  | cons x l ih => simp [here_append, ih]

/-- What is picked out of the comments part. -/
theorem Gathers.comments (hc : ∀ as cs, R [] (own c!"w:comment" as cs)) (cs : List Comment) :
    Col own R (commentsN cs) ((here elsewhere (cs.flatMap (walkComment [.comments]))).flatMap item) :=
  (h.commentsWith (fun _ => []) (fun _ cs => hc _ cs) cs).congr (by
    simp only [List.nil_append, here_flatMap]
    induction cs with
    | nil => rfl
    | cons x l ih => simp [ih])

/-- What is picked out of the footnotes part. -/
theorem Gathers.footnotesWith (k : Footnote → List α)
    (hc : ∀ f : Footnote, ∀ cs, R (k f) (own c!"w:footnote" [(c!"w:id", dec f.id)] cs)) (fs : List Footnote) :
    Col own R (footnotesN fs)
      (fs.flatMap fun f => k f ++ (here elsewhere (walkParagraphs [.footnotes] f.content)).flatMap item) := by
  refine .elemQuiet h (by decide) (Col.each h.nil h.append fs fun f _ => ?_)
  exact .elem h (hc f) ((Col.catCons h
    (Footnote.alongAt h.along f.content [.footnotes] (by simp [elsewhere]))
    (.catCons h (.ifN h (Col.newParagraphN h (.emitNil h))) (.catNil h))).congr (by simp))

/-- What is picked out of the footnotes part. -/
theorem Gathers.footnotes (hc : ∀ as cs, R [] (own c!"w:footnote" as cs)) (fs : List Footnote) :
    Col own R (footnotesN fs)
      ((here elsewhere (fs.flatMap fun f => walkParagraphs [.footnotes] f.content)).flatMap item) :=
  (h.footnotesWith (fun _ => []) (fun _ cs => hc _ cs) fs).congr (by
    simp only [List.nil_append, here_flatMap]
    induction fs with
    | nil => rfl
    | cons x l ih => simp [ih])
end

end Docx
