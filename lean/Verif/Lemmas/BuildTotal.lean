import Verif.Lemmas.Build
import Verif.Lemmas.DocTree
import Verif.Spec.Writable

/-!
# When a part can be written

`Total n b`: the tree writer `n` succeeds, whatever the generators hold, exactly when `b` is true.
-/

namespace Docx

set_option linter.unusedSectionVars false
set_option linter.unusedSimpArgs false

open Docx.Spec

/-- `n` succeeds iff `b`. -/
def Total (n : N) (b : Bool) : Prop := ∀ g, (n g).isSome = b

theorem Total.congr {n : N} {b c : Bool} (h : Total n b) (e : b = c) : Total n c := e ▸ h

theorem Total.emitN (ns : List Node) : Total (Docx.emitN ns) true := fun _ => rfl
theorem Total.panicN : Total Docx.panicN false := fun _ => rfl
theorem Total.thenN {m n : N} {a b : Bool} (hm : Total m a) (hn : Total n b) :
    Total (m.thenN n) (a && b) := by
  intro g
  have h := hm g
  simp only [N.thenN]
  cases e : m g with
  | none => rw [e] at h; simp_all
  | some r =>
    rw [e] at h
    obtain ⟨f, g'⟩ := r
    have h' := hn g'
    dsimp only
    cases e' : n g' with
    | none => rw [e'] at h'; simp_all
    | some r => rw [e'] at h'; simp_all
theorem Total.catNil : Total (catN []) true := fun _ => rfl
theorem Total.catCons {m : N} {l : List N} {a b : Bool} (hm : Total m a) (hl : Total (catN l) b) :
    Total (catN (m :: l)) (a && b) := Total.thenN hm hl
theorem Total.elemN {n : Str} {as : List (Str × Str)} {m : N} {a : Bool} (h : Total m a) :
    Total (Docx.elemN n as m) a := by
  intro g
  have h := h g
  simp only [Docx.elemN]
  cases e : m g with
  | none => rw [e] at h; simpa using h
  | some r => rw [e] at h; simpa using h
theorem Total.ifN {c : Bool} {m : N} (h : Total m true) : Total (Docx.ifN c m) true := by
  cases c
  · exact Total.emitN []
  · exact h
theorem Total.optNB {α} {o : Option α} {f : α → N} (h : ∀ a, Total (f a) true) :
    Total (Docx.optNB o f) true := by
  cases o
  · exact Total.emitN []
  · exact h _
theorem Total.eachNil {α} {f : α → N} : Total (eachN f []) true := fun _ => rfl
theorem Total.history {f : Str → N} {a : Bool} (h : ∀ i, Total (f i) a) : Total (withHistoryN f) a :=
  fun _ => h _ _
theorem Total.change {f : Str → N} {a : Bool} (h : ∀ i, Total (f i) a) : Total (withChangeN f) a :=
  fun _ => h _ _
theorem Total.paraId {f : Str → N} {a : Bool} (h : ∀ i, Total (f i) a) : Total (withParaIdN f) a :=
  fun _ => h _ _

/-- Apply the composition rules. -/
macro "total" : tactic => `(tactic| repeat' first
  | assumption
  | with_reducible apply Total.emitN | with_reducible apply Total.panicN
  | with_reducible apply Total.catNil | with_reducible apply Total.catCons
  | with_reducible apply Total.elemN | with_reducible apply Total.ifN | with_reducible apply Total.thenN
  | (with_reducible apply Total.optNB; intro _) | (with_reducible apply Total.history; intro _)
  | (with_reducible apply Total.change; intro _) | (with_reducible apply Total.paraId; intro _))

theorem Mark.total (n : Str) (m : Mark) : Total (m.nodes n) true := by
  unfold Mark.nodes; total

theorem RunProperty.total (p : RunProperty) : Total p.nodes true := by
  unfold RunProperty.nodes
  refine Total.congr (by total <;> apply Mark.total) (by simp)

theorem ParagraphBase.totalBefore (p : ParagraphBase) : Total p.nodesBefore true := by
  unfold ParagraphBase.nodesBefore
  have := p.runProperty.total
  exact Total.congr (by total) (by simp)

mutual
theorem ParagraphProperty.total : (p : ParagraphProperty) → Total p.nodes true
  | ⟨base, change⟩ => by
    have h1 := base.totalBefore
    have h2 := nodesChange_total change
    simp only [ParagraphProperty.nodes]
    exact Total.congr (by total) (by simp)
theorem nodesChange_total : (c : Option ParagraphPropertyChange) → Total (nodesChange c) true
  | none => by simp only [nodesChange]; total
  | some c => by have := ParagraphPropertyChange.total c; simpa only [nodesChange]
theorem ParagraphPropertyChange.total : (c : ParagraphPropertyChange) → Total c.nodes true
  | ⟨author, date, property⟩ => by
    have := ParagraphProperty.total property
    simp only [ParagraphPropertyChange.nodes]
    total
end

theorem TableRowProperty.total (p : TableRowProperty) : Total p.nodes true := by
  unfold TableRowProperty.nodes
  exact Total.congr (by total <;> apply Mark.total) (by simp)

theorem SdtProperty.total (p : SdtProperty) : Total p.nodes true := by
  unfold SdtProperty.nodes
  have := p.runProperty.total
  exact Total.congr (by total) (by simp)

/-- Not a problem where it stands: written elsewhere, or writable. -/
def okIn (away : Place → Bool) (x : List Place × Item) : Bool := x.1.any away || !x.2.unwritable

theorem okIn_under (away : Place → Bool) {w : List Place} {l : Walk} (h : Under w l)
    (hw : w.any away = true) : l.all (okIn away) = true := by
  rw [List.all_eq_true]
  intro x hx
  have hs := h x hx
  simp only [okIn, Bool.or_eq_true]
  left
  rw [List.any_eq_true] at hw ⊢
  obtain ⟨p, hp, hq⟩ := hw
  exact ⟨p, hs.subset hp, hq⟩

/-- What the traversal may assume about `away`: comments, footnotes and text boxes go elsewhere. -/
structure Away (away : Place → Bool) : Prop where
  comment : away .comment = true
  footnote : away .footnote = true
  textBox : away .textBox = true
  run : away .run = false
  insert : away .insert = false
  delete : away .delete = false
  moveFrom : away .moveFrom = false
  moveTo : away .moveTo = false
  hyperlink : away .hyperlink = false
  paragraph : away .paragraph = false
  sdt : away .sdt = false
  cell : away .cell = false
  tocBefore : away .tocBefore = false
  tocAfter : away .tocAfter = false

theorem InstrText.total (i : InstrText) :
    Total i.nodes (match i with | .hyperlink _ => false | _ => true) := by
  cases i <;> simp only [InstrText.nodes] <;> exact Total.congr (by total) (by simp)

theorem DeleteInstrText.total (i : DeleteInstrText) :
    Total i.nodes (match i with | .hyperlink _ => false | _ => true) := by
  cases i <;> simp only [DeleteInstrText.nodes] <;> exact Total.congr (by total) (by simp)

section
variable {away : Place → Bool} (ha : Away away)
include ha

theorem RunChild.total (c : RunChild) (w : List Place) (hw : w.any away = false) :
    Total c.nodes ((walkRunChild w c).all (okIn away)) := by
  cases c with
  | instrText i =>
    simp only [RunChild.nodes, walkRunChild]
    refine Total.congr i.total ?_
    cases i <;> simp [okIn, Item.unwritable, hw]
  | deleteInstrText i =>
    simp only [RunChild.nodes, walkRunChild]
    refine Total.congr i.total ?_
    cases i <;> simp [okIn, Item.unwritable, hw]
  | textBox bs => simp only [RunChild.nodes, walkRunChild]; exact Total.congr (by total) (by simp [okIn, Item.unwritable, hw])
  | emptyDrawing => simp only [RunChild.nodes, walkRunChild]; exact Total.congr (by total) (by simp [okIn, Item.unwritable, hw])
  | shape s => simp only [RunChild.nodes, walkRunChild]; exact Total.congr (by total) (by simp [okIn, Item.unwritable, hw])
  | commentStart i c =>
    simp only [RunChild.nodes, walkRunChild]
    refine Total.congr (by total) ?_
    have := okIn_under away (walkComment_under c (.comment :: w)) (by simp [ha.comment])
    simp only [List.all_cons, this]
    simp [okIn, Item.unwritable]
  | footnoteReference i s ps =>
    simp only [RunChild.nodes, walkRunChild]
    refine Total.congr (by total) ?_
    have := okIn_under away (walkParagraphs_under ps (.footnote :: w)) (by simp [ha.footnote])
    simp only [List.all_cons, this]
    simp [okIn, Item.unwritable]
  | _ =>
    simp only [RunChild.nodes, walkRunChild]
    refine Total.congr (by total) ?_
    simp [okIn, Item.unwritable]

theorem RunChildren.total (cs : List RunChild) (w : List Place) (hw : w.any away = false) :
    Total (eachN RunChild.nodes cs) ((walkRunChildren w cs).all (okIn away)) := by
  induction cs with
  | nil => simp only [walkRunChildren]; exact Total.eachNil
  | cons c cs ih =>
    simp only [walkRunChildren, List.all_append, eachN]
    exact Total.thenN (RunChild.total ha c w hw) ih

theorem Run.total (r : Run) (w : List Place) (hw : w.any away = false) :
    Total r.nodes ((walkRun w r).all (okIn away)) := by
  obtain ⟨pr, cs⟩ := r
  have h1 := pr.total
  have h2 := RunChildren.total ha cs (.run :: w) (by simp [hw, ha.run])
  simp only [Run.nodes, walkRun]
  refine Total.congr (by total) ?_
  simp [okIn, Item.unwritable]

theorem comment_ok (i : Nat) (c : Comment) (w : List Place) :
    List.all ((w, Item.comment i c) :: walkComment (.comment :: w) c) (okIn away) = true := by
  have := okIn_under away (walkComment_under c (.comment :: w)) (by simp [ha.comment])
  simp only [List.all_cons, this]
  simp [okIn, Item.unwritable]

theorem DeleteChild.total (c : DeleteChild) (w : List Place) (hw : w.any away = false) :
    Total c.nodes ((walkDeleteChild w c).all (okIn away)) := by
  cases c with
  | run r => simpa only [DeleteChild.nodes, walkDeleteChild] using Run.total ha r w hw
  | commentStart i c =>
    simp only [DeleteChild.nodes, walkDeleteChild, comment_ok ha]; total
  | commentEnd i => simp only [DeleteChild.nodes, walkDeleteChild]; exact Total.emitN _

theorem DeleteChildren.total (cs : List DeleteChild) (w : List Place) (hw : w.any away = false) :
    Total (eachN DeleteChild.nodes cs) ((walkDeleteChildren w cs).all (okIn away)) := by
  induction cs with
  | nil => simp only [walkDeleteChildren]; exact Total.eachNil
  | cons c cs ih =>
    simp only [walkDeleteChildren, List.all_append, eachN]
    exact Total.thenN (DeleteChild.total ha c w hw) ih

theorem Delete.total (n : Str) (d : Delete) (w : List Place) (hw : w.any away = false) :
    Total (d.nodes n) ((walkDelete w d).all (okIn away)) := by
  obtain ⟨a, dt, cs⟩ := d
  have := DeleteChildren.total ha cs w hw
  simp only [Delete.nodes, walkDelete]
  total

theorem InsertChild.total (c : InsertChild) (w : List Place) (hw : w.any away = false) :
    Total c.nodes ((walkInsertChild w c).all (okIn away)) := by
  cases c with
  | run r => simpa only [InsertChild.nodes, walkInsertChild] using Run.total ha r w hw
  | delete d =>
    simpa only [InsertChild.nodes, walkInsertChild] using
      Delete.total ha _ d (.delete :: w) (by simp [hw, ha.delete])
  | commentStart i c =>
    simp only [InsertChild.nodes, walkInsertChild, comment_ok ha]; total
  | commentEnd i => simp only [InsertChild.nodes, walkInsertChild]; exact Total.emitN _

theorem InsertChildren.total (cs : List InsertChild) (w : List Place) (hw : w.any away = false) :
    Total (eachN InsertChild.nodes cs) ((walkInsertChildren w cs).all (okIn away)) := by
  induction cs with
  | nil => simp only [walkInsertChildren]; exact Total.eachNil
  | cons c cs ih =>
    simp only [walkInsertChildren, List.all_append, eachN]
    exact Total.thenN (InsertChild.total ha c w hw) ih

theorem Insert.total (n : Str) (d : Insert) (w : List Place) (hw : w.any away = false) :
    Total (d.nodes n) ((walkInsert w d).all (okIn away)) := by
  obtain ⟨a, dt, cs⟩ := d
  have := InsertChildren.total ha cs w hw
  simp only [Insert.nodes, walkInsert]
  total

omit ha in
theorem Run.total_of_children (r : Run) (h : ∀ c ∈ r.children, Total c.nodes true) : Total r.nodes true := by
  obtain ⟨pr, cs⟩ := r
  have h1 := pr.total
  have h2 : Total (eachN RunChild.nodes cs) true := by
    replace h : ∀ c ∈ cs, Total c.nodes true := h
    clear h1
    induction cs with
    | nil => exact Total.eachNil
    | cons c cs ih =>
      exact Total.congr (Total.thenN (h c (by simp)) (ih (fun c hc => h c (by simp [hc])))) (by simp)
  simp only [Run.nodes]
  exact Total.congr (by total) (by simp)

omit ha in
theorem pageFieldRun_total (i : InstrText) (h : Total i.nodes true) : Total (pageFieldRun i).nodes true := by
  apply Run.total_of_children
  intro c hc
  simp only [pageFieldRun, List.mem_cons, List.not_mem_nil, or_false] at hc
  rcases hc with rfl | rfl | rfl | rfl | rfl <;> simp only [RunChild.nodes] <;> first | assumption | total

omit ha in
theorem tocRun_total (cs : List RunChild)
    (h : ∀ c ∈ cs, (∃ t d, c = .fieldChar t d) ∨ (∃ i, c = .instrText (.toc i)) ∨
      (∃ i, c = .deleteInstrText (.toc i)) ∨ (∃ i, c = .instrText (.pageRef i)) ∨ (∃ s, c = .text s) ∨ c = .tab) :
    Total (Run.nodes { children := cs }) true := by
  apply Run.total_of_children
  intro c hc
  rcases h c hc with ⟨t, d, rfl⟩ | ⟨i, rfl⟩ | ⟨i, rfl⟩ | ⟨i, rfl⟩ | ⟨i, rfl⟩ | rfl <;>
    simp only [RunChild.nodes, InstrText.nodes, DeleteInstrText.nodes] <;>
    exact Total.congr (by total) (by simp)

omit ha in
theorem paragraphN_total (id : Str) (p : ParagraphProperty) {n : N} {b : Bool} (h : Total n b) :
    Total (paragraphN id p n) b := by
  have := p.total
  unfold paragraphN
  exact Total.congr (by total) (by simp)

omit ha in
theorem newParagraphN_total (p : ParagraphProperty) {n : N} {b : Bool} (h : Total n b) :
    Total (newParagraphN p n) b := by
  unfold newParagraphN
  exact Total.paraId fun i => paragraphN_total i p h

omit ha in
theorem tocItemN_total (first : Bool) (t : TocItem) : Total (tocItemN first t) true := by
  unfold tocItemN
  apply newParagraphN_total
  have h1 : Total (Run.nodes { children := [.text (textOf t.text)] }) true := tocRun_total _ (by simp)
  have h2 : Total (Run.nodes { children := [.tab] }) true := tocRun_total _ (by simp)
  have h3 : Total (pageRefRun t).nodes true := tocRun_total _ (by simp)
  have h4 : Total (Run.nodes { children := [.fieldChar .begin t.dirty, .instrText (.toc t.instr),
          .fieldChar .separate false] }) true := tocRun_total _ (by cases t.dirty <;> simp)
  have h5 : Total (tocItemRunsN t) true := by
    unfold tocItemRunsN
    split
    · exact Total.congr (by total) (by simp)
    · exact Total.congr (by total) (by simp)
  exact Total.congr (by total) (by simp)

omit ha in
theorem tocEndN_total (t : TocItem) : Total (tocEndN t) true := by
  unfold tocEndN
  exact newParagraphN_total _ (tocRun_total _ (by simp))

omit ha in
theorem tocItemsN_total (ts : List TocItem) : ∀ first, Total (tocItemsN first ts) true := by
  induction ts with
  | nil => intro first; exact Total.emitN _
  | cons t ts ih =>
    intro first
    have h1 := tocItemN_total first t
    have h2 := tocEndN_total t
    cases ts with
    | nil => exact Total.congr (by simp only [tocItemsN]; total) (by simp)
    | cons u us =>
      have h3 := ih false
      exact Total.congr (by simp only [tocItemsN]; total) (by simp)

omit ha in
theorem tocEntriesN_total (ts : List TocItem) : Total (tocEntriesN ts) true := by
  have := tocItemsN_total ts true
  unfold tocEntriesN
  exact Total.congr (by total) (by simp)

omit ha in
theorem tocStartChildrenN_total (i : InstrToC) (d : Option Mark) : Total (tocStartChildrenN i d) true := by
  cases d with
  | none => exact tocRun_total _ (by simp)
  | some m =>
    have h : Total (Run.nodes { children := [.fieldChar .begin true, .deleteInstrText (.toc i),
          .fieldChar .separate false] }) true := tocRun_total _ (by simp)
    simp only [tocStartChildrenN, Delete.nodes, eachN, DeleteChild.nodes]
    exact Total.congr (by total) (by simp)

omit ha in
theorem emptyLineN_total : Total emptyLineN true := newParagraphN_total _ (tocRun_total _ (by simp))

omit ha in
theorem fieldEndRun_total : Total fieldEndRun.nodes true := tocRun_total _ (by simp)

omit ha in
theorem wrapSdt_total (x : Bool) (a : Option Str) {n : N} {b : Bool} (h : Total n b) :
    Total (wrapSdt x a n) b := by
  have := SdtProperty.total { alias := a }
  unfold wrapSdt
  split
  · exact h
  · exact Total.congr (by total) (by simp)

mutual
theorem ParagraphChild.totalAt : (x : ParagraphChild) → (w : List Place) → w.any away = false →
    Total (x.nodes) ((walkParagraphChild w x).all (okIn away))
  | .run r, w, hw => by simpa only [ParagraphChild.nodes, walkParagraphChild] using Run.total ha r w hw
  | .insert i, w, hw => by simpa only [ParagraphChild.nodes, walkParagraphChild] using Insert.total ha _ i (.insert :: w) (by simp [hw, ha.insert])
  | .delete d, w, hw => by simpa only [ParagraphChild.nodes, walkParagraphChild] using Delete.total ha _ d (.delete :: w) (by simp [hw, ha.delete])
  | .moveFrom d, w, hw => by simpa only [ParagraphChild.nodes, walkParagraphChild] using Delete.total ha _ d (.moveFrom :: w) (by simp [hw, ha.moveFrom])
  | .moveTo i, w, hw => by simpa only [ParagraphChild.nodes, walkParagraphChild] using Insert.total ha _ i (.moveTo :: w) (by simp [hw, ha.moveTo])
  | .bookmarkStart id name, w, hw => by simp only [ParagraphChild.nodes, walkParagraphChild]; exact Total.emitN _
  | .hyperlink h, w, hw => by simpa only [ParagraphChild.nodes, walkParagraphChild] using Hyperlink.totalAt h w hw
  | .bookmarkEnd id, w, hw => by simp only [ParagraphChild.nodes, walkParagraphChild]; exact Total.emitN _
  | .commentStart id c, w, hw => by simp only [ParagraphChild.nodes, walkParagraphChild, comment_ok ha]; total
  | .commentEnd id, w, hw => by simp only [ParagraphChild.nodes, walkParagraphChild]; exact Total.emitN _
  | .sdt s, w, hw => by simpa only [ParagraphChild.nodes, walkParagraphChild] using Sdt.totalAt s w hw
  | .pageNum i, w, hw => by
    simp only [ParagraphChild.nodes, walkParagraphChild, List.all_nil]
    exact pageFieldRun_total _ (by simp only [InstrText.nodes]; exact Total.congr (by total) (by simp))
  | .numPages i, w, hw => by
    simp only [ParagraphChild.nodes, walkParagraphChild, List.all_nil]
    exact pageFieldRun_total _ (by simp only [InstrText.nodes]; exact Total.congr (by total) (by simp))
theorem ParagraphChildren.totalAt : (x : List ParagraphChild) → (w : List Place) → w.any away = false →
    Total (nodesParagraphChildren x) ((walkParagraphChildren w x).all (okIn away))
  | [], w, hw => by simp only [nodesParagraphChildren, walkParagraphChildren]; exact Total.emitN _
  | c :: cs, w, hw => by
    simp only [nodesParagraphChildren, walkParagraphChildren, List.all_append]
    exact Total.thenN (ParagraphChild.totalAt c w hw) (ParagraphChildren.totalAt cs w hw)
theorem Hyperlink.totalAt : (x : Hyperlink) → (w : List Place) → w.any away = false →
    Total (x.nodes) ((walkHyperlink w x).all (okIn away))
  | ⟨link, history, children⟩, w, hw => by
    have h1 := ParagraphChildren.totalAt children (.hyperlink :: w) (by simp [hw, ha.hyperlink])
    simp only [Hyperlink.nodes, walkHyperlink]
    exact Total.congr (by total) (by simp [okIn, Item.unwritable])
theorem Sdt.totalAt : (x : Sdt) → (w : List Place) → w.any away = false →
    Total (x.nodes) ((walkSdt w x).all (okIn away))
  | ⟨children, property, hn⟩, w, hw => by
    have h1 := SdtChildren.totalAt children (.sdt :: w) (by simp [hw, ha.sdt])
    have h2 := property.total
    simp only [Sdt.nodes, walkSdt]
    exact Total.congr (by total) (by simp [okIn, Item.unwritable])
theorem SdtChildren.totalAt : (x : List SdtChild) → (w : List Place) → w.any away = false →
    Total (nodesSdtChildren x) ((walkSdtChildren w x).all (okIn away))
  | [], w, hw => by simp only [nodesSdtChildren, walkSdtChildren]; exact Total.emitN _
  | c :: cs, w, hw => by
    simp only [nodesSdtChildren, walkSdtChildren, List.all_append]
    exact Total.thenN (SdtChild.totalAt c w hw) (SdtChildren.totalAt cs w hw)
theorem SdtChild.totalAt : (x : SdtChild) → (w : List Place) → w.any away = false →
    Total (x.nodes) ((walkSdtChild w x).all (okIn away))
  | .run r, w, hw => by simpa only [SdtChild.nodes, walkSdtChild] using Run.total ha r w hw
  | .paragraph p, w, hw => by simpa only [SdtChild.nodes, walkSdtChild] using Paragraph.totalAt p w hw
  | .table t, w, hw => by simpa only [SdtChild.nodes, walkSdtChild] using Table.totalAt t w hw
  | .bookmarkStart id name, w, hw => by simp only [SdtChild.nodes, walkSdtChild]; exact Total.emitN _
  | .bookmarkEnd id, w, hw => by simp only [SdtChild.nodes, walkSdtChild]; exact Total.emitN _
  | .commentStart id c, w, hw => by simp only [SdtChild.nodes, walkSdtChild, comment_ok ha]; total
  | .commentEnd id, w, hw => by simp only [SdtChild.nodes, walkSdtChild]; exact Total.emitN _
  | .sdt s, w, hw => by simpa only [SdtChild.nodes, walkSdtChild] using Sdt.totalAt s w hw
theorem Paragraph.totalAt : (x : Paragraph) → (w : List Place) → w.any away = false →
    Total (x.nodes) ((walkParagraph w x).all (okIn away))
  | ⟨id, children, property, hn⟩, w, hw => by
    have h1 := ParagraphChildren.totalAt children (.paragraph :: w) (by simp [hw, ha.paragraph])
    simp only [Paragraph.nodes, walkParagraph]
    exact Total.congr (paragraphN_total id property h1) (by simp [okIn, Item.unwritable])
theorem Table.totalAt : (x : Table) → (w : List Place) → w.any away = false →
    Total (x.nodes) ((walkTable w x).all (okIn away))
  | ⟨rows, grid, hn, property⟩, w, hw => by
    have h1 := Rows.totalAt rows (w) hw
    simp only [Table.nodes, walkTable]
    exact Total.congr (by total) (by simp [okIn, Item.unwritable])
theorem Rows.totalAt : (x : List Row) → (w : List Place) → w.any away = false →
    Total (nodesRows x) ((walkRows w x).all (okIn away))
  | [], w, hw => by simp only [nodesRows, walkRows]; exact Total.emitN _
  | c :: cs, w, hw => by
    simp only [nodesRows, walkRows, List.all_append]
    exact Total.thenN (Row.totalAt c w hw) (Rows.totalAt cs w hw)
theorem Row.totalAt : (x : Row) → (w : List Place) → w.any away = false →
    Total (x.nodes) ((walkRow w x).all (okIn away))
  | ⟨cells, hn, property⟩, w, hw => by
    have h1 := Cells.totalAt cells (w) hw
    have h2 := property.total
    simp only [Row.nodes, walkRow]
    exact Total.congr (by total) (by simp [okIn, Item.unwritable])
theorem Cells.totalAt : (x : List Cell) → (w : List Place) → w.any away = false →
    Total (nodesCells x) ((walkCells w x).all (okIn away))
  | [], w, hw => by simp only [nodesCells, walkCells]; exact Total.emitN _
  | c :: cs, w, hw => by
    simp only [nodesCells, walkCells, List.all_append]
    exact Total.thenN (Cell.totalAt c w hw) (Cells.totalAt cs w hw)
theorem Cell.totalAt : (x : Cell) → (w : List Place) → w.any away = false →
    Total (x.nodes) ((walkCell w x).all (okIn away))
  | ⟨children, property, hn⟩, w, hw => by
    have h1 := CellContents.totalAt (decide (children.length = 1)) children (.cell :: w) (by simp [hw, ha.cell])
    have h2 : Total (newParagraphN {} (emitN [])) true := newParagraphN_total _ (Total.emitN _)
    simp only [Cell.nodes, walkCell]
    exact Total.congr (by total) (by simp [okIn, Item.unwritable])
theorem CellContents.totalAt (only : Bool) : (x : List CellContent) → (w : List Place) → w.any away = false →
    Total (nodesCellContents only x) ((walkCellContents w x).all (okIn away))
  | [], w, hw => by simp only [nodesCellContents, walkCellContents]; exact Total.emitN _
  | c :: cs, w, hw => by
    simp only [nodesCellContents, walkCellContents, List.all_append]
    exact Total.thenN (CellContent.totalAt only c w hw) (CellContents.totalAt only cs w hw)
theorem CellContent.totalAt (only : Bool) : (x : CellContent) → (w : List Place) → w.any away = false →
    Total (x.nodes only) ((walkCellContent w x).all (okIn away))
  | .paragraph p, w, hw => by simpa only [CellContent.nodes, walkCellContent] using Paragraph.totalAt p w hw
  | .table t, w, hw => by
    have h1 := Table.totalAt t w hw
    have h2 : Total (newParagraphN {} (emitN [])) true := newParagraphN_total _ (Total.emitN _)
    simp only [CellContent.nodes, walkCellContent]
    exact Total.congr (by total) (by simp)
  | .sdt s, w, hw => by simpa only [CellContent.nodes, walkCellContent] using Sdt.totalAt s w hw
  | .toc t, w, hw => by simpa only [CellContent.nodes, walkCellContent] using Toc.totalAt t w hw
theorem Toc.totalAt : (x : Toc) → (w : List Place) → w.any away = false →
    Total (x.nodes) ((walkToc w x).all (okIn away))
  | ⟨instr, items, au, dirty, withoutSdt, alias, placeholder, before, after, delete, property⟩, w, hw => by
    have h1 := Blocks.totalAt before (.tocBefore :: w) (by simp [hw, ha.tocBefore])
    have h2 := fun pos => After.totalAt pos after (.tocAfter :: w) (by simp [hw, ha.tocAfter])
    simp only [Toc.nodes, walkToc, List.all_cons, List.all_append]
    apply wrapSdt_total
    cases items with
    | nil =>
      have h3 := h2 .firstMerging
      have h4 := newParagraphN_total (property.getD {}) (tocStartChildrenN_total instr delete)
      have h5 := fun id => paragraphN_total id {} fieldEndRun_total
      refine Total.congr (by total; apply h5) (by simp [okIn, Item.unwritable])
    | cons i is =>
      have h3 := h2 .first
      have h4 := tocEntriesN_total (tocPreparedItems instr dirty placeholder (i :: is))
      refine Total.congr (by total) (by simp [okIn, Item.unwritable])
theorem Blocks.totalAt : (x : List Block) → (w : List Place) → w.any away = false →
    Total (nodesBlocks x) ((walkBlocks w x).all (okIn away))
  | [], w, hw => by simp only [nodesBlocks, walkBlocks]; exact Total.emitN _
  | c :: cs, w, hw => by
    simp only [nodesBlocks, walkBlocks, List.all_append]
    exact Total.thenN (Block.totalAt c w hw) (Blocks.totalAt cs w hw)
theorem Block.totalAt : (x : Block) → (w : List Place) → w.any away = false →
    Total (x.nodes) ((walkBlock w x).all (okIn away))
  | .paragraph p, w, hw => by simpa only [Block.nodes, walkBlock] using Paragraph.totalAt p w hw
  | .table t, w, hw => by simpa only [Block.nodes, walkBlock] using Table.totalAt t w hw
theorem After.totalAt (pos : TocPosition) : (x : List Block) → (w : List Place) → w.any away = false →
    Total (nodesAfter pos x) ((walkBlocks w x).all (okIn away))
  | [], w, hw => by simp only [nodesAfter, walkBlocks]; exact Total.emitN _
  | c :: cs, w, hw => by
    simp only [nodesAfter, walkBlocks, List.all_append]
    exact Total.thenN (BlockAfter.totalAt pos c w hw) (After.totalAt .later cs w hw)
theorem BlockAfter.totalAt (pos : TocPosition) : (x : Block) → (w : List Place) → w.any away = false →
    Total (x.nodesAfter pos) ((walkBlock w x).all (okIn away))
  | .paragraph ⟨id, children, property, hn⟩, w, hw => by
    have h1 := ParagraphChildren.totalAt children (.paragraph :: w) (by simp [hw, ha.paragraph])
    have h2 := fieldEndRun_total
    simp only [Block.nodesAfter, walkBlock, walkParagraph, List.all_cons]
    refine Total.congr (b := (walkParagraphChildren (.paragraph :: w) children).all (okIn away))
      (paragraphN_total id property ?_) (by simp [okIn, Item.unwritable])
    cases pos <;> exact Total.congr (by total) (by simp)
  | .table t, w, hw => by
    have h1 := Table.totalAt t w hw
    have h2 := emptyLineN_total
    simp only [Block.nodesAfter, walkBlock]
    cases pos <;> exact Total.congr (by total) (by simp)
end

omit ha in
theorem each_total {α} (f : α → N) (l : List α) (k : α → Walk)
    (h : ∀ a ∈ l, Total (f a) ((k a).all (okIn away))) :
    Total (eachN f l) ((l.flatMap k).all (okIn away)) := by
  induction l with
  | nil => exact Total.eachNil
  | cons a l ih =>
    simp only [List.flatMap_cons, List.all_append, eachN]
    exact Total.thenN (h a (by simp)) (ih fun a ha => h a (by simp [ha]))

theorem HeaderChild.total (c : HeaderChild) (w : List Place) (hw : w.any away = false) :
    Total c.nodes ((walkHeaderChild w c).all (okIn away)) := by
  cases c with
  | paragraph p => exact Paragraph.totalAt ha p w hw
  | table t => exact Table.totalAt ha t w hw
  | sdt s => exact Sdt.totalAt ha s w hw

theorem Header.total (n : Str) (h : Header) (w : List Place) (hw : w.any away = false) :
    Total (h.nodes n) ((walkHeader w h).all (okIn away)) := by
  have := each_total HeaderChild.nodes h.children (walkHeaderChild w)
    (fun a _ => HeaderChild.total ha a w hw)
  unfold Header.nodes walkHeader
  total

theorem SectionChild.total (c : SectionChild) (w : List Place) (hw : w.any away = false) :
    Total c.nodes ((walkSectionChild w c).all (okIn away)) := by
  cases c with
  | paragraph p => exact Paragraph.totalAt ha p w hw
  | table t => exact Table.totalAt ha t w hw
  | sdt s => exact Sdt.totalAt ha s w hw
  | toc s => exact Toc.totalAt ha s w hw
  | commentStart i c => simp only [SectionChild.nodes, walkSectionChild, comment_ok ha]; total
  | _ => exact Total.emitN _
end

theorem away_elsewhere : Away elsewhere := by constructor <;> rfl
theorem away_elsewhereBody : Away elsewhereBody := by constructor <;> rfl

theorem sectionProperty_ok (w : List Place) (p : SectionProperty) :
    (walkSectionProperty w p).all (okIn elsewhereBody) = true := by
  unfold walkSectionProperty
  rw [List.all_append, Bool.and_eq_true]
  constructor
  · rw [List.all_eq_true]
    intro x hx
    obtain ⟨h, _, hx⟩ := List.mem_flatMap.1 hx
    exact List.all_eq_true.1 (okIn_under elsewhereBody (walkHeader_under h.2 _) (by simp [elsewhereBody])) x hx
  · rw [List.all_eq_true]
    intro x hx
    obtain ⟨h, _, hx⟩ := List.mem_flatMap.1 hx
    exact List.all_eq_true.1 (okIn_under elsewhereBody (walkHeader_under h.2 _) (by simp [elsewhereBody])) x hx

theorem Section.total (s : Section) (w : List Place) (hw : w.any elsewhereBody = false) :
    Total s.nodes ((walkSection w s).all (okIn elsewhereBody)) := by
  have h1 := each_total SectionChild.nodes s.children (walkSectionChild (.section :: w))
    (fun a _ => SectionChild.total away_elsewhereBody a _ (by simp [hw, elsewhereBody]))
  unfold Section.nodes walkSection
  refine Total.congr (by total) ?_
  simp [sectionProperty_ok]

theorem DocumentChild.total (c : DocumentChild) (w : List Place) (hw : w.any elsewhereBody = false) :
    Total c.nodes ((walkDocumentChild w c).all (okIn elsewhereBody)) := by
  have ha := away_elsewhereBody
  cases c with
  | paragraph p => exact Paragraph.totalAt ha p w hw
  | table t => exact Table.totalAt ha t w hw
  | sdt s => exact Sdt.totalAt ha s w hw
  | toc s => exact Toc.totalAt ha s w hw
  | commentStart i c => simp only [DocumentChild.nodes, walkDocumentChild, comment_ok ha]; total
  | «section» s => exact Section.total s w hw
  | _ => exact Total.emitN _

theorem Document.total (d : Document) :
    Total d.nodes ((walkDocument d).all (okIn elsewhereBody)) := by
  have h1 := each_total DocumentChild.nodes d.children (walkDocumentChild [.document])
    (fun a _ => DocumentChild.total a _ (by simp [elsewhereBody]))
  unfold Document.nodes walkDocument
  refine Total.congr (by total) ?_
  simp [sectionProperty_ok]

theorem Comment.total (c : Comment) (w : List Place) (hw : w.any elsewhere = false) :
    Total c.nodes ((walkComment w c).all (okIn elsewhere)) := by
  obtain ⟨i, a, d, bs, p⟩ := c
  have := Blocks.totalAt away_elsewhere bs w hw
  simp only [Comment.nodes, walkComment]
  total

theorem commentsN_total (cs : List Comment) :
    Total (commentsN cs) ((cs.flatMap (walkComment [.comments])).all (okIn elsewhere)) := by
  have h1 := each_total Comment.nodes cs (walkComment [.comments])
    (fun a _ => Comment.total a _ (by simp [elsewhere]))
  unfold commentsN
  total

theorem eachParagraph_total (ps : List Paragraph) (w : List Place) (hw : w.any elsewhere = false) :
    Total (eachN Paragraph.nodes ps) ((walkParagraphs w ps).all (okIn elsewhere)) := by
  induction ps with
  | nil => simp only [walkParagraphs]; exact Total.eachNil
  | cons p ps ih =>
    simp only [walkParagraphs, List.all_append, eachN]
    exact Total.thenN (Paragraph.totalAt away_elsewhere p w hw) ih

theorem footnotesN_total (fs : List Footnote) :
    Total (footnotesN fs) ((fs.flatMap fun f => walkParagraphs [.footnotes] f.content).all (okIn elsewhere)) := by
  have h1 := each_total (away := elsewhere) Footnote.nodes fs (fun f => walkParagraphs [.footnotes] f.content)
    (fun f _ => by
      have h1 := eachParagraph_total f.content [.footnotes] (by simp [elsewhere])
      have h2 : Total (newParagraphN {} (emitN [])) true := newParagraphN_total _ (Total.emitN _)
      unfold Footnote.nodes
      refine Total.congr (Total.elemN (Total.catCons h1 (Total.catCons (Total.ifN h2) Total.catNil))) (by simp))
  unfold footnotesN
  total

end Docx
