import Verif.Spec.AsRead
import Verif.Lemmas.ReadBooks
import Verif.Lemmas.PicturesAgain

/-!
# Everything read is as a reader makes it
-/

namespace Docx

open Docx.Spec Docx.Xml

/-! ## What a reader gives -/

/-- If the reader gives something, it satisfies `P`. -/
def Gives {α : Type} (P : α → Prop) (r : Read α) : Prop := ∀ a es, r = .ok a es → P a

theorem Gives.ok {α : Type} {P : α → Prop} {a : α} {es : List REvent} (h : P a) : Gives P (.ok a es) := by
  intro b es' e
  cases e
  exact h

theorem Gives.any {α : Type} {r : Read α} : Gives (fun _ => True) r := fun _ _ _ => trivial

theorem Gives.panic {α : Type} {P : α → Prop} : Gives P (.panic : Read α) := fun _ _ h => (by cases h)

theorem Gives.running {α : Type} {P : α → Prop} : Gives P (.running : Read α) := fun _ _ h => (by cases h)

theorem Gives.map {α β : Type} {P : α → Prop} {Q : β → Prop} {r : Read α} {f : α → β} (h : Gives P r) (hf : ∀ a, P a → Q (f a)) :
    Gives Q (r.map f) := by
  intro b es e
  obtain ⟨a, h1, h2⟩ := map_ok e
  exact h2 ▸ hf a (h a _ h1)

theorem Gives.bind {α β : Type} {P : α → Prop} {Q : β → Prop} {r : Read α} {f : α → List REvent → Read β} (h : Gives P r)
    (hf : ∀ a es, P a → Gives Q (f a es)) : Gives Q (r.bind f) := by
  intro b es e
  obtain ⟨a, es', h1, h2⟩ := bind_ok' e
  exact hf a es' (h a _ h1) b es h2

theorem Gives.caught {α β : Type} {P : α → Prop} {Q : β → Prop} {r : Read α} {f : Option α → List REvent → Read β} (h : Gives P r)
    (hf : ∀ a es, P a → Gives Q (f (some a) es)) (hn : ∀ es, Gives Q (f none es)) : Gives Q (r.caught f) := by
  intro b es e
  cases r with
  | ok a es' => exact hf a es' (h a _ rfl) b es e
  | err es' => exact hn es' b es e
  | panic => cases e
  | running => cases e

theorem Gives.run {σ : Type} {L : Loop σ} {P : σ → Prop} (hs : ∀ s q as es, P s → Gives P (L.start s q as es))
    (ht : ∀ s b t, P s → P (L.text s b t)) (hc : ∀ s q s', P s → L.close s q = some s' → P s') {n : Nat} {s : σ} {es : List REvent} (h : P s) :
    Gives P (L.run n s es) := fun s' es' e => run_keeps (fun s q as es s' es' h0 e => hs s q as es h0 s' es' e) ht hc n s es s' es' h e

theorem closesAt_keeps {σ : Type} {P : σ → Prop} {stop : El} (s : σ) (q : QName) (s' : σ) (h : P s) (e : closesAt stop s q = some s') : P s' := by
  unfold closesAt at e
  split at e
  · cases e
  · cases e; exact h

/-! ## What was read -/

/-- All items of a walk are as read. -/
def AllRead (l : Walk) : Prop := ∀ y ∈ l, y.2.AsRead

theorem allRead_nil : AllRead [] := fun _ h => (by cases h)

theorem allRead_cons {x : List Place × Item} {l : Walk} : AllRead (x :: l) ↔ x.2.AsRead ∧ AllRead l := by
  simp [AllRead]

theorem allRead_append {a b : Walk} : AllRead (a ++ b) ↔ AllRead a ∧ AllRead b := by
  simp only [AllRead, List.mem_append]
  exact ⟨fun h => ⟨fun y hy => h y (.inl hy), fun y hy => h y (.inr hy)⟩, fun h y hy => hy.elim (h.1 y) (h.2 y)⟩

theorem allRead_flatMap {α : Type} {l : List α} {f : α → Walk} : AllRead (l.flatMap f) ↔ ∀ a ∈ l, AllRead (f a) := by
  simp only [AllRead, List.mem_flatMap]
  exact ⟨fun h a ha y hy => h y ⟨a, ha, hy⟩, fun h y ⟨a, ha, hy⟩ => h a ha y hy⟩

theorem rows_flat (w : List Place) (l : List Row) : walkRows w l = l.flatMap (walkRow w) := by
  induction l with
  | nil => rfl
  | cons a l ih => rw [walkRows, ih, List.flatMap_cons]

theorem cells_flat (w : List Place) (l : List Cell) : walkCells w l = l.flatMap (walkCell w) := by
  induction l with
  | nil => rfl
  | cons a l ih => rw [walkCells, ih, List.flatMap_cons]

theorem blocks_flat (w : List Place) (l : List Block) : walkBlocks w l = l.flatMap (walkBlock w) := by
  induction l with
  | nil => rfl
  | cons a l ih => rw [walkBlocks, ih, List.flatMap_cons]

/-- Everything inside, wherever it is, is as read. -/
def RunR (r : Run) : Prop := ∀ w, AllRead (walkRun w r)
def RunChildR (c : RunChild) : Prop := ∀ w, AllRead (walkRunChild w c)
def DeleteR (d : Delete) : Prop := ∀ w, AllRead (walkDelete w d)
def DeleteChildR (c : DeleteChild) : Prop := ∀ w, AllRead (walkDeleteChild w c)
def InsertR (d : Insert) : Prop := ∀ w, AllRead (walkInsert w d)
def InsertChildR (c : InsertChild) : Prop := ∀ w, AllRead (walkInsertChild w c)
def HyperlinkR (h : Hyperlink) : Prop := ∀ w, AllRead (walkHyperlink w h)
def ParagraphR (p : Paragraph) : Prop := ∀ w, AllRead (walkParagraph w p)
def ParagraphChildR (c : ParagraphChild) : Prop := ∀ w, AllRead (walkParagraphChild w c)
def SdtR (s : Sdt) : Prop := ∀ w, AllRead (walkSdt w s)
def SdtChildR (c : SdtChild) : Prop := ∀ w, AllRead (walkSdtChild w c)
def CellR (c : Cell) : Prop := ∀ w, AllRead (walkCell w c)
def ContentR (c : CellContent) : Prop := ∀ w, AllRead (walkCellContent w c)
def RowR (r : Row) : Prop := ∀ w, AllRead (walkRow w r)
def TableR (t : Table) : Prop := ∀ w, AllRead (walkTable w t)
def BlockR (b : Block) : Prop := ∀ w, AllRead (walkBlock w b)
def CommentR (c : Comment) : Prop := ∀ w, AllRead (walkComment w c)

theorem all_swap {α : Type} {l : List α} {f : List Place → α → Walk} (g : List Place → List Place) :
    (∀ a ∈ l, ∀ w, AllRead (f w a)) → ∀ w, AllRead (l.flatMap (f (g w))) :=
  fun h w => allRead_flatMap.2 fun a ha => h a ha (g w)

theorem runR_of {r : Run} (h : ∀ c ∈ r.children, RunChildR c) : RunR r := by
  obtain ⟨p, cs⟩ := r
  intro w
  rw [walkRun, allRead_cons, runChildren_flat]
  exact ⟨trivial, all_swap (.run :: ·) h w⟩

theorem deleteR_of {d : Delete} (h : ∀ c ∈ d.children, DeleteChildR c) : DeleteR d := by
  obtain ⟨a, t, cs⟩ := d
  intro w
  rw [walkDelete, deleteChildren_flat]
  exact all_swap id h w

theorem insertR_of {d : Insert} (h : ∀ c ∈ d.children, InsertChildR c) : InsertR d := by
  obtain ⟨a, t, cs⟩ := d
  intro w
  rw [walkInsert, insertChildren_flat]
  exact all_swap id h w

theorem hyperlinkR_of {d : Hyperlink} (hl : ∀ id path, d.link = .external id path → path = []) (h : ∀ c ∈ d.children, ParagraphChildR c) :
    HyperlinkR d := by
  obtain ⟨l, t, cs⟩ := d
  intro w
  rw [walkHyperlink, allRead_cons, paragraphChildren_flat]
  exact ⟨hl, all_swap (.hyperlink :: ·) h w⟩

theorem paragraphR_of {d : Paragraph} (h : ∀ c ∈ d.children, ParagraphChildR c) : ParagraphR d := by
  obtain ⟨i, cs, pr, n⟩ := d
  intro w
  rw [walkParagraph, allRead_cons, paragraphChildren_flat]
  exact ⟨trivial, all_swap (.paragraph :: ·) h w⟩

theorem sdtR_of {d : Sdt} (h : ∀ c ∈ d.children, SdtChildR c) : SdtR d := by
  obtain ⟨cs, pr, n⟩ := d
  intro w
  rw [walkSdt, allRead_cons, sdtChildren_flat]
  exact ⟨trivial, all_swap (.sdt :: ·) h w⟩

theorem cellR_of {d : Cell} (h : ∀ c ∈ d.children, ContentR c) : CellR d := by
  obtain ⟨cs, pr, n⟩ := d
  intro w
  rw [walkCell, allRead_cons, cellContents_flat]
  exact ⟨trivial, all_swap (.cell :: ·) h w⟩

theorem rowR_of {d : Row} (h : ∀ c ∈ d.cells, CellR c) : RowR d := by
  obtain ⟨cs, pr, n⟩ := d
  intro w
  rw [walkRow, cells_flat]
  exact all_swap id h w

theorem tableR_of {d : Table} (h : ∀ c ∈ d.rows, RowR c) : TableR d := by
  obtain ⟨cs, g, pr, n⟩ := d
  intro w
  rw [walkTable, allRead_cons, rows_flat]
  exact ⟨trivial, all_swap id h w⟩

theorem commentR_of {d : Comment} (h : ∀ c ∈ d.children, BlockR c) : CommentR d := by
  obtain ⟨a, b, c, cs, e⟩ := d
  intro w
  rw [walkComment, blocks_flat]
  exact all_swap id h w

theorem newCommentR (i : Nat) : CommentR (.new i) := fun _ _ h => (by cases h)

theorem textBoxR {l : List Block} (h : ∀ b ∈ l, BlockR b) : RunChildR (.textBox l) := by
  intro w
  rw [walkRunChild, allRead_cons, blocks_flat]
  exact ⟨trivial, all_swap (.textBox :: ·) h w⟩

theorem snoc {α : Type} {P : α → Prop} {l : List α} {a : α} (h : ∀ x ∈ l, P x) (ha : P a) : ∀ x ∈ l ++ [a], P x := by
  intro x hx
  rcases List.mem_append.1 hx with hx | hx
  · exact h x hx
  · rw [List.mem_singleton] at hx; exact hx ▸ ha

/-! ## The readers -/

/-- What the readers that close the cycle give. -/
structure ReadersR (R : Readers) : Prop where
  run : ∀ es, Gives RunR (R.run es)
  table : ∀ es, Gives TableR (R.table es)
  paragraph : ∀ as es, Gives ParagraphR (R.paragraph as es)

theorem commentStartR {w : List Place} {i : Nat} {c : Comment} (h : CommentR c) : AllRead ((w, .comment i c) :: walkComment (.comment :: w) c) :=
  allRead_cons.2 ⟨trivial, h _⟩

section
variable {x : ReadEnv} {R : Readers} (hR : ReadersR R)
include hR

theorem gives_delete (stop : El) (es : List REvent) :
    Gives (fun d : Delete => ∀ c ∈ d.children, DeleteChildR c) ((deleteLoop R stop).run R.fuel {} es) := by
  refine .run ?_ (fun _ _ _ h => h) closesAt_keeps (fun _ h => (by cases h))
  intro d q as es hd
  dsimp only [deleteLoop]
  split
  · exact (hR.run es).map fun r hr => snoc hd fun w => hr w
  · split
    · exact .ok (snoc hd fun w => commentStartR (newCommentR _))
    · exact .ok hd
  · split
    · exact .ok (snoc hd fun w => allRead_nil)
    · exact .ok hd
  · split
    · exact .ok hd
    · exact Gives.any.map fun _ _ => hd
  · exact .ok hd

theorem gives_readDelete (as : Attrs) (es : List REvent) : Gives DeleteR (readDelete R as es) :=
  (gives_delete hR _ es).map fun _ h => deleteR_of h

theorem gives_readMoveFrom (as : Attrs) (es : List REvent) : Gives DeleteR (readMoveFrom R as es) :=
  (gives_delete hR _ es).map fun _ h => deleteR_of h

theorem gives_insert (stop : El) (es : List REvent) :
    Gives (fun d : Insert => ∀ c ∈ d.children, InsertChildR c) ((insertLoop R stop).run R.fuel {} es) := by
  refine .run ?_ (fun _ _ _ h => h) closesAt_keeps (fun _ h => (by cases h))
  intro d q as es hd
  dsimp only [insertLoop]
  split
  · exact (hR.run es).map fun r hr => snoc hd fun w => hr w
  · exact (gives_readDelete hR as es).map fun r hr => snoc hd fun w => hr _
  · split
    · exact .ok (snoc hd fun w => commentStartR (newCommentR _))
    · exact .ok hd
  · split
    · exact .ok (snoc hd fun w => allRead_nil)
    · exact .ok hd
  · exact Gives.any.map fun _ _ => hd
  · exact .ok hd

theorem gives_readInsert (as : Attrs) (es : List REvent) : Gives InsertR (readInsert R as es) :=
  (gives_insert hR _ es).map fun _ h => insertR_of h

theorem gives_readMoveTo (as : Attrs) (es : List REvent) : Gives InsertR (readMoveTo R as es) :=
  (gives_insert hR _ es).map fun _ h => insertR_of h

theorem gives_textBox (es : List REvent) : Gives (fun l : List Block => ∀ b ∈ l, BlockR b) ((textBoxLoop R).run R.fuel [] es) := by
  refine .run ?_ (fun _ _ _ h => h) ?_ (fun _ h => (by cases h))
  · intro l q as es hl
    dsimp only [textBoxLoop]
    split
    · exact (hR.paragraph as es).map fun p hp => snoc hl fun w => hp w
    · exact (hR.table es).map fun p hp => snoc hl fun w => hp w
    · exact .ok hl
  · intro s q s' h e
    dsimp only [textBoxLoop] at e
    split at e
    · cases e
    · cases e; exact h

theorem gives_pic (n : Nat) (es : List REvent) : Gives (fun p : Pic => p.image = []) ((picLoop x).run n Pic.empty es) := by
  refine .run ?_ (fun _ _ _ h => h) ?_ rfl
  · intro p q as es hp
    dsimp only [picLoop]
    repeat' split
    all_goals exact .ok hp
  · intro s q s' h e
    dsimp only [picLoop] at e
    split at e
    · cases e
    · cases e; exact h

theorem gives_drawing (es : List REvent) : Gives RunChildR (readDrawing x R es) := by
  have : Gives (fun s : DrawingState => RunChildR s.drawing) ((drawingLoop x R).run R.fuel {} es) := by
    refine .run ?_ (fun _ _ _ h => h) closesAt_keeps (fun w => allRead_cons.2 ⟨trivial, allRead_nil⟩)
    intro s q as es hs
    dsimp only [drawingLoop]
    split
    · exact .ok hs
    split
    · exact .ok hs
    split
    · exact .ok hs
    split
    · exact Gives.any.caught (fun _ _ _ => .ok hs) (fun _ => .ok hs)
    split
    · exact Gives.any.caught (fun _ _ _ => .ok hs) (fun _ => .ok hs)
    split
    · refine (gives_pic hR R.fuel es).caught (fun p _ hp => .ok fun w => ?_) (fun _ => .ok hs)
      exact allRead_cons.2 ⟨trivial, allRead_cons.2 ⟨hp, allRead_nil⟩⟩
    split
    · exact (gives_textBox hR es).caught (fun l _ hl => .ok (textBoxR hl)) (fun _ => .ok hs)
    · exact .ok hs
  exact this.map fun _ h => h

theorem gives_run (es : List REvent) : Gives RunR (readRun x R es) := by
  have one : ∀ {c : RunChild}, (∀ w, walkRunChild w c = [(w, .runChild c)]) → (Item.runChild c).AsRead → RunChildR c := by
    intro c h h' w
    rw [h]
    exact allRead_cons.2 ⟨h', allRead_nil⟩
  have : Gives (fun s : RunState => ∀ c ∈ s.1.children, RunChildR c) ((runLoop x R).run R.fuel ({}, .idle) es) := by
    refine .run ?_ ?_ ?_ (fun _ h => (by cases h))
    · intro s q as es hs
      obtain ⟨r, ts⟩ := s
      have hs : ∀ c ∈ r.children, RunChildR c := hs
      dsimp only [runLoop]
      split
      · exact .ok hs
      split
      · refine Gives.any.bind fun _ es _ => ?_
        split
        · exact .ok (snoc hs (one (fun _ => rfl) trivial))
        · exact Gives.any.caught (fun _ _ _ => .ok (snoc hs (one (fun _ => rfl) trivial))) (fun _ => .ok hs)
        · split
          · exact .ok (snoc hs (one (fun _ => rfl) trivial))
          · exact .ok hs
        · exact Gives.any.map fun _ _ => hs
        · exact .ok hs
        · exact .ok hs
        · split
          · exact Gives.any.map fun _ _ => snoc hs (one (fun _ => rfl) trivial)
          · exact .ok (snoc hs (one (fun _ => rfl) trivial))
        · exact .ok (snoc hs (one (fun _ => rfl) trivial))
        · exact (gives_drawing hR es).caught (fun _ _ hc => .ok (snoc hs hc)) (fun _ => .ok hs)
        · split
          · exact .ok (snoc hs (one (fun _ => rfl) trivial))
          · exact .ok hs
        · exact .ok hs
        · exact .ok hs
      split
      · split
        · exact Gives.any.map fun _ _ => hs
        · exact .ok hs
      split
      · split
        · exact Gives.any.caught (fun _ _ _ => .ok (snoc hs (one (fun _ => rfl) trivial))) (fun _ => .ok hs)
        · exact .ok hs
      · exact .ok hs
    · intro s white t hs
      obtain ⟨r, ts⟩ := s
      have hs : ∀ c ∈ r.children, RunChildR c := hs
      dsimp only [runLoop]
      split
      · next e => cases e; exact snoc hs (one (fun _ => rfl) trivial)
      · next e => cases e; exact snoc hs (one (fun _ => rfl) trivial)
      · next e =>
        cases e
        split
        · exact hs
        · exact snoc hs (one (fun _ => rfl) trivial)
      · exact hs
    · intro s q s' h e
      dsimp only [runLoop] at e
      split at e
      · exact closesAt_keeps (P := fun s : RunState => ∀ c ∈ s.1.children, RunChildR c) s q s' h e
      · split at e
        · cases e
        · cases e; exact h
        · cases e; exact h
        · cases e; exact h
  exact this.map fun _ h => runR_of h

theorem gives_hyperlink (as : Attrs) (es : List REvent) : Gives HyperlinkR (readHyperlink R as es) := by
  have : Gives (fun h : Hyperlink => (∀ id path, h.link = .external id path → path = []) ∧ ∀ c ∈ h.children, ParagraphChildR c)
      (readHyperlink R as es) := by
    refine .run ?_ (fun _ _ _ h => h) closesAt_keeps ⟨?_, fun _ h => (by cases h)⟩
    · intro h q as es hh
      have add : ∀ c, ParagraphChildR c → (∀ id path, (h.addChild c).link = .external id path → path = []) ∧
          ∀ c' ∈ (h.addChild c).children, ParagraphChildR c' := fun c hc => ⟨hh.1, snoc hh.2 hc⟩
      dsimp only [hyperlinkLoop]
      split
      · exact (hR.run es).caught (fun r _ hr => .ok (add _ fun w => hr w)) (fun _ => .ok hh)
      · exact (gives_readInsert hR as es).caught (fun r _ hr => .ok (add _ fun w => hr _)) (fun _ => .ok hh)
      · exact (gives_readDelete hR as es).caught (fun r _ hr => .ok (add _ fun w => hr _)) (fun _ => .ok hh)
      · exact Gives.any.caught (fun r _ hr => .ok (add _ fun w => allRead_nil)) (fun _ => .ok hh)
      · exact Gives.any.caught (fun r _ hr => .ok (add _ fun w => allRead_nil)) (fun _ => .ok hh)
      · refine .ok ?_
        cases readCommentId as with
        | none => exact hh
        | some i => exact add _ fun w => commentStartR (newCommentR i)
      · refine .ok ?_
        cases readCommentId as with
        | none => exact hh
        | some i => exact add _ fun w => allRead_nil
      · exact Gives.any.map fun _ _ => hh
      · exact .ok hh
    · intro id path e
      dsimp only at e
      split at e
      · cases e
      · cases e; rfl
  exact fun a es e => hyperlinkR_of (this a es e).1 (this a es e).2

theorem gives_paragraph (as : Attrs) (es : List REvent) : Gives ParagraphR (readParagraph x R as es) := by
  have : Gives (fun p : Paragraph => ∀ c ∈ p.children, ParagraphChildR c) (readParagraph x R as es) := by
    refine .run ?_ (fun _ _ _ h => h) closesAt_keeps (fun _ h => (by cases h))
    intro p q as es hp
    dsimp only [paragraphLoop]
    split
    · exact (hR.run es).map fun r hr => snoc hp fun w => hr w
    · exact (gives_hyperlink hR as es).map fun r hr => snoc hp fun w => hr w
    · exact (gives_readInsert hR as es).map fun r hr => snoc hp fun w => hr _
    · exact (gives_readDelete hR as es).map fun r hr => snoc hp fun w => hr _
    · exact (gives_readMoveFrom hR as es).map fun r hr => snoc hp fun w => hr _
    · exact (gives_readMoveTo hR as es).map fun r hr => snoc hp fun w => hr _
    · exact Gives.any.map fun r hr => snoc hp fun w => allRead_nil
    · exact Gives.any.map fun r hr => snoc hp fun w => allRead_nil
    · split
      · exact .ok (snoc hp fun w => commentStartR (newCommentR _))
      · exact .ok hp
    · split
      · exact .ok (snoc hp fun w => allRead_nil)
      · exact .ok hp
    · exact Gives.any.caught (fun _ _ _ => .ok hp) (fun _ => .ok hp)
    · exact .ok hp
  exact fun a es e => paragraphR_of (this a es e)

theorem gives_sdt (es : List REvent) : Gives SdtR (readSdt x R es) := by
  have : Gives (fun p : Sdt => ∀ c ∈ p.children, SdtChildR c) (readSdt x R es) := by
    refine .run ?_ (fun _ _ _ h => h) closesAt_keeps (fun _ h => (by cases h))
    intro p q as es hp
    dsimp only [sdtLoop]
    split
    · exact (gives_paragraph hR as es).caught (fun r _ hr => .ok (snoc hp fun w => hr w)) (fun _ => .ok hp)
    · exact (hR.table es).caught (fun r _ hr => .ok (snoc hp fun w => hr w)) (fun _ => .ok hp)
    · exact Gives.any.caught (fun r _ hr => .ok (snoc hp fun w => allRead_nil)) (fun _ => .ok hp)
    · exact Gives.any.caught (fun r _ hr => .ok (snoc hp fun w => allRead_nil)) (fun _ => .ok hp)
    · refine .ok ?_
      cases readCommentId as with
      | none => exact hp
      | some i => exact snoc hp fun w => commentStartR (newCommentR i)
    · refine .ok ?_
      cases readCommentId as with
      | none => exact hp
      | some i => exact snoc hp fun w => allRead_nil
    · exact (hR.run es).caught (fun r _ hr => .ok (snoc hp fun w => hr w)) (fun _ => .ok hp)
    · exact .ok hp
  exact fun a es e => sdtR_of (this a es e)

theorem gives_cell (es : List REvent) : Gives CellR ((cellLoop x R).run R.fuel {} es) := by
  have : Gives (fun p : Cell => ∀ c ∈ p.children, ContentR c) ((cellLoop x R).run R.fuel {} es) := by
    refine .run ?_ (fun _ _ _ h => h) closesAt_keeps (fun _ h => (by cases h))
    intro p q as es hp
    dsimp only [cellLoop]
    split
    · exact (gives_paragraph hR as es).map fun r hr => snoc hp fun w => hr w
    · exact (gives_sdt hR es).caught (fun r _ hr => .ok (snoc hp fun w => hr w)) (fun _ => .ok hp)
    · exact Gives.any.caught (fun _ _ _ => .ok hp) (fun _ => .ok hp)
    · exact (hR.table es).caught (fun r _ hr => .ok (snoc hp fun w => hr w)) (fun _ => .ok hp)
    · exact .ok hp
  exact fun a es e => cellR_of (this a es e)

theorem gives_row (es : List REvent) : Gives RowR (readRow x R es) := by
  have : Gives (fun s : RowState => ∀ c ∈ s.1, CellR c) ((rowLoop x R).run R.fuel ([], {}) es) := by
    refine .run ?_ (fun _ _ _ h => h) closesAt_keeps (fun _ h => (by cases h))
    intro s q as es hs
    obtain ⟨cs, p⟩ := s
    have hs : ∀ c ∈ cs, CellR c := hs
    dsimp only [rowLoop]
    refine Gives.any.bind fun _ es _ => ?_
    have hw : ∀ f : Int → WidthType → RowState, (∀ a b, (f a b).1 = cs) → Gives (fun s : RowState => ∀ c ∈ s.1, CellR c) (withWidth x (cs, p) as es f) := by
      intro f hf
      unfold withWidth
      refine Gives.any.caught (fun a _ _ => .ok ?_) (fun _ => .ok hs)
      rw [hf]
      exact hs
    split
    · exact (gives_cell hR es).map fun r hr => snoc hs hr
    · split
      · exact Gives.any.map fun _ _ => hs
      · exact .ok hs
    · exact hw _ fun _ _ => rfl
    · split
      · exact Gives.any.map fun _ _ => hs
      · exact .ok hs
    · exact hw _ fun _ _ => rfl
    · exact .ok hs
    · exact Gives.any.caught (fun _ _ _ => .ok hs) (fun _ => .ok hs)
    · exact Gives.any.caught (fun _ _ _ => .ok hs) (fun _ => .ok hs)
    · exact .ok hs
  exact this.map fun _ h => rowR_of h

theorem gives_table (es : List REvent) : Gives TableR (readTable x R es) := by
  have : Gives (fun t : Table => ∀ c ∈ t.rows, RowR c) (readTable x R es) := by
    refine .run ?_ (fun _ _ _ h => h) closesAt_keeps (fun _ h => (by cases h))
    intro t q as es ht
    dsimp only [tableLoop]
    refine Gives.any.bind fun _ es _ => Gives.any.bind fun _ es _ => ?_
    split
    · exact (gives_row hR es).map fun r hr => snoc ht hr
    · exact Gives.any.map fun _ _ => ht
    · exact Gives.any.caught (fun _ _ _ => .ok ht) (fun _ => .ok ht)
    · exact Gives.any.bind fun _ _ _ => Gives.any.map fun _ _ => ht
    · exact Gives.any.map fun _ _ => ht
    · exact Gives.any.caught (fun _ _ _ => .ok ht) (fun _ => .ok ht)
    · exact .ok ht
    · exact Gives.any.caught (fun _ _ _ => .ok ht) (fun _ => .ok ht)
    · exact Gives.any.map fun _ _ => ht
    · exact .ok ht
  exact fun a es e => tableR_of (this a es e)

end

theorem readersR (x : ReadEnv) : ∀ d, ReadersR (readers x d)
  | 0 => ⟨fun _ => .running, fun _ => .running, fun _ _ => .running⟩
  | d + 1 => ⟨gives_run (readersR x d), gives_table (readersR x d), gives_paragraph (readersR x d)⟩

/-! ## Comments put where they start -/

section
variable {cs : List Comment} (hcs : ∀ c ∈ cs, CommentR c)
include hcs

theorem storedR {w : List Place} {i : Nat} {c : Comment} (h : AllRead ((w, .comment i c) :: walkComment (.comment :: w) c)) :
    AllRead ((w, .comment i (storedComment cs i c)) :: walkComment (.comment :: w) (storedComment cs i c)) := by
  refine allRead_cons.2 ⟨trivial, ?_⟩
  unfold storedComment
  cases e : (cs.filter fun c => decide (c.id = i)).getLast? with
  | none => exact (allRead_cons.1 h).2
  | some c' => exact hcs c' (List.mem_filter.1 (List.mem_of_getLast? e)).1 _

theorem storedR_deleteChild {w : List Place} {c : DeleteChild} (h : AllRead (walkDeleteChild w c)) :
    AllRead (walkDeleteChild w (storeInDeleteChild cs c)) := by
  cases c with
  | commentStart i c => exact storedR hcs h
  | _ => exact h

theorem storedR_deleteChildren {w : List Place} {l : List DeleteChild} (h : AllRead (walkDeleteChildren w l)) :
    AllRead (walkDeleteChildren w (l.map (storeInDeleteChild cs))) := by
  rw [deleteChildren_flat, allRead_flatMap] at *
  simp only [List.mem_map, forall_exists_index, and_imp, forall_apply_eq_imp_iff₂]
  exact fun c hc => storedR_deleteChild hcs (h c hc)

theorem storedR_insertChild {deep : Bool} {w : List Place} {c : InsertChild} (h : AllRead (walkInsertChild w c)) :
    AllRead (walkInsertChild w (storeInInsertChild cs deep c)) := by
  cases c with
  | commentStart i c => exact storedR hcs h
  | delete d =>
    obtain ⟨a, t, l⟩ := d
    cases deep
    · exact h
    · exact storedR_deleteChildren hcs h
  | _ => exact h

theorem storedR_paragraphChild {deep : Bool} {w : List Place} {c : ParagraphChild} (h : AllRead (walkParagraphChild w c)) :
    AllRead (walkParagraphChild w (storeInParagraphChild cs deep c)) := by
  cases c with
  | commentStart i c => exact storedR hcs h
  | insert d =>
    obtain ⟨a, t, l⟩ := d
    have h : AllRead (walkInsertChildren _ l) := h
    show AllRead (walkInsertChildren _ (l.map _))
    rw [insertChildren_flat, allRead_flatMap] at *
    simp only [List.mem_map, forall_exists_index, and_imp, forall_apply_eq_imp_iff₂]
    exact fun c hc => storedR_insertChild hcs (h c hc)
  | delete d =>
    obtain ⟨a, t, l⟩ := d
    exact storedR_deleteChildren hcs h
  | _ => exact h

theorem storedR_paragraph {deep : Bool} {w : List Place} {p : Paragraph} (h : AllRead (walkParagraph w p)) :
    AllRead (walkParagraph w (storeInParagraph cs deep p)) := by
  obtain ⟨i, l, pr, n⟩ := p
  rw [walkParagraph, allRead_cons, paragraphChildren_flat, allRead_flatMap] at h
  show AllRead ((w, Item.paragraph _) :: walkParagraphChildren _ (l.map _))
  rw [allRead_cons, paragraphChildren_flat, allRead_flatMap]
  refine ⟨trivial, ?_⟩
  simp only [List.mem_map, forall_exists_index, and_imp, forall_apply_eq_imp_iff₂]
  exact fun c hc => storedR_paragraphChild hcs (h.2 c hc)

end

mutual
theorem storedR_table {cs : List Comment} (hcs : ∀ c ∈ cs, CommentR c) : ∀ (t : Table) (w : List Place),
    AllRead (walkTable w t) → AllRead (walkTable w (storeInTable cs t))
  | ⟨rows, g, n, pr⟩, w => by
    rw [storeInTable, walkTable, walkTable, allRead_cons, allRead_cons]
    exact fun h => ⟨trivial, storedR_rows hcs rows w h.2⟩
theorem storedR_rows {cs : List Comment} (hcs : ∀ c ∈ cs, CommentR c) : ∀ (l : List Row) (w : List Place),
    AllRead (walkRows w l) → AllRead (walkRows w (storeInRows cs l))
  | [], w => id
  | ⟨cells, n, p⟩ :: l, w => by
    rw [storeInRows, walkRows, walkRows, walkRow, walkRow, allRead_append, allRead_append]
    exact fun h => ⟨storedR_cells hcs cells w h.1, storedR_rows hcs l w h.2⟩
theorem storedR_cells {cs : List Comment} (hcs : ∀ c ∈ cs, CommentR c) : ∀ (l : List Cell) (w : List Place),
    AllRead (walkCells w l) → AllRead (walkCells w (storeInCells cs l))
  | [], w => id
  | ⟨c, n, p⟩ :: l, w => by
    rw [storeInCells, walkCells, walkCells, walkCell, walkCell, allRead_append, allRead_append, allRead_cons, allRead_cons]
    exact fun h => ⟨⟨trivial, storedR_contents hcs c _ h.1.2⟩, storedR_cells hcs l w h.2⟩
theorem storedR_contents {cs : List Comment} (hcs : ∀ c ∈ cs, CommentR c) : ∀ (l : List CellContent) (w : List Place),
    AllRead (walkCellContents w l) → AllRead (walkCellContents w (storeInContents cs l))
  | [], w => id
  | .paragraph p :: l, w => by
    rw [storeInContents, walkCellContents, walkCellContents, allRead_append, allRead_append]
    exact fun h => ⟨storedR_paragraph hcs (p := p) h.1, storedR_contents hcs l w h.2⟩
  | .table p :: l, w => by
    rw [storeInContents, walkCellContents, walkCellContents, walkCellContent, walkCellContent, allRead_append, allRead_append]
    exact fun h => ⟨storedR_table hcs p w h.1, storedR_contents hcs l w h.2⟩
  | .sdt ⟨c, p, n⟩ :: l, w => by
    rw [storeInContents, walkCellContents, walkCellContents, walkCellContent, walkCellContent, walkSdt, walkSdt, allRead_append, allRead_append,
      allRead_cons, allRead_cons]
    exact fun h => ⟨⟨trivial, storedR_sdtChildren hcs c _ h.1.2⟩, storedR_contents hcs l w h.2⟩
  | .toc t :: l, w => by
    intro h
    rw [walkCellContents, allRead_append] at h
    obtain ⟨a, b, c, d, e, f, g, before, after, i, j⟩ := t
    exact absurd (h.1 _ (.head _)) (fun h => h)
theorem storedR_sdtChildren {cs : List Comment} (hcs : ∀ c ∈ cs, CommentR c) : ∀ (l : List SdtChild) (w : List Place),
    AllRead (walkSdtChildren w l) → AllRead (walkSdtChildren w (storeInSdtChildren cs l))
  | [], w => id
  | .paragraph p :: l, w => by
    rw [storeInSdtChildren, walkSdtChildren, walkSdtChildren, allRead_append, allRead_append]
    exact fun h => ⟨storedR_paragraph hcs (p := p) h.1, storedR_sdtChildren hcs l w h.2⟩
  | .table p :: l, w => by
    rw [storeInSdtChildren, walkSdtChildren, walkSdtChildren, walkSdtChild, walkSdtChild, allRead_append, allRead_append]
    exact fun h => ⟨storedR_table hcs p w h.1, storedR_sdtChildren hcs l w h.2⟩
  | .run r :: l, w => by
    rw [storeInSdtChildren, walkSdtChildren, walkSdtChildren, allRead_append, allRead_append]
    exact fun h => ⟨h.1, storedR_sdtChildren hcs l w h.2⟩
    all_goals simp
  | .sdt r :: l, w => by
    rw [storeInSdtChildren, walkSdtChildren, walkSdtChildren, allRead_append, allRead_append]
    exact fun h => ⟨h.1, storedR_sdtChildren hcs l w h.2⟩
    all_goals simp
  | .bookmarkStart _ _ :: l, w => by
    rw [storeInSdtChildren, walkSdtChildren, walkSdtChildren, allRead_append, allRead_append]
    exact fun h => ⟨h.1, storedR_sdtChildren hcs l w h.2⟩
    all_goals simp
  | .bookmarkEnd _ :: l, w => by
    rw [storeInSdtChildren, walkSdtChildren, walkSdtChildren, allRead_append, allRead_append]
    exact fun h => ⟨h.1, storedR_sdtChildren hcs l w h.2⟩
    all_goals simp
  | .commentStart _ _ :: l, w => by
    rw [storeInSdtChildren, walkSdtChildren, walkSdtChildren, allRead_append, allRead_append]
    exact fun h => ⟨h.1, storedR_sdtChildren hcs l w h.2⟩
    all_goals simp
  | .commentEnd _ :: l, w => by
    rw [storeInSdtChildren, walkSdtChildren, walkSdtChildren, allRead_append, allRead_append]
    exact fun h => ⟨h.1, storedR_sdtChildren hcs l w h.2⟩
    all_goals simp
end

/-! ## The parts -/

/-- The children of the body, a header. -/
def ChildR (c : DocumentChild) : Prop := ∀ w, AllRead (walkDocumentChild w c)
def HeaderR (h : Header) : Prop := ∀ w, AllRead (walkHeader w h)

theorem storedR_child {cs : List Comment} (hcs : ∀ c ∈ cs, CommentR c) {c : DocumentChild} (h : ChildR c) : ChildR (storeInChild cs c) := by
  intro w
  cases c with
  | paragraph p => exact storedR_paragraph hcs (h w)
  | table t => exact storedR_table hcs t w (h w)
  | _ => exact h w

theorem gives_document (x : ReadEnv) (n : Nat) (text : Str) :
    Gives (fun d : Document => ∀ c ∈ d.children, ChildR c) (readDocument x n text) := by
  have hR := readersR x n
  refine .run ?_ (fun _ _ _ h => h) (fun s q s' h e => by cases e; exact h) (fun _ h => (by cases h))
  intro p q as es hp
  dsimp only [documentLoop]
  split
  · exact (gives_paragraph hR as es).map fun r hr => snoc hp fun w => hr w
  · exact (hR.table es).map fun r hr => snoc hp fun w => hr w
  · exact Gives.any.map fun r hr => snoc hp fun w => allRead_nil
  · exact Gives.any.map fun r hr => snoc hp fun w => allRead_nil
  · split
    · exact .ok (snoc hp fun w => commentStartR (newCommentR _))
    · exact .ok hp
  · split
    · exact .ok (snoc hp fun w => allRead_nil)
    · exact .ok hp
  · exact Gives.any.map fun _ _ => hp
  · exact (gives_sdt hR es).caught (fun r _ hr => .ok (snoc hp fun w => hr w)) (fun _ => .ok hp)
  · exact .ok hp

theorem gives_header (x : ReadEnv) (n : Nat) (text : Str) : Gives HeaderR (readHeader x n text) := by
  have hR := readersR x n
  have : Gives (fun h : Header => ∀ c ∈ h.children, ∀ w, AllRead (walkHeaderChild w c)) (readHeader x n text) := by
    refine .run ?_ (fun _ _ _ h => h) (fun s q s' h e => by cases e; exact h) (fun _ h => (by cases h))
    intro p q as es hp
    dsimp only [headerLoop]
    split
    · exact (gives_paragraph hR as es).caught (fun r _ hr => .ok (snoc hp fun w => hr w)) (fun _ => .ok hp)
    · exact (hR.table es).caught (fun r _ hr => .ok (snoc hp fun w => hr w)) (fun _ => .ok hp)
    · exact (gives_sdt hR es).caught (fun r _ hr => .ok (snoc hp fun w => hr w)) (fun _ => .ok hp)
    · exact .ok hp
  intro h es e w
  unfold walkHeader
  exact allRead_flatMap.2 fun c hc => this h es e c hc w

theorem gives_comments (x : ReadEnv) (n : Nat) (text : Str) : Gives (fun l : List Comment => ∀ c ∈ l, CommentR c) (readComments x n text) := by
  have hR := readersR x n
  refine .run ?_ (fun _ _ _ h => h) closesAt_keeps (fun _ h => (by cases h))
  intro l q as es hl
  dsimp only [commentsLoop]
  split
  · refine Gives.map (P := CommentR) ?_ fun c hc => snoc hl hc
    unfold readComment
    split
    · exact .panic
    · refine Gives.any.bind fun i es _ => ?_
      have : Gives (fun c : Comment => ∀ b ∈ c.children, BlockR b) ((commentLoop x (readers x n)).run (readers x n).fuel (commentOfAttrs i as) es) := by
        refine .run ?_ (fun _ _ _ h => h) closesAt_keeps (fun _ h => (by cases h))
        intro c q as es hc
        dsimp only [commentLoop]
        split
        · exact (gives_paragraph hR as es).map fun r hr => snoc hc fun w => hr w
        · exact .ok hc
      exact fun a es e => commentR_of (this a es e)
  · exact .ok hl

theorem threadsR {cs : List Comment} (h : ∀ c ∈ cs, CommentR c) (rs : List CommentExtended) : ∀ c ∈ threads cs rs, CommentR c := by
  unfold threads
  split
  · exact h
  · intro c hc
    obtain ⟨a, ha, rfl⟩ := List.mem_map.1 hc
    obtain ⟨i, b, t, l, p⟩ := a
    have := h _ ha
    exact fun w => this w

/-! ## The file -/

/-- What was read, and the headers and footers put in so far. -/
structure FileR (d : DocxFile) : Prop where
  children : ∀ c ∈ d.document.children, ChildR c
  slots : ∀ x, some x ∈ slots d.document.sectionProperty → HeaderR x.2
  comments : ∀ c ∈ d.comments, CommentR c

theorem partsR (x : ReadEnv) (n : Nat) (es : List Entry) : ∀ (ts : List Target) (l : List (Str × Header × ReadRels)),
    readPartsFrom x n es ts = .ok l → ∀ p ∈ l, HeaderR p.2.1
  | [], l, h => by
    cases h
    exact fun _ h => (by cases h)
  | t :: ts, l, h => by
    unfold readPartsFrom at h
    split at h
    · exact partsR x n es ts l h
    · split at h
      · next hd e =>
        obtain ⟨rels, _, h⟩ := Got.bind_ok h
        obtain ⟨l', h1, h⟩ := Got.bind_ok h
        cases h
        obtain ⟨es', e⟩ := Got.ofRead e
        intro p hp
        rcases List.mem_cons.1 hp with rfl | hp
        · exact gives_header x n _ _ _ e
        · exact partsR x n es ts l' h1 p hp
      · exact partsR x n es ts l h
      · cases h
      · cases h

theorem partWithR {l : List (Str × Header × ReadRels)} (h : ∀ p ∈ l, HeaderR p.2.1) {id : Str} {x : Header × ReadRels}
    (e : partWith l id = some x) : HeaderR x.1 := by
  unfold partWith at e
  rw [Option.map_eq_some_iff] at e
  obtain ⟨p, hp, rfl⟩ := e
  exact h p (List.mem_filter.1 (List.mem_of_getLast? hp)).1

theorem slots_set {p p' : SectionProperty} {k : Nat} {o : Option (Str × Header)} (h : slots p' = (slots p).set k o) {P : Str × Header → Prop}
    (hp : ∀ x, some x ∈ slots p → P x) (ho : ∀ x, o = some x → P x) : ∀ x, some x ∈ slots p' → P x := by
  intro x hx
  rw [h] at hx
  rcases List.mem_or_eq_of_mem_set hx with hx | hx
  · exact hp x hx
  · exact ho x hx.symm

theorem headerAssigned {e : FileEnv} {es : List Entry} {parts : List (Str × Header × ReadRels)} {reference : SectionBase → Option PartReference}
    {set : SectionProperty → Header → Str → SectionProperty} {r r' : ReadFile} (hparts : ∀ p ∈ parts, HeaderR p.2.1) (h0 : FileR r.file) {k : Nat}
    (hs : ∀ p h id, slots (set p h id) = (slots p).set k (some (id, h))) (h : assignHeader e es parts reference set r = .ok r') : FileR r'.file := by
  unfold assignHeader at h
  split at h
  · cases h; exact h0
  · split at h
    · cases h; exact h0
    · next e' =>
      rw [addImages_file h]
      exact ⟨h0.children, slots_set (hs _ _ _) h0.slots fun x hx => by cases hx; exact partWithR hparts e', h0.comments⟩

theorem footerAssigned {e : FileEnv} {es : List Entry} {parts : List (Str × Header × ReadRels)} {reference : SectionBase → Option PartReference}
    {set : SectionProperty → Header → Str → SectionProperty} {r r' : ReadFile} (hparts : ∀ p ∈ parts, HeaderR p.2.1) (h0 : FileR r.file) {k : Nat}
    (hs : ∀ p h id, slots (set p h id) = (slots p).set k (some (id, h))) (h : assignFooter e es parts reference set r = .ok r') : FileR r'.file := by
  unfold assignFooter at h
  split at h
  · cases h; exact h0
  · split at h
    · cases h; exact h0
    · next e' =>
      rw [addImages_file h]
      exact ⟨h0.children, slots_set (hs _ _ _) h0.slots fun x hx => by cases hx; exact partWithR hparts e', h0.comments⟩

theorem partsAssigned {e : FileEnv} {es : List Entry} {headers footers : List (Str × Header × ReadRels)} {r r' : ReadFile}
    (hh : ∀ p ∈ headers, HeaderR p.2.1) (hf : ∀ p ∈ footers, HeaderR p.2.1) (h0 : FileR r.file) (h : assignParts e es headers footers r = .ok r') :
    FileR r'.file := by
  unfold assignParts at h
  obtain ⟨r1, h1, h⟩ := Got.bind_ok h
  obtain ⟨r2, h2, h⟩ := Got.bind_ok h
  obtain ⟨r3, h3, h⟩ := Got.bind_ok h
  obtain ⟨r4, h4, h⟩ := Got.bind_ok h
  obtain ⟨r5, h5, h⟩ := Got.bind_ok h
  have p1 := headerAssigned (k := 0) hh h0 (fun _ _ _ => rfl) h1
  have p2 := headerAssigned (k := 1) hh p1 (fun _ _ _ => rfl) h2
  have p3 := headerAssigned (k := 2) hh p2 (fun _ _ _ => rfl) h3
  have p4 := footerAssigned (k := 3) hf p3 (fun _ _ _ => rfl) h4
  have p5 := footerAssigned (k := 4) hf p4 (fun _ _ _ => rfl) h5
  exact footerAssigned (k := 5) hf p5 (fun _ _ _ => rfl) h

theorem readDocx_fileR {e : FileEnv} {n : Nat} {es : List Entry} {r : ReadFile} (h : readDocx e n es = .ok r) : FileR r.file := by
  unfold readDocx at h
  obtain ⟨_, _, h⟩ := Got.bind_ok h
  split at h
  · cases h
  obtain ⟨_, _, h⟩ := Got.bind_ok h
  obtain ⟨rels, _, h⟩ := Got.bind_ok h
  obtain ⟨custom, _, h⟩ := Got.bind_ok h
  obtain ⟨m, _, h⟩ := Got.bind_ok h
  unfold readDocxFrom at h
  obtain ⟨headers, hh, h⟩ := Got.bind_ok h
  obtain ⟨footers, hf, h⟩ := Got.bind_ok h
  obtain ⟨themes, _, h⟩ := Got.bind_ok h
  obtain ⟨records, _, h⟩ := Got.bind_ok h
  obtain ⟨comments, hc, h⟩ := Got.bind_ok h
  obtain ⟨s, _, h⟩ := Got.bind_ok h
  obtain ⟨document, hd, h⟩ := Got.bind_ok h
  obtain ⟨r1, h1, h⟩ := Got.bind_ok h
  obtain ⟨es', hd⟩ := Got.ofRead hd
  have p1 : FileR r1.file := by
    refine partsAssigned (partsR _ _ _ _ _ hh) (partsR _ _ _ _ _ hf) ⟨gives_document _ _ _ _ _ hd, ?_, fun _ h => (by cases h)⟩ h1
    intro x hx
    have hx : some x ∈ slots document.sectionProperty := hx
    rw [(read_bare hd).2] at hx
    simp at hx
  have hcs : ∀ c ∈ comments, CommentR c := by
    unfold readOptional at hc
    split at hc
    · cases hc
      exact fun _ h => (by cases h)
    · obtain ⟨l, hl, hc⟩ := Got.bind_ok hc
      cases hc
      obtain ⟨_, hl⟩ := Got.ofRead hl
      exact threadsR (gives_comments _ _ _ _ _ hl) _
  have p2 : FileR (r1.withComments comments records).file := by
    unfold ReadFile.withComments
    split
    · exact p1
    · refine ⟨?_, p1.slots, hcs⟩
      intro c hc
      obtain ⟨c', hc', rfl⟩ := List.mem_map.1 hc
      exact storedR_child hcs (p1.children c' hc')
  obtain ⟨r2, h2, h⟩ := Got.bind_ok h
  have p3 := needed_file (P := fun r => FileR r.file) (fun a h => ⟨h.children, h.slots, h.comments⟩) p2 h2
  obtain ⟨r3, h3, h⟩ := Got.bind_ok h
  have p4 := needed_file (P := fun r => FileR r.file) (fun a h => ⟨h.children, h.slots, h.comments⟩) p3 h3
  obtain ⟨r4, h4, h⟩ := Got.bind_ok h
  have p5 := needed_file (P := fun r => FileR r.file) (fun a h => ⟨h.children, h.slots, h.comments⟩) p4 h4
  obtain ⟨r5, h5, h⟩ := Got.bind_ok h
  have p6 := needed_file (P := fun r => FileR r.file) (fun a h => h) p5 h5
  obtain ⟨r6, h6, h⟩ := Got.bind_ok h
  cases h
  show FileR r6.file
  rw [addImages_file h6]
  exact p6

/-- Everything in a document that was read is as a reader makes it. -/
theorem FileR.all {d : DocxFile} (h : FileR d) : ∀ y ∈ walkDocument d.document, y.2.AsRead := by
  show AllRead (walkDocument d.document)
  unfold walkDocument
  refine allRead_append.2 ⟨allRead_flatMap.2 fun c hc => h.children c hc _, ?_⟩
  have hs := h.slots
  unfold walkSectionProperty
  refine allRead_append.2 ⟨allRead_flatMap.2 fun x hx => hs x ?_ _, allRead_flatMap.2 fun x hx => hs x ?_ _⟩
  · simp only [List.mem_filterMap, id_eq, exists_eq_right, List.mem_cons, List.not_mem_nil, or_false] at hx
    simp only [Docx.slots, List.mem_cons]
    rcases hx with h | h | h <;> simp [h]
  · simp only [List.mem_filterMap, id_eq, exists_eq_right, List.mem_cons, List.not_mem_nil, or_false] at hx
    simp only [Docx.slots, List.mem_cons]
    rcases hx with h | h | h <;> simp [h]

end Docx
