import Verif.Lemmas.Passed
import Verif.Lemmas.Found
import Verif.Spec.Numbered

/-!
# The numbering flags tell whether a paragraph below uses numbering
-/

namespace Docx

open Docx.Spec

/-- The numbered paragraphs in the places considered. -/
def numberedAt (w : List Place) (i : Item) : List Unit := if i.numbered && carried w then [()] else []

theorem carried_drop : ∀ (a w : List Place), carried (a ++ w) = true → carried w = true
  | [], _, h => h
  | p :: a, w, h => by
    refine carried_drop a w ?_
    rw [List.cons_append] at h
    revert h
    generalize a ++ w = v
    intro h
    cases p with
    | sdt =>
      cases v with
      | nil => rfl
      | cons q v => cases q <;> first | exact h | cases h
    | cell | «section» | header | footer | document => exact h
    | _ => cases h

theorem numberedAt_dead {w : List Place} (h : carried w = false) : Dead numberedAt w := fun a i => by
  unfold numberedAt
  cases e : carried (a ++ w) with
  | false => rw [Bool.and_false]; rfl
  | true => rw [carried_drop a w e] at h; cases h

/-- A numbered paragraph among the items makes the flag true. -/
def Told (l : Walk) (b : Bool) : Prop := pick numberedAt l ≠ [] → b = true

theorem told_nil (b : Bool) : Told [] b := fun h => absurd rfl h
theorem told_none {l : Walk} (b : Bool) (h : pick numberedAt l = []) : Told l b := fun e => absurd h e
theorem Told.append {a b : Walk} {x y : Bool} (h : Told a x) (h' : Told b y) : Told (a ++ b) (x || y) := fun e => by
  rw [pick_append] at e
  by_cases h1 : pick numberedAt a = []
  · rw [h1, List.nil_append] at e
    rw [h' e, Bool.or_true]
  · rw [h h1, Bool.true_or]
theorem Told.append' {a b : Walk} {x : Bool} (h : Told a x) (h' : Told b x) : Told (a ++ b) x := by
  have := h.append h'
  rwa [Bool.or_self] at this
theorem Told.left {a b : Walk} {x : Bool} (h : Told a x) (h' : pick numberedAt b = []) : Told (a ++ b) x := h.append' (told_none x h')
theorem Told.cons {w : List Place} {i : Item} {l : Walk} {x : Bool} (hi : numberedAt w i = []) (h : Told l x) : Told ((w, i) :: l) x := fun e => by
  rw [pick_cons, hi, List.nil_append] at e
  exact h e
theorem Told.mono {l : Walk} {x y : Bool} (h : Told l x) (hxy : x = true → y = true) : Told l y := fun e => hxy (h e)

theorem madeParagraph_flag {p : Paragraph} (h : MadeParagraph p) : p.property.base.numberingProperty.isSome = true → p.hasNumbering = true := by
  induction h with
  | new id => intro h; cases h
  | setId p id _ ih => exact ih
  | children p cs _ ih => exact ih
  | format p f _ hf ih =>
    intro e
    dsimp only [Paragraph.format] at e ⊢
    rw [hf] at e
    exact ih e
  | numbering p id level _ _ => exact fun _ => rfl

theorem told_paragraph {p : Paragraph} (h : MadeParagraph p) (w : List Place) : Told (walkParagraph w p) p.hasNumbering := by
  have := madeParagraph_flag h
  obtain ⟨i, cs, pr, n⟩ := p
  intro e
  simp only [walkParagraph, pick_cons] at e
  rw [walkParagraphChildren_dead cs _ (numberedAt_dead rfl), List.append_nil] at e
  refine this ?_
  dsimp only
  unfold numberedAt at e
  by_contra hc
  rw [Bool.not_eq_true] at hc
  simp only [Item.numbered, hc, Bool.false_and, Bool.false_eq_true, if_false] at e
  exact e rfl

theorem walkCellContents_append : ∀ (w : List Place) (a b : List CellContent),
    walkCellContents w (a ++ b) = walkCellContents w a ++ walkCellContents w b
  | _, [], _ => rfl
  | w, x :: a, b => by simp only [List.cons_append, walkCellContents, walkCellContents_append w a b, List.append_assoc]
theorem walkRows_append : ∀ (w : List Place) (a b : List Row), walkRows w (a ++ b) = walkRows w a ++ walkRows w b
  | _, [], _ => rfl
  | w, x :: a, b => by simp only [List.cons_append, walkRows, walkRows_append w a b, List.append_assoc]
theorem walkSdtChildren_append : ∀ (w : List Place) (a b : List SdtChild),
    walkSdtChildren w (a ++ b) = walkSdtChildren w a ++ walkSdtChildren w b
  | _, [], _ => rfl
  | w, x :: a, b => by simp only [List.cons_append, walkSdtChildren, walkSdtChildren_append w a b, List.append_assoc]

theorem told_cells (w : List Place) : ∀ (cs : List Cell), (∀ c ∈ cs, Told (walkCell w c) c.hasNumbering) → Told (walkCells w cs) (cs.any Cell.hasNumbering)
  | [], _ => told_nil _
  | c :: cs, h => by
    rw [walkCells, List.any_cons]
    exact (h c (List.mem_cons_self ..)).append (told_cells w cs fun x hx => h x (List.mem_cons_of_mem _ hx))
theorem told_rows (w : List Place) : ∀ (rs : List Row), (∀ r ∈ rs, Told (walkRow w r) r.hasNumbering) → Told (walkRows w rs) (rs.any Row.hasNumbering)
  | [], _ => told_nil _
  | c :: cs, h => by
    rw [walkRows, List.any_cons]
    exact (h c (List.mem_cons_self ..)).append (told_rows w cs fun x hx => h x (List.mem_cons_of_mem _ hx))

theorem sdt_in_cell (w : List Place) (s : Sdt) : pick numberedAt (walkSdt (.cell :: w) s) = [] := by
  obtain ⟨cs, pr, n⟩ := s
  rw [walkSdt, pick_cons, walkSdtChildren_dead cs _ (numberedAt_dead rfl), List.append_nil]
  rfl
theorem toc_unnumbered (w : List Place) (t : Toc) : pick numberedAt (walkToc w t) = [] := by
  obtain ⟨a, b, c, d, e, f, g, bs, as, j, k⟩ := t
  rw [walkToc, pick_cons, pick_append, walkBlocks_dead bs _ (numberedAt_dead rfl), walkBlocks_dead as _ (numberedAt_dead rfl)]
  rfl
theorem comment_unnumbered (w : List Place) (c : Comment) : pick numberedAt (walkComment (.comment :: w) c) = [] :=
  walkComment_dead c _ (numberedAt_dead rfl)

theorem walkTable_eq (w : List Place) (t : Table) : walkTable w t = (w, .table t) :: walkRows w t.rows := by cases t; rfl
theorem walkRow_eq (w : List Place) (r : Row) : walkRow w r = walkCells w r.cells := by cases r; rfl
theorem walkCell_eq (w : List Place) (c : Cell) : walkCell w c = (w, .cell c) :: walkCellContents (.cell :: w) c.children := by cases c; rfl
theorem walkSdt_eq (w : List Place) (c : Sdt) : walkSdt w c = (w, .sdt c) :: walkSdtChildren (.sdt :: w) c.children := by cases c; rfl

mutual
theorem told_cell' : ∀ {c : Cell}, MadeCell c → ∀ w, Told (walkCellContents (.cell :: w) c.children) c.hasNumbering
  | _, .new, w => told_nil _
  | _, .addParagraph c p hc hp, w => by
    rw [Cell.addParagraph, walkCellContents_append]
    refine (told_cell' hc w).append ?_
    rw [walkCellContents, walkCellContents, List.append_nil]
    exact told_paragraph hp _
  | _, .addTable c t hc ht, w => by
    rw [Cell.addTable, walkCellContents_append]
    refine (told_cell' hc w).append ?_
    rw [walkCellContents, walkCellContents, List.append_nil]
    exact told_table ht _
  | _, .addSdt c s hc, w => by
    rw [Cell.addSdt, walkCellContents_append]
    refine (told_cell' hc w).left ?_
    rw [walkCellContents, walkCellContents, List.append_nil]
    exact sdt_in_cell w s
  | _, .addToc c t hc, w => by
    rw [Cell.addToc, walkCellContents_append]
    refine (told_cell' hc w).left ?_
    rw [walkCellContents, walkCellContents, List.append_nil]
    exact toc_unnumbered _ t
  | _, .format c pr hc, w => told_cell' hc w
theorem told_row : ∀ {r : Row}, MadeRow r → ∀ w, Told (walkRow w r) r.hasNumbering
  | _, .new cs h, w => by
    rw [walkRow_eq]
    refine told_cells w cs fun c hc => ?_
    rw [walkCell_eq]
    exact (told_cell' (h c hc) w).cons rfl
  | _, .format r pr h, w => by
    have := told_row h w
    rw [walkRow_eq] at this ⊢
    exact this
theorem told_table : ∀ {t : Table}, MadeTable t → ∀ w, Told (walkTable w t) t.hasNumbering
  | _, .new rs h, w => by
    rw [walkTable_eq]
    exact (told_rows w rs fun r hr => told_row (h r hr) w).cons rfl
  | _, .withoutBorders rs h, w => by
    rw [walkTable_eq]
    exact (told_rows w rs fun r hr => told_row (h r hr) w).cons rfl
  | _, .addRow t r ht hr hf, w => by
    have := told_table ht w
    rw [walkTable_eq] at this ⊢
    refine Told.cons rfl ?_
    rw [Table.addRow, walkRows_append]
    refine Told.append' (fun e => this ?_) ?_
    · rw [pick_cons]
      exact fun h => e (List.append_eq_nil_iff.1 h).2
    · rw [walkRows, walkRows, List.append_nil]
      exact (told_row hr w).mono hf
  | _, .format t g pr ht, w => by
    have := told_table ht w
    rw [walkTable_eq] at this ⊢
    refine Told.cons rfl fun e => this ?_
    rw [pick_cons]
    exact fun h => e (List.append_eq_nil_iff.1 h).2
end

theorem told_sdt {s : Sdt} (h : MadeSdt s) (w : List Place) : Told (walkSdt w s) s.hasNumbering := by
  rw [walkSdt_eq]
  refine Told.cons rfl ?_
  induction h with
  | new => exact told_nil _
  | addRun s r _ ih =>
    rw [Sdt.addRun, walkSdtChildren_append]
    refine ih.left ?_
    rw [walkSdtChildren, walkSdtChildren, List.append_nil, walkSdtChild]
    obtain ⟨pr, cs⟩ := r
    rw [walkRun, pick_cons, walkRunChildren_dead cs _ (numberedAt_dead rfl)]
    rfl
  | addParagraph s p _ hp ih =>
    rw [Sdt.addParagraph, walkSdtChildren_append]
    refine ih.append ?_
    rw [walkSdtChildren, walkSdtChildren, List.append_nil]
    exact told_paragraph hp _
  | addTable s p _ hp ih =>
    rw [Sdt.addTable, walkSdtChildren_append]
    refine ih.append ?_
    rw [walkSdtChildren, walkSdtChildren, List.append_nil]
    exact told_table hp _
  | format s pr _ ih => exact ih

theorem told_header {h : Header} (hh : MadeHeader h) (w : List Place) : Told (walkHeader w h) h.hasNumbering := by
  unfold walkHeader
  induction hh with
  | new => exact told_nil _
  | addParagraph h p _ hp ih =>
    rw [Header.addParagraph, List.flatMap_append]
    refine ih.append ?_
    rw [List.flatMap_cons, List.flatMap_nil, List.append_nil]
    exact told_paragraph hp _
  | addTable h p _ hp ih =>
    rw [Header.addTable, List.flatMap_append]
    refine ih.append ?_
    rw [List.flatMap_cons, List.flatMap_nil, List.append_nil]
    exact told_table hp _
  | addSdt h p _ hp ih =>
    rw [Header.addSdt, List.flatMap_append]
    refine ih.append ?_
    rw [List.flatMap_cons, List.flatMap_nil, List.append_nil]
    exact told_sdt hp _

/-- What holds of a section made with the methods. -/
structure SectionTold (s : Section) : Prop where
  children : ∀ w, Told (s.children.flatMap (walkSectionChild w)) s.hasNumbering
  bare : ∀ side : Side, ∀ o ∈ side.parts s.property, o = none
  heads : ∀ (side : Side) (h : Header), some h ∈ side.ofSection s → MadeHeader h

theorem told_section {s : Section} (h : MadeSection s) : SectionTold s := by
  have hone : ∀ {s s' : Section} (x : SectionChild), SectionTold s → s'.children = s.children ++ [x] → s'.property = s.property →
      (∀ side : Side, side.ofSection s' = side.ofSection s) → (∀ w, Told (walkSectionChild w x) s'.hasNumbering) →
      (s.hasNumbering = true → s'.hasNumbering = true) → SectionTold s' := by
    intro s s' x hs h1 h2 h3 h4 h5
    refine ⟨fun w => ?_, by rw [h2]; exact hs.bare, fun side h hh => hs.heads side h (by rwa [h3] at hh)⟩
    rw [h1, List.flatMap_append, List.flatMap_cons, List.flatMap_nil, List.append_nil]
    exact ((hs.children w).mono h5).append' (h4 w)
  have hpart : ∀ {s s' : Section} (x : Header), SectionTold s → MadeHeader x → s'.children = s.children → s'.property = s.property →
      s'.hasNumbering = s.hasNumbering → (∀ (side : Side) (o : Option Header), o ∈ side.ofSection s' → o = some x ∨ o ∈ side.ofSection s) → SectionTold s' := by
    intro s s' x hs hx h1 h2 h3 h4
    refine ⟨by rw [h1, h3]; exact hs.children, by rw [h2]; exact hs.bare, fun side h hh => ?_⟩
    rcases h4 side _ hh with e | e
    · cases e
      exact hx
    · exact hs.heads side h e
  induction h with
  | new => exact ⟨fun w => told_nil _, fun side o ho => by cases side <;> simpa [Side.parts] using ho, fun side h hh => by
      cases side <;> simp [Side.ofSection] at hh⟩
  | addParagraph s p _ hp ih =>
    exact hone (.paragraph p) ih rfl rfl (fun side => by cases side <;> rfl)
      (fun w => (told_paragraph hp w).mono fun e => by simp [Section.addParagraph, e]) (fun e => by simp [Section.addParagraph, e])
  | addTable s p _ hp ih =>
    exact hone (.table p) ih rfl rfl (fun side => by cases side <;> rfl)
      (fun w => (told_table hp w).mono fun e => by simp [Section.addTable, e]) (fun e => by simp [Section.addTable, e])
  | addBookmarkStart s i n _ ih =>
    exact hone (.bookmarkStart i n) ih rfl rfl (fun side => by cases side <;> rfl) (fun w => told_nil _) id
  | addBookmarkEnd s i _ ih =>
    exact hone (.bookmarkEnd i) ih rfl rfl (fun side => by cases side <;> rfl) (fun w => told_nil _) id
  | addCommentStart s c _ ih =>
    exact hone (.commentStart c.id c) ih rfl rfl (fun side => by cases side <;> rfl)
      (fun w => Told.cons rfl (told_none _ (comment_unnumbered w c))) id
  | addCommentEnd s i _ ih =>
    exact hone (.commentEnd i) ih rfl rfl (fun side => by cases side <;> rfl) (fun w => told_nil _) id
  | setHeader s h _ hh ih =>
    exact hpart h ih hh rfl rfl rfl (fun side o ho => by cases side <;> simp [Side.ofSection, Section.setHeader] at ho ⊢ <;> tauto)
  | setFirstHeader s h _ hh ih =>
    exact hpart h ih hh rfl rfl rfl (fun side o ho => by cases side <;> simp [Side.ofSection, Section.setFirstHeader] at ho ⊢ <;> tauto)
  | setEvenHeader s h _ hh ih =>
    exact hpart h ih hh rfl rfl rfl (fun side o ho => by cases side <;> simp [Side.ofSection, Section.setEvenHeader] at ho ⊢ <;> tauto)
  | setFooter s h _ hh ih =>
    exact hpart h ih hh rfl rfl rfl (fun side o ho => by cases side <;> simp [Side.ofSection, Section.setFooter] at ho ⊢ <;> tauto)
  | setFirstFooter s h _ hh ih =>
    exact hpart h ih hh rfl rfl rfl (fun side o ho => by cases side <;> simp [Side.ofSection, Section.setFirstFooter] at ho ⊢ <;> tauto)
  | setEvenFooter s h _ hh ih =>
    exact hpart h ih hh rfl rfl rfl (fun side o ho => by cases side <;> simp [Side.ofSection, Section.setEvenFooter] at ho ⊢ <;> tauto)
  | layout s f _ ih => exact ⟨ih.children, fun side => by
      have := ih.bare side
      cases side <;> exact this, fun side => by
      have := ih.heads side
      cases side <;> exact this⟩

end Docx
