import Verif.Lemmas.ReadParagraphs
import Verif.Lemmas.ReadTableFormat

/-!
# Reading back tables and content controls
-/

namespace Docx

open Docx.Xml Docx.Spec

variable {x : ReadEnv} {σ : Type}

/-! ## What is read back -/

/-- Content of a cell that marks the cell as numbered. -/
def CellContent.numbered : CellContent → Bool
  | .paragraph p => p.hasNumbering
  | .table t => t.hasNumbering
  | _ => false

mutual
/-- A content control read back: its properties are not read. -/
def Sdt.reread (x : ReadEnv) : Sdt → Sdt
  | ⟨children, _, _⟩ => ⟨rereadSdtChildren x children, {}, false⟩
/-- The children of a content control read back. -/
def rereadSdtChildren (x : ReadEnv) : List SdtChild → List SdtChild
  | [] => []
  | c :: cs => c.reread x ++ rereadSdtChildren x cs
/-- What is read back for a child of a content control. -/
def SdtChild.reread (x : ReadEnv) : SdtChild → List SdtChild
  | .run r => [.run r.reread]
  | .paragraph p => [.paragraph p.reread]
  | .table t => [.table (t.reread x)]
  | .bookmarkStart id name => [.bookmarkStart id (seen name)]
  | .bookmarkEnd id => [.bookmarkEnd id]
  | .commentStart id _ => [.commentStart id (.new id)]
  | .commentEnd id => [.run {}, .commentEnd id, .run {}]
  | .sdt _ => []
/-- A table read back. -/
def Table.reread (x : ReadEnv) : Table → Table
  | ⟨rows, grid, _, property⟩ => ⟨rereadRows x rows, grid.map widthAgain, false, property.reread⟩
/-- The rows read back. -/
def rereadRows (x : ReadEnv) : List Row → List Row
  | [] => []
  | r :: rs => r.reread x :: rereadRows x rs
/-- A row read back. -/
def Row.reread (x : ReadEnv) : Row → Row
  | ⟨cells, _, property⟩ => ⟨rereadCells x cells, (rereadCells x cells).any Cell.hasNumbering, property.reread x⟩
/-- The cells read back. -/
def rereadCells (x : ReadEnv) : List Cell → List Cell
  | [] => []
  | c :: cs => c.reread x :: rereadCells x cs
/-- A cell read back. -/
def Cell.reread (x : ReadEnv) : Cell → Cell
  | ⟨children, property, _⟩ => ⟨rereadContents x children, property.reread, (rereadContents x children).any CellContent.numbered⟩
/-- The content of a cell read back. -/
def rereadContents (x : ReadEnv) : List CellContent → List CellContent
  | [] => []
  | c :: cs => c.reread x ++ rereadContents x cs
/-- What is read back for one thing in a cell. -/
def CellContent.reread (x : ReadEnv) : CellContent → List CellContent
  | .paragraph p => [.paragraph p.reread]
  | .table t => [.table (t.reread x)]
  | .sdt s => [.sdt (s.reread x)]
  | .toc _ => []
end

/-- Properties of a content control that the reader can pass over. -/
def SdtProperty.Readable (p : SdtProperty) : Prop := p.runProperty = {}

/-- A cell whose only content is a table. -/
def onlyTable : List CellContent → Prop
  | [.table _] => True
  | _ => False

mutual
/-- A content control that can be read back. -/
def Sdt.Readable : Sdt → Prop
  | ⟨children, property, _⟩ => property.Readable ∧ readableSdtChildren children
/-- Children of a content control that can be read back. -/
def readableSdtChildren : List SdtChild → Prop
  | [] => True
  | c :: cs => c.Readable ∧ readableSdtChildren cs
/-- A child of a content control that can be read back. -/
def SdtChild.Readable : SdtChild → Prop
  | .run r => r.Readable
  | .paragraph p => p.Readable
  | .table t => t.Readable
  | .bookmarkStart id name => Fits id ∧ (decodeAttr name).isSome
  | .bookmarkEnd id => Fits id
  | .commentStart id _ => Fits id
  | .commentEnd id => Fits id
  | .sdt _ => False
/-- A table that can be read back. -/
def Table.Readable : Table → Prop
  | ⟨rows, _, _, property⟩ => property.Readable ∧ readableRows rows
/-- Rows that can be read back. -/
def readableRows : List Row → Prop
  | [] => True
  | r :: rs => r.Readable ∧ readableRows rs
/-- A row that can be read back. -/
def Row.Readable : Row → Prop
  | ⟨cells, _, property⟩ => property.Readable ∧ readableCells cells
/-- Cells that can be read back. -/
def readableCells : List Cell → Prop
  | [] => True
  | c :: cs => c.Readable ∧ readableCells cs
/-- A cell that can be read back: it has content other than a single table. -/
def Cell.Readable : Cell → Prop
  | ⟨children, property, _⟩ => children ≠ [] ∧ ¬ onlyTable children ∧ property.Readable ∧ readableContents children
/-- Content that can be read back. -/
def readableContents : List CellContent → Prop
  | [] => True
  | c :: cs => c.Readable ∧ readableContents cs
/-- Content that can be read back. -/
def CellContent.Readable : CellContent → Prop
  | .paragraph p => p.Readable
  | .table t => t.Readable
  | .sdt s => s.Readable
  | .toc _ => False
end

/-! ## Content controls -/

/-- Children added to a content control. -/
def Sdt.addAll (h : Sdt) (cs : List SdtChild) : Sdt := { h with children := h.children ++ cs }

theorem Sdt.addAll_nil (r : Sdt) : r.addAll [] = r := by cases r; simp [Sdt.addAll]

theorem sdt_child {α : Type} {n : Str} {as : List (Str × Str)} {body : List Node} {a : α} {F : Readers → List REvent → Read α}
    {mk : α → SdtChild} (hr : Returns x F n body a) (h : Sdt)
    (e : ∀ R es, (sdtLoop x R).start h (splitQName n) (expectAttrs as) es =
      (F R es).caught fun r es => .ok (sdtLoop.add h (r.map mk)) es) :
    TakesF x (sdtLoop x) h [.elem n as body] (h.addAll [mk a]) := by
  refine TakesF.child ((hr.caught (g := fun r es => .ok (sdtLoop.add h (r.map mk)) es) (fun es => rfl)).congr (fun _ es hd => e _ _))

theorem sdt_run {body : List Node} {r : Run} (hr : Returns x (fun R => R.run) c!"w:r" body r) (h : Sdt) :
    TakesF x (sdtLoop x) h [.elem c!"w:r" [] body] (h.addAll [.run r]) :=
  sdt_child (mk := .run) hr h fun R es => by simp [-String.reduceToList, sdtLoop]

theorem sdt_comment {n : Nat} (hn : Fits n) (h : Sdt) :
    TakesF x (sdtLoop x) h (commentStartNodes n) (h.addAll [.commentStart n (.new n)]) := by
  refine TakesF.leaf' (fun _ es hd => ?_) (fun _ => ?_)
  · simp [-String.reduceToList, sdtLoop, sdtLoop.add, readCommentId_dec hn, Sdt.addAll]
  · simp [-String.reduceToList, sdtLoop, closesAt]

theorem sdt_commentEnd {n : Nat} (hn : Fits n) (h : Sdt) :
    TakesF x (sdtLoop x) h (commentEndNodes n) (h.addAll [.run {}, .commentEnd n, .run {}]) := by
  have h1 : ∀ d, TakesF x (sdtLoop x) d (leafN c!"w:commentRangeEnd" [(c!"w:id", dec n)]) (d.addAll [.commentEnd n]) := by
    intro d
    refine TakesF.leaf' (fun _ es hd => ?_) (fun _ => ?_)
    · simp [-String.reduceToList, sdtLoop, sdtLoop.add, readCommentId_dec hn, Sdt.addAll]
    · simp [-String.reduceToList, sdtLoop, closesAt]
  have := TakesN.append (TakesN.append (sdt_run returns_runBefore) h1) (sdt_run (returns_runBehind n)) h
  rw [show h.addAll [.run {}, .commentEnd n, .run {}] = ((h.addAll [.run {}]).addAll [.commentEnd n]).addAll [.run {}] by simp [Sdt.addAll]]
  exact this

theorem sdt_bookmark {id : Nat} {name : Str} (hi : Fits id) (hn : (decodeAttr name).isSome) (h : Sdt) :
    TakesF x (sdtLoop x) h (bookmarkStartNodes id name) (h.addAll [.bookmarkStart id (seen name)]) := by
  refine TakesF.leaf' (fun _ es hd => ?_) (fun _ => ?_)
  · simp [-String.reduceToList, sdtLoop, sdtLoop.add, readBookmarkStart_attrs hi hn, Read.caught, Sdt.addAll]
  · simp [-String.reduceToList, sdtLoop, closesAt]

theorem sdt_bookmarkEnd {id : Nat} (hi : Fits id) (h : Sdt) :
    TakesF x (sdtLoop x) h (bookmarkEndNodes id) (h.addAll [.bookmarkEnd id]) := by
  refine TakesF.leaf' (fun _ es hd => ?_) (fun _ => ?_)
  · simp [-String.reduceToList, sdtLoop, sdtLoop.add, readBookmarkEnd_attrs hi, Read.caught, Sdt.addAll]
  · simp [-String.reduceToList, sdtLoop, closesAt]

/-- An element without content the reader does not know. -/
theorem sdt_skip {n : Str} {as : List (Str × Str)} (hn : n = c!"w:rPr" ∨ n = c!"w:dataBinding" ∨ n = c!"w:alias") (h : Sdt) :
    TakesF x (sdtLoop x) h (leafN n as) h := by
  refine TakesF.leaf' (fun _ es hd => ?_) (fun _ => ?_) <;> rcases hn with rfl | rfl | rfl <;>
    simp [-String.reduceToList, sdtLoop, closesAt]

theorem runProperty_default : RunProperty.nodes {} = elemN c!"w:rPr" [] (RunProperty.nodes {} |> fun _ => emitN []) := by
  funext g
  rfl

theorem takes_sdtPr (p : SdtProperty) (h : p.Readable) : TakesN x (sdtLoop x) p.nodes id := by
  intro g f g' e s
  obtain ⟨rp, db, al⟩ := p
  cases (show rp = {} from h)
  rw [SdtProperty.nodes, runProperty_default] at e
  obtain ⟨body, hb, rfl⟩ := elemN_eq e
  refine TakesF.wrap (s₁ := s) (s₂ := s) (fun d es hd => ?_) ?_ (fun d => ?_)
  · simp [-String.reduceToList, sdtLoop]
  · have k1 : TakesN x (sdtLoop x) (elemN c!"w:rPr" [] (emitN [])) id := by
      intro g f g' e s
      obtain ⟨body, hb, rfl⟩ := elemN_eq e
      cases hb
      exact sdt_skip (.inl rfl) s
    have k2 : TakesN x (sdtLoop x) (emitN (optN db DataBinding.nodes)) id :=
      .opt (fun a _ s => sdt_skip (.inr (.inl rfl)) s) fun _ _ => rfl
    have k3 : TakesN x (sdtLoop x) (emitN (optN al (valN c!"w:alias"))) id :=
      .opt (fun a _ s => sdt_skip (.inr (.inr rfl)) s) fun _ _ => rfl
    exact (k1.cat_cons (k2.cat_cons (k3.cat_cons .cat_nil))) _ _ _ hb s
  · simp [-String.reduceToList, sdtLoop, closesAt]

/-! ## Cells, rows, tables -/

/-- Content added to a cell. -/
def Cell.push (c : Cell) : CellContent → Cell
  | .paragraph p => c.addParagraph p
  | .table t => c.addTable t
  | .sdt s => c.addSdt s
  | .toc t => c.addToc t

theorem Cell.push_all : ∀ (l : List CellContent) (c : Cell),
    l.foldl Cell.push c = ⟨c.children ++ l, c.property, c.hasNumbering || l.any CellContent.numbered⟩
  | [], c => by cases c; simp
  | a :: l, c => by
    rw [List.foldl_cons, Cell.push_all l]
    cases a <;> simp [Cell.push, Cell.addParagraph, Cell.addTable, Cell.addSdt, Cell.addToc, CellContent.numbered, Bool.or_assoc]

/-- Rows added to a table. -/
theorem Table.addRow_all : ∀ (l : List Row) (t : Table), l.foldl Table.addRow t = { t with rows := t.rows ++ l }
  | [], t => by cases t; simp
  | r :: l, t => by rw [List.foldl_cons, Table.addRow_all l]; simp [Table.addRow]

theorem takes_tcPr (p : TableCellProperty) (h : p.Readable) :
    TakesN x (cellLoop x) (emitN p.nodes) (fun c => { c with property := p.reread }) := by
  refine .emit fun c => ?_
  obtain ⟨body, e, hr⟩ := returns_cellProperty (x := x) p h
  rw [e]
  refine TakesF.child ((hr.caught (g := fun p es => .ok { c with property := p.getD c.property } es) (fun es => rfl)).congr (fun _ es hd => ?_))
  simp [-String.reduceToList, cellLoop]

theorem takes_tblPr (p : TableProperty) (h : p.Readable) :
    TakesN x (tableLoop x) (emitN p.nodes) (fun c => { c with property := p.reread }) := by
  refine .emit fun c => ?_
  obtain ⟨body, e, hr⟩ := returns_tableProperty (x := x) p h
  rw [e]
  refine TakesF.child ((hr.caught (g := fun p es => .ok { c with property := p.getD c.property } es) (fun es => rfl)).congr (fun _ es hd => ?_))
  simp [-String.reduceToList, tableLoop, ignoreElement, Read.bind]

theorem cell_paragraph {p : Paragraph} (h : p.Readable) : TakesN x (cellLoop x) p.nodes (fun c => c.addParagraph p.reread) := by
  intro g f g' e c
  obtain ⟨as, body, rfl, hr⟩ := returns_paragraph (x := x) p h e
  refine TakesF.child ((hr.map c.addParagraph).congr (fun _ es hd => ?_))
  simp [-String.reduceToList, cellLoop]

theorem sdt_paragraph {p : Paragraph} (h : p.Readable) : TakesN x (sdtLoop x) p.nodes (fun c => c.addAll [.paragraph p.reread]) := by
  intro g f g' e c
  obtain ⟨as, body, rfl, hr⟩ := returns_paragraph (x := x) p h e
  exact sdt_child (mk := .paragraph) hr c fun R es => by simp [-String.reduceToList, sdtLoop]

mutual
theorem returns_table : ∀ (t : Table) (_ : t.Readable) {g g' : Gen} {f : List Node} (_ : t.nodes g = some (f, g')),
    ∃ body, f = [.elem c!"w:tbl" [] body] ∧ Returns x (fun R => R.table) c!"w:tbl" body (t.reread x)
  | ⟨rows, grid, num, property⟩, h, g, g', f, e => by
    rw [Table.nodes] at e
    obtain ⟨body, hb, rfl⟩ := elemN_eq e
    rw [Table.Readable] at h
    refine ⟨body, rfl, Returns.table ?_⟩
    have key := ((takes_tblPr property h.1).cat_cons ((TakesN.emit (takes_grid (x := x) grid)).cat_cons
      ((takes_rows rows h.2).cat_cons .cat_nil))) _ _ _ hb (.withoutBorders [])
    refine (Returns.loop key (n := c!"w:tbl") (fun _ => ?_)).mono ?_
    · simp [-String.reduceToList, tableLoop, closesAt]
    · simp [Table.withoutBorders, Table.addRow_all, Table.reread]
theorem takes_rows : ∀ (rs : List Row) (_ : readableRows rs),
    TakesN x (tableLoop x) (nodesRows rs) (fun t => (rereadRows x rs).foldl Table.addRow t)
  | [], _ => TakesN.nil.congr fun t => by rw [rereadRows]; rfl
  | r :: rs, h => by
    rw [readableRows] at h
    rw [nodesRows]
    exact ((takes_row r h.1).then (takes_rows rs h.2)).congr fun t => by rw [rereadRows]; rfl
theorem takes_row : ∀ (r : Row) (_ : r.Readable), TakesN x (tableLoop x) r.nodes (fun t => t.addRow (r.reread x))
  | ⟨cells, num, property⟩, h => by
    intro g f g' e t
    rw [Row.nodes] at e
    obtain ⟨body, hb, rfl⟩ := elemN_eq e
    rw [Row.Readable] at h
    obtain ⟨f₁, g₁, f₂, e₁, e₂, rfl⟩ := thenN_eq hb
    obtain ⟨f₂, g₂, f₃, e₂, e₃, rfl⟩ := thenN_eq e₂
    cases e₃
    have key := (takes_trPr (x := x) property h.1 e₁ []).append (takes_cells cells h.2 e₂ [] (property.reread x))
    rw [← List.append_nil f₂] at key
    refine TakesF.child (((Returns.loop key (n := c!"w:tr") (fun _ => ?_)).map (fun s => t.addRow { Row.new s.1 with property := s.2 })).congr
      (fun _ es hd => ?_) |>.mono ?_)
    · simp [-String.reduceToList, rowLoop, closesAt]
    · simp [-String.reduceToList, tableLoop, ignoreElement, Read.bind, readRow]
      cases (rowLoop x _).run _ _ es <;> rfl
    · rw [Row.reread]; simp [Row.new]
theorem takes_cells : ∀ (cs : List Cell) (_ : readableCells cs) {g g' : Gen} {f : List Node} (_ : nodesCells cs g = some (f, g'))
    (l : List Cell) (p : TableRowProperty), TakesF x (rowLoop x) (l, p) f (l ++ rereadCells x cs, p)
  | [], _, g, g', f, e, l, p => by
    rw [nodesCells] at e
    cases e
    rw [rereadCells, List.append_nil]
    exact .nil _
  | c :: cs, h, g, g', f, e, l, p => by
    rw [readableCells] at h
    rw [nodesCells] at e
    obtain ⟨f₁, g₁, f₂, e₁, e₂, rfl⟩ := thenN_eq e
    have := (takes_cell c h.1 e₁ l p).append (takes_cells cs h.2 e₂ (l ++ [c.reread x]) p)
    rw [rereadCells]
    simpa using this
theorem takes_cell : ∀ (c : Cell) (_ : c.Readable) {g g' : Gen} {f : List Node} (_ : c.nodes g = some (f, g'))
    (l : List Cell) (p : TableRowProperty), TakesF x (rowLoop x) (l, p) f (l ++ [c.reread x], p)
  | ⟨children, property, num⟩, h, g, g', f, e, l, p => by
    rw [Cell.nodes] at e
    obtain ⟨body, hb, rfl⟩ := elemN_eq e
    rw [Cell.Readable] at h
    obtain ⟨h1, h2, h3, h4⟩ := h
    have hk : TakesN x (cellLoop x) (ifN children.isEmpty (newParagraphN {} (emitN []))) id := by
      rw [show children.isEmpty = false by simpa using h1]
      exact .nil
    have ho : ∀ t ∈ children, decide (children.length = 1) = true → ¬ onlyTable [t] := by
      intro t ht e
      obtain ⟨c, rfl⟩ := List.length_eq_one_iff.1 (of_decide_eq_true e)
      rw [List.mem_singleton] at ht
      exact ht ▸ h2
    have key := ((takes_tcPr property h3).cat_cons ((takes_contents (decide (children.length = 1)) children ho h4).cat_cons (hk.cat_cons .cat_nil))) _ _ _ hb {}
    refine TakesF.child (((Returns.loop key (n := c!"w:tc") (fun _ => ?_)).map (fun c => (l ++ [c], p))).congr
      (fun _ es hd => ?_) |>.mono ?_)
    · simp [-String.reduceToList, cellLoop, closesAt]
    · simp [-String.reduceToList, rowLoop, ignoreElement, Read.bind]
    · simp [Cell.reread, Cell.push_all]
theorem takes_contents (only : Bool) : ∀ (cs : List CellContent) (_ : ∀ t ∈ cs, only = true → ¬ onlyTable [t]) (_ : readableContents cs),
    TakesN x (cellLoop x) (nodesCellContents only cs) (fun c => (rereadContents x cs).foldl Cell.push c)
  | [], _, _ => TakesN.nil.congr fun t => by rw [rereadContents]; rfl
  | c :: cs, ho, h => by
    rw [readableContents] at h
    rw [nodesCellContents]
    refine ((takes_content only c (ho c (by simp)) h.1).then (takes_contents only cs (fun t ht => ho t (by simp [ht])) h.2)).congr fun t => ?_
    rw [rereadContents]; simp
theorem takes_content (only : Bool) : ∀ (c : CellContent) (_ : only = true → ¬ onlyTable [c]) (_ : c.Readable),
    TakesN x (cellLoop x) (c.nodes only) (fun d => (c.reread x).foldl Cell.push d)
  | .paragraph p, _, h => by
    rw [CellContent.nodes]
    rw [CellContent.Readable] at h
    exact (cell_paragraph h).congr fun d => by rw [CellContent.reread]; rfl
  | .table t, ho, h => by
    rw [CellContent.nodes]
    rw [CellContent.Readable] at h
    have hb : only = false := by
      cases only with
      | false => rfl
      | true => exact absurd trivial (ho rfl)
    subst hb
    intro g f g' e d
    obtain ⟨f₁, g₁, f₂, e₁, e₂, rfl⟩ := thenN_eq e
    cases e₂
    rw [List.append_nil]
    obtain ⟨body, rfl, hr⟩ := returns_table t h e₁
    rw [CellContent.reread]
    refine TakesF.child ((hr.caught (g := fun t es => match t with
        | some t => .ok (d.addTable t) es
        | none => .ok d es) (fun es => rfl)).congr (fun _ es hd => ?_))
    simp [-String.reduceToList, cellLoop]
    rfl
  | .sdt s, _, h => by
    rw [CellContent.nodes]
    rw [CellContent.Readable] at h
    intro g f g' e d
    obtain ⟨body, rfl, hr⟩ := returns_sdt s h e
    rw [CellContent.reread]
    refine TakesF.child ((hr.caught (g := fun t es => match t with
        | some t => .ok (d.addSdt t) es
        | none => .ok d es) (fun es => rfl)).congr (fun _ es hd => ?_))
    simp [-String.reduceToList, cellLoop]
    rfl
  | .toc t, _, h => by
    rw [CellContent.Readable] at h
    exact absurd h id
theorem returns_sdt : ∀ (s : Sdt) (_ : s.Readable) {g g' : Gen} {f : List Node} (_ : s.nodes g = some (f, g')),
    ∃ body, f = [.elem c!"w:sdt" [] body] ∧ Returns x (readSdt x) c!"w:sdt" body (s.reread x)
  | ⟨children, property, num⟩, h, g, g', f, e => by
    rw [Sdt.nodes] at e
    obtain ⟨body, hb, rfl⟩ := elemN_eq e
    rw [Sdt.Readable] at h
    refine ⟨body, rfl, ?_⟩
    have hc : TakesN x (sdtLoop x) (elemN c!"w:sdtContent" [] (nodesSdtChildren children)) (fun s => s.addAll (rereadSdtChildren x children)) := by
      intro g f g' e s
      obtain ⟨body, hb, rfl⟩ := elemN_eq e
      refine TakesF.wrap (s₁ := s) (fun d es hd => ?_) (takes_sdtChildren children h.2 _ _ _ hb s) (fun d => ?_)
      · simp [-String.reduceToList, sdtLoop]
      · simp [-String.reduceToList, sdtLoop, closesAt]
    have key := ((takes_sdtPr (x := x) property h.1).cat_cons (hc.cat_cons .cat_nil)) _ _ _ hb {}
    refine (Returns.loop key (n := c!"w:sdt") (fun _ => ?_)).mono ?_
    · simp [-String.reduceToList, sdtLoop, closesAt]
    · simp [Sdt.addAll, Sdt.reread]
theorem takes_sdtChildren : ∀ (cs : List SdtChild) (_ : readableSdtChildren cs),
    TakesN x (sdtLoop x) (nodesSdtChildren cs) (fun s => s.addAll (rereadSdtChildren x cs))
  | [], _ => TakesN.nil.congr fun t => by rw [rereadSdtChildren, Sdt.addAll_nil]; rfl
  | c :: cs, h => by
    rw [readableSdtChildren] at h
    rw [nodesSdtChildren]
    refine ((takes_sdtChild c h.1).then (takes_sdtChildren cs h.2)).congr fun t => ?_
    rw [rereadSdtChildren]; simp [Sdt.addAll]
theorem takes_sdtChild : ∀ (c : SdtChild) (_ : c.Readable), TakesN x (sdtLoop x) c.nodes (fun s => s.addAll (c.reread x))
  | .run r, h => by
    rw [SdtChild.nodes, SdtChild.reread]
    rw [SdtChild.Readable] at h
    intro g f g' e s
    obtain ⟨body, rfl, hr⟩ := returns_run r h e
    exact sdt_run hr s
  | .paragraph p, h => by
    rw [SdtChild.nodes, SdtChild.reread]
    rw [SdtChild.Readable] at h
    exact sdt_paragraph h
  | .table t, h => by
    rw [SdtChild.nodes, SdtChild.reread]
    rw [SdtChild.Readable] at h
    intro g f g' e s
    obtain ⟨body, rfl, hr⟩ := returns_table t h e
    exact sdt_child (mk := .table) hr s fun R es => by simp [-String.reduceToList, sdtLoop]
  | .bookmarkStart id name, h => by
    rw [SdtChild.nodes, SdtChild.reread]
    rw [SdtChild.Readable] at h
    exact .emit fun s => sdt_bookmark h.1 h.2 s
  | .bookmarkEnd id, h => by
    rw [SdtChild.nodes, SdtChild.reread]
    rw [SdtChild.Readable] at h
    exact .emit fun s => sdt_bookmarkEnd h s
  | .commentStart id c, h => by
    rw [SdtChild.nodes, SdtChild.reread]
    rw [SdtChild.Readable] at h
    exact .emit fun s => sdt_comment h s
  | .commentEnd id, h => by
    rw [SdtChild.nodes, SdtChild.reread]
    rw [SdtChild.Readable] at h
    exact .emit fun s => sdt_commentEnd h s
  | .sdt s, h => by
    rw [SdtChild.Readable] at h
    exact absurd h id
end

end Docx
