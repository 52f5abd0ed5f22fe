import Verif.Lemmas.ReadSection

/-!
# Table, row and cell formatting written and read
-/

namespace Docx

open Docx.Xml Docx.Spec

variable {x : ReadEnv}

/-! ## Widths -/

/-- A width read back: it is written as an `i32` and read as a `usize`. -/
def widthAgain (n : Nat) : Nat := isizeAsUsize (asI32 n)

theorem asI32_range (n : Nat) : -(2 ^ 31) ≤ asI32 n ∧ asI32 n < 2 ^ 31 := by
  unfold asI32
  simp only
  split <;> omega

theorem widthAgain_small {n : Nat} (h : n < 2 ^ 31) : widthAgain n = n := by
  have : asI32 n = (n : Int) := by
    unfold asI32
    simp only
    rw [Nat.mod_eq_of_lt (by omega), if_pos h]
  rw [widthAgain, this, isizeAsUsize]
  omega

theorem percent_free (i : Int) : (decInt i).filter (· ≠ '%') = decInt i := by
  refine List.filter_eq_self.2 fun c hc => ?_
  simp only [decide_eq_true_eq]
  rintro rfl
  have key : ∀ n, '%' ∉ dec n := fun n hn => by
    have := List.all_eq_true.1 (isDigit_dec (n := n)) _ hn
    exact absurd this (by decide)
  cases i with
  | ofNat n => exact key n hc
  | negSucc n =>
    rcases List.mem_cons.1 hc with h | h
    · exact absurd h (by decide)
    · exact key _ h

theorem widthType_decodes (t : WidthType) : decodeAttr t.toStr = some t.toStr := by cases t <;> decide +kernel

theorem readWidth_nodes (i : Int) (t : WidthType) (h : -(2 ^ 31) ≤ i ∧ i < 2 ^ 31) (es : List REvent) :
    readWidth x (expectAttrs [(c!"w:w", decInt i), (c!"w:type", t.toStr)]) es = .ok (i, t) es := by
  have hi : toIsize (roundInt 53 i) = i := by
    rw [roundInt_small (by decide) (by omega)]
    simp only [toIsize, saturate]; omega
  rw [expectAttrs_decInt, expectAttrs_lit _ _ (widthType_decodes t), expectAttrs_nil]
  simp only [readWidth, foldAttrs, split_w_w, split_w_type, Read.bind]
  have n1 : c!"w" ≠ c!"type" := by decide +kernel
  rw [if_neg n1, percent_free, parseFloat_decInt]
  simp [Read.map, orErr, Props.C31_WidthType, hi]
  rfl

theorem withWidth_nodes {σ : Type} (s : σ) (i : Int) (t : WidthType) (h : -(2 ^ 31) ≤ i ∧ i < 2 ^ 31) (es : List REvent)
    (f : Int → WidthType → σ) :
    withWidth x s (expectAttrs [(c!"w:w", decInt i), (c!"w:type", t.toStr)]) es f = .ok (f i t) es := by
  rw [withWidth, readWidth_nodes i t h]; rfl

/-- A margin read back. -/
def CellMargin.reread (m : CellMargin) : CellMargin := ⟨widthAgain m.val, m.widthType⟩

/-! ## Borders -/

/-- A table border read back: the space is not kept. -/
def TableBorder.reread (b : TableBorder) : TableBorder :=
  { b with size := floatU32 b.size, space := 0, color := seen b.color }

/-- Table borders read back. -/
def TableBorders.reread (b : TableBorders) : TableBorders where
  top := b.top.map TableBorder.reread
  left := b.left.map TableBorder.reread
  bottom := b.bottom.map TableBorder.reread
  right := b.right.map TableBorder.reread
  insideH := b.insideH.map TableBorder.reread
  insideV := b.insideV.map TableBorder.reread

/-- Each border is at its place, and the colours can be written. -/
def TableBorders.Readable (b : TableBorders) : Prop :=
  (∀ c, b.top = some c → c.position = .top) ∧ (∀ c, b.left = some c → c.position = .left) ∧
  (∀ c, b.bottom = some c → c.position = .bottom) ∧ (∀ c, b.right = some c → c.position = .right) ∧
  (∀ c, b.insideH = some c → c.position = .insideH) ∧ (∀ c, b.insideV = some c → c.position = .insideV) ∧
  ∀ s ∈ b.strings, (decodeAttr s).isSome

theorem tableBorderPosition_element (p : TableBorderPosition) :
    tableBorderPosition (elementOf (splitQName p.element).loc) = some p := by
  have h1 : elementOf (splitQName c!"w:left").loc = .left := by simp [-String.reduceToList]
  have h2 : elementOf (splitQName c!"w:right").loc = .right := by simp [-String.reduceToList]
  have h3 : elementOf (splitQName c!"w:top").loc = .top := by simp [-String.reduceToList]
  have h4 : elementOf (splitQName c!"w:bottom").loc = .bottom := by simp [-String.reduceToList]
  have h5 : elementOf (splitQName c!"w:insideH").loc = .insideH := by simp [-String.reduceToList]
  have h6 : elementOf (splitQName c!"w:insideV").loc = .insideV := by simp [-String.reduceToList]
  cases p
  case top => exact (congrArg tableBorderPosition h3).trans rfl
  case left => exact (congrArg tableBorderPosition h1).trans rfl
  case bottom => exact (congrArg tableBorderPosition h4).trans rfl
  case right => exact (congrArg tableBorderPosition h2).trans rfl
  case insideH => exact (congrArg tableBorderPosition h5).trans rfl
  case insideV => exact (congrArg tableBorderPosition h6).trans rfl

theorem takes_tBorder (o : Option TableBorder) (pos : TableBorderPosition) (s : TableBorders)
    (h : ∀ b, o = some b → b.position = pos) (hc : ∀ t ∈ optStrings o TableBorder.strings, (decodeAttr t).isSome) :
    TakesF x (fun _ => tableBordersLoop x) s (optN o TableBorder.nodes) (o.elim s fun b => s.set b.reread) := by
  cases o with
  | none => exact .nil _
  | some b =>
    replace h := h b rfl
    replace hc : (decodeAttr b.color).isSome := hc _ (by simp [optStrings, TableBorder.strings])
    obtain ⟨p, v, sz, col, sp⟩ := b
    simp only at h hc
    subst h
    have hb := readBorder_nodes (x := x) v sz sp col hc
    refine TakesF.leaf' (fun d es hd => ?_) (fun d => ?_)
    · have hp := tableBorderPosition_element p
      simp only [tableBordersLoop, hp]
      exact congrArg (Read.map _) (hb es)
    · refine closesAt_ne fun hp => ?_
      have := tableBorderPosition_element p
      rw [hp] at this
      cases this

theorem tableBorders_set {o : Option TableBorder} {pos : TableBorderPosition} {s : TableBorders} (put : Option TableBorder → TableBorders)
    {old : Option TableBorder} (h : ∀ b, o = some b → b.position = pos) (hs : ∀ b : TableBorder, b.position = pos → s.set b = put (some b))
    (hold : put old = s) : (o.elim s fun b => s.set b.reread) = put ((o.map TableBorder.reread).or old) := by
  cases o with
  | none => simp [hold]
  | some b => exact hs b.reread (h b rfl)

theorem returns_tableBorders (n : TableBorders) (h : n.Readable) :
    ∃ body, n.nodes = [.elem c!"w:tblBorders" [] body] ∧
      Returns x (fun R es => (tableBordersLoop x).run R.fuel .withEmpty es) c!"w:tblBorders" body n.reread := by
  obtain ⟨h1, h2, h3, h4, h5, h6, h7⟩ := h
  obtain ⟨t, l, b, r, ih, iv⟩ := n
  simp only at h1 h2 h3 h4 h5 h6
  simp only [TableBorders.strings, List.forall_mem_append] at h7
  refine ⟨_, rfl, ?_⟩
  have key : TakesF x (fun _ => tableBordersLoop x) .withEmpty
      (optN t TableBorder.nodes ++ optN l TableBorder.nodes ++ optN b TableBorder.nodes ++ optN r TableBorder.nodes
        ++ optN ih TableBorder.nodes ++ optN iv TableBorder.nodes) _ :=
    ((((((takes_tBorder t _ .withEmpty h1 (by grind)).append (takes_tBorder l _ _ h2 (by grind))).append
      (takes_tBorder b _ _ h3 (by grind))).append (takes_tBorder r _ _ h4 (by grind))).append
      (takes_tBorder ih _ _ h5 (by grind))).append (takes_tBorder iv _ _ h6 (by grind)))
  refine (Returns.loop (n := c!"w:tblBorders") key (fun d => by
    simp [-String.reduceToList, String.toList_inj, tableBordersLoop, closesAt])).mono ?_
  clear key h7
  have s1 : ∀ (o : Option TableBorder) (s : TableBorders), (∀ b, o = some b → b.position = .top) →
      (o.elim s fun b => s.set b.reread) = { s with top := (o.map TableBorder.reread).or s.top } := fun o s h =>
    tableBorders_set (fun v => { s with top := v }) h (fun b e => by simp only [TableBorders.set, e]) rfl
  have s2 : ∀ (o : Option TableBorder) (s : TableBorders), (∀ b, o = some b → b.position = .left) →
      (o.elim s fun b => s.set b.reread) = { s with left := (o.map TableBorder.reread).or s.left } := fun o s h =>
    tableBorders_set (fun v => { s with left := v }) h (fun b e => by simp only [TableBorders.set, e]) rfl
  have s3 : ∀ (o : Option TableBorder) (s : TableBorders), (∀ b, o = some b → b.position = .bottom) →
      (o.elim s fun b => s.set b.reread) = { s with bottom := (o.map TableBorder.reread).or s.bottom } := fun o s h =>
    tableBorders_set (fun v => { s with bottom := v }) h (fun b e => by simp only [TableBorders.set, e]) rfl
  have s4 : ∀ (o : Option TableBorder) (s : TableBorders), (∀ b, o = some b → b.position = .right) →
      (o.elim s fun b => s.set b.reread) = { s with right := (o.map TableBorder.reread).or s.right } := fun o s h =>
    tableBorders_set (fun v => { s with right := v }) h (fun b e => by simp only [TableBorders.set, e]) rfl
  have s5 : ∀ (o : Option TableBorder) (s : TableBorders), (∀ b, o = some b → b.position = .insideH) →
      (o.elim s fun b => s.set b.reread) = { s with insideH := (o.map TableBorder.reread).or s.insideH } := fun o s h =>
    tableBorders_set (fun v => { s with insideH := v }) h (fun b e => by simp only [TableBorders.set, e]) rfl
  have s6 : ∀ (o : Option TableBorder) (s : TableBorders), (∀ b, o = some b → b.position = .insideV) →
      (o.elim s fun b => s.set b.reread) = { s with insideV := (o.map TableBorder.reread).or s.insideV } := fun o s h =>
    tableBorders_set (fun v => { s with insideV := v }) h (fun b e => by simp only [TableBorders.set, e]) rfl
  rw [s1 _ _ h1, s2 _ _ h2, s3 _ _ h3, s4 _ _ h4, s5 _ _ h5, s6 _ _ h6]
  simp [TableBorders.withEmpty, TableBorders.reread]

/-- A cell border read back: the space is not kept. -/
def TableCellBorder.reread (b : TableCellBorder) : TableCellBorder :=
  { b with size := floatU32 b.size, space := 0, color := seen b.color }

/-- Cell borders read back. -/
def TableCellBorders.reread (b : TableCellBorders) : TableCellBorders where
  top := b.top.map TableCellBorder.reread
  left := b.left.map TableCellBorder.reread
  bottom := b.bottom.map TableCellBorder.reread
  right := b.right.map TableCellBorder.reread
  insideH := b.insideH.map TableCellBorder.reread
  insideV := b.insideV.map TableCellBorder.reread
  tr2bl := b.tr2bl.map TableCellBorder.reread
  tl2br := b.tl2br.map TableCellBorder.reread

/-- Each border is at its place, and the colours can be written. -/
def TableCellBorders.Readable (b : TableCellBorders) : Prop :=
  (∀ c, b.top = some c → c.position = .top) ∧ (∀ c, b.left = some c → c.position = .left) ∧
  (∀ c, b.bottom = some c → c.position = .bottom) ∧ (∀ c, b.right = some c → c.position = .right) ∧
  (∀ c, b.insideH = some c → c.position = .insideH) ∧ (∀ c, b.insideV = some c → c.position = .insideV) ∧
  (∀ c, b.tr2bl = some c → c.position = .tr2bl) ∧ (∀ c, b.tl2br = some c → c.position = .tl2br) ∧
  ∀ s ∈ b.strings, (decodeAttr s).isSome

theorem cellBorderPosition_element (p : TableCellBorderPosition) :
    cellBorderPosition (elementOf (splitQName p.element).loc) = some p := by
  have h1 : elementOf (splitQName c!"w:left").loc = .left := by simp [-String.reduceToList]
  have h2 : elementOf (splitQName c!"w:right").loc = .right := by simp [-String.reduceToList]
  have h3 : elementOf (splitQName c!"w:top").loc = .top := by simp [-String.reduceToList]
  have h4 : elementOf (splitQName c!"w:bottom").loc = .bottom := by simp [-String.reduceToList]
  have h5 : elementOf (splitQName c!"w:insideH").loc = .insideH := by simp [-String.reduceToList]
  have h6 : elementOf (splitQName c!"w:insideV").loc = .insideV := by simp [-String.reduceToList]
  have h7 : elementOf (splitQName c!"w:tl2br").loc = .tl2br := by simp [-String.reduceToList]
  have h8 : elementOf (splitQName c!"w:tr2bl").loc = .tr2bl := by simp [-String.reduceToList]
  cases p
  case top => exact (congrArg cellBorderPosition h3).trans rfl
  case left => exact (congrArg cellBorderPosition h1).trans rfl
  case bottom => exact (congrArg cellBorderPosition h4).trans rfl
  case right => exact (congrArg cellBorderPosition h2).trans rfl
  case insideH => exact (congrArg cellBorderPosition h5).trans rfl
  case insideV => exact (congrArg cellBorderPosition h6).trans rfl
  case tl2br => exact (congrArg cellBorderPosition h7).trans rfl
  case tr2bl => exact (congrArg cellBorderPosition h8).trans rfl

theorem takes_cBorder (o : Option TableCellBorder) (pos : TableCellBorderPosition) (s : TableCellBorders)
    (h : ∀ b, o = some b → b.position = pos) (hc : ∀ t ∈ optStrings o TableCellBorder.strings, (decodeAttr t).isSome) :
    TakesF x (fun _ => cellBordersLoop x) s (optN o TableCellBorder.nodes) (o.elim s fun b => s.set b.reread) := by
  cases o with
  | none => exact .nil _
  | some b =>
    replace h := h b rfl
    replace hc : (decodeAttr b.color).isSome := hc _ (by simp [optStrings, TableCellBorder.strings])
    obtain ⟨p, v, sz, col, sp⟩ := b
    simp only at h hc
    subst h
    have hb := readBorder_nodes (x := x) v sz sp col hc
    refine TakesF.leaf' (fun d es hd => ?_) (fun d => ?_)
    · have hp := cellBorderPosition_element p
      simp only [cellBordersLoop, hp]
      exact congrArg (Read.map _) (hb es)
    · refine closesAt_ne fun hp => ?_
      have := cellBorderPosition_element p
      rw [hp] at this
      cases this

theorem cellBorders_set {o : Option TableCellBorder} {pos : TableCellBorderPosition} {s : TableCellBorders}
    (put : Option TableCellBorder → TableCellBorders) {old : Option TableCellBorder} (h : ∀ b, o = some b → b.position = pos)
    (hs : ∀ b : TableCellBorder, b.position = pos → s.set b = put (some b)) (hold : put old = s) :
    (o.elim s fun b => s.set b.reread) = put ((o.map TableCellBorder.reread).or old) := by
  cases o with
  | none => simp [hold]
  | some b => exact hs b.reread (h b rfl)

theorem returns_cellBorders (n : TableCellBorders) (h : n.Readable) :
    ∃ body, n.nodes = [.elem c!"w:tcBorders" [] body] ∧
      Returns x (fun R es => (cellBordersLoop x).run R.fuel .withEmpty es) c!"w:tcBorders" body n.reread := by
  obtain ⟨h1, h2, h3, h4, h5, h6, h7, h8, h9⟩ := h
  obtain ⟨t, l, b, r, ih, iv, tr, tl⟩ := n
  simp only at h1 h2 h3 h4 h5 h6 h7 h8
  simp only [TableCellBorders.strings, List.forall_mem_append] at h9
  refine ⟨_, rfl, ?_⟩
  have key : TakesF x (fun _ => cellBordersLoop x) .withEmpty
      (optN t TableCellBorder.nodes ++ optN l TableCellBorder.nodes ++ optN b TableCellBorder.nodes ++ optN r TableCellBorder.nodes
        ++ optN ih TableCellBorder.nodes ++ optN iv TableCellBorder.nodes ++ optN tl TableCellBorder.nodes ++ optN tr TableCellBorder.nodes) _ :=
    ((((((((takes_cBorder t _ .withEmpty h1 (by grind)).append (takes_cBorder l _ _ h2 (by grind))).append
      (takes_cBorder b _ _ h3 (by grind))).append (takes_cBorder r _ _ h4 (by grind))).append
      (takes_cBorder ih _ _ h5 (by grind))).append (takes_cBorder iv _ _ h6 (by grind))).append
      (takes_cBorder tl _ _ h8 (by grind))).append (takes_cBorder tr _ _ h7 (by grind)))
  refine (Returns.loop (n := c!"w:tcBorders") key (fun d => by
    simp [-String.reduceToList, String.toList_inj, cellBordersLoop, closesAt])).mono ?_
  clear key h9
  have s1 : ∀ (o : Option TableCellBorder) (s : TableCellBorders), (∀ b, o = some b → b.position = .top) →
      (o.elim s fun b => s.set b.reread) = { s with top := (o.map TableCellBorder.reread).or s.top } := fun o s h =>
    cellBorders_set (fun v => { s with top := v }) h (fun b e => by simp only [TableCellBorders.set, e]) rfl
  have s2 : ∀ (o : Option TableCellBorder) (s : TableCellBorders), (∀ b, o = some b → b.position = .left) →
      (o.elim s fun b => s.set b.reread) = { s with left := (o.map TableCellBorder.reread).or s.left } := fun o s h =>
    cellBorders_set (fun v => { s with left := v }) h (fun b e => by simp only [TableCellBorders.set, e]) rfl
  have s3 : ∀ (o : Option TableCellBorder) (s : TableCellBorders), (∀ b, o = some b → b.position = .bottom) →
      (o.elim s fun b => s.set b.reread) = { s with bottom := (o.map TableCellBorder.reread).or s.bottom } := fun o s h =>
    cellBorders_set (fun v => { s with bottom := v }) h (fun b e => by simp only [TableCellBorders.set, e]) rfl
  have s4 : ∀ (o : Option TableCellBorder) (s : TableCellBorders), (∀ b, o = some b → b.position = .right) →
      (o.elim s fun b => s.set b.reread) = { s with right := (o.map TableCellBorder.reread).or s.right } := fun o s h =>
    cellBorders_set (fun v => { s with right := v }) h (fun b e => by simp only [TableCellBorders.set, e]) rfl
  have s5 : ∀ (o : Option TableCellBorder) (s : TableCellBorders), (∀ b, o = some b → b.position = .insideH) →
      (o.elim s fun b => s.set b.reread) = { s with insideH := (o.map TableCellBorder.reread).or s.insideH } := fun o s h =>
    cellBorders_set (fun v => { s with insideH := v }) h (fun b e => by simp only [TableCellBorders.set, e]) rfl
  have s6 : ∀ (o : Option TableCellBorder) (s : TableCellBorders), (∀ b, o = some b → b.position = .insideV) →
      (o.elim s fun b => s.set b.reread) = { s with insideV := (o.map TableCellBorder.reread).or s.insideV } := fun o s h =>
    cellBorders_set (fun v => { s with insideV := v }) h (fun b e => by simp only [TableCellBorders.set, e]) rfl
  have s7 : ∀ (o : Option TableCellBorder) (s : TableCellBorders), (∀ b, o = some b → b.position = .tr2bl) →
      (o.elim s fun b => s.set b.reread) = { s with tr2bl := (o.map TableCellBorder.reread).or s.tr2bl } := fun o s h =>
    cellBorders_set (fun v => { s with tr2bl := v }) h (fun b e => by simp only [TableCellBorders.set, e]) rfl
  have s8 : ∀ (o : Option TableCellBorder) (s : TableCellBorders), (∀ b, o = some b → b.position = .tl2br) →
      (o.elim s fun b => s.set b.reread) = { s with tl2br := (o.map TableCellBorder.reread).or s.tl2br } := fun o s h =>
    cellBorders_set (fun v => { s with tl2br := v }) h (fun b e => by simp only [TableCellBorders.set, e]) rfl
  rw [s1 _ _ h1, s2 _ _ h2, s3 _ _ h3, s4 _ _ h4, s5 _ _ h5, s6 _ _ h6, s8 _ _ h8, s7 _ _ h7]
  simp [TableCellBorders.withEmpty, TableCellBorders.reread]

/-! ## Margins -/

/-- Cell margins read back. -/
def CellMargins.reread (m : CellMargins) : CellMargins where
  top := m.top.map CellMargin.reread
  left := m.left.map CellMargin.reread
  bottom := m.bottom.map CellMargin.reread
  right := m.right.map CellMargin.reread

/-- Table cell margins read back. -/
def TableCellMargins.reread (m : TableCellMargins) : TableCellMargins where
  top := m.top.reread
  left := m.left.reread
  bottom := m.bottom.reread
  right := m.right.reread

theorem takes_margin {σ : Type} {L : Readers → Loop σ} {n : Str} {m : CellMargin} {s s' : σ} {f : Int → WidthType → σ}
    (h : ∀ d es, 1 ≤ d → ∀ as, (L (readers x d)).start s (splitQName n) as es = withWidth x s as es f)
    (hf : f (asI32 m.val) m.widthType = s') (hc : ∀ d, (L (readers x d)).close s' (splitQName n) = some s') :
    TakesF x L s (m.nodes n) s' :=
  TakesF.leaf' (fun d es hd => by rw [h d es hd, withWidth_nodes _ _ _ (asI32_range _), hf]) hc

theorem returns_cellMargins (m : CellMargins) : ∃ body, m.nodes = [.elem c!"w:tcMar" [] body] ∧
      Returns x (fun R es => (cellMarginsLoop x).run R.fuel {} es) c!"w:tcMar" body m.reread := by
  refine ⟨_, rfl, ?_⟩
  have h1 := (TakesN.opt (x := x) (L := fun _ => cellMarginsLoop x) (o := m.top) (f := CellMargin.nodes c!"w:top")
    (φ := fun s => { s with top := (m.top.map CellMargin.reread).or s.top }) (fun a e s => takes_margin
      (f := fun w t => { s with top := some ⟨isizeAsUsize w, t⟩ }) (fun d es hd as => by simp [-String.reduceToList, cellMarginsLoop])
      (by simp [e, CellMargin.reread, widthAgain]) (fun d => by simp [-String.reduceToList, cellMarginsLoop, closesAt]))
    (fun e s => by simp [e])).nodes
  have h2 := (TakesN.opt (x := x) (L := fun _ => cellMarginsLoop x) (o := m.left) (f := CellMargin.nodes c!"w:left")
    (φ := fun s => { s with left := (m.left.map CellMargin.reread).or s.left }) (fun a e s => takes_margin
      (f := fun w t => { s with left := some ⟨isizeAsUsize w, t⟩ }) (fun d es hd as => by simp [-String.reduceToList, cellMarginsLoop])
      (by simp [e, CellMargin.reread, widthAgain]) (fun d => by simp [-String.reduceToList, cellMarginsLoop, closesAt]))
    (fun e s => by simp [e])).nodes
  have h3 := (TakesN.opt (x := x) (L := fun _ => cellMarginsLoop x) (o := m.bottom) (f := CellMargin.nodes c!"w:bottom")
    (φ := fun s => { s with bottom := (m.bottom.map CellMargin.reread).or s.bottom }) (fun a e s => takes_margin
      (f := fun w t => { s with bottom := some ⟨isizeAsUsize w, t⟩ }) (fun d es hd as => by simp [-String.reduceToList, cellMarginsLoop])
      (by simp [e, CellMargin.reread, widthAgain]) (fun d => by simp [-String.reduceToList, cellMarginsLoop, closesAt]))
    (fun e s => by simp [e])).nodes
  have h4 := (TakesN.opt (x := x) (L := fun _ => cellMarginsLoop x) (o := m.right) (f := CellMargin.nodes c!"w:right")
    (φ := fun s => { s with right := (m.right.map CellMargin.reread).or s.right }) (fun a e s => takes_margin
      (f := fun w t => { s with right := some ⟨isizeAsUsize w, t⟩ }) (fun d es hd as => by simp [-String.reduceToList, cellMarginsLoop])
      (by simp [e, CellMargin.reread, widthAgain]) (fun d => by simp [-String.reduceToList, cellMarginsLoop, closesAt]))
    (fun e s => by simp [e])).nodes
  refine (Returns.loop (n := c!"w:tcMar") ((((h1 {}).append (h2 _)).append (h3 _)).append (h4 _)) (fun d => by
    simp [-String.reduceToList, cellMarginsLoop, closesAt])).mono ?_
  simp [CellMargins.reread]

theorem returns_tableCellMargins (m : TableCellMargins) : ∃ body, m.nodes = [.elem c!"w:tblCellMar" [] body] ∧
      Returns x (fun R es => (tableCellMarginsLoop x).run R.fuel {} es) c!"w:tblCellMar" body m.reread := by
  refine ⟨_, rfl, ?_⟩
  have h1 : ∀ s : TableCellMargins, TakesF x (fun _ => tableCellMarginsLoop x) s (m.top.nodes c!"w:top") { s with top := m.top.reread } := fun s =>
    takes_margin (f := fun w t => { s with top := ⟨isizeAsUsize w, t⟩ }) (fun d es hd as => by simp [-String.reduceToList, tableCellMarginsLoop])
      (by simp [CellMargin.reread, widthAgain]) (fun d => by simp [-String.reduceToList, tableCellMarginsLoop, closesAt])
  have h2 : ∀ s : TableCellMargins, TakesF x (fun _ => tableCellMarginsLoop x) s (m.left.nodes c!"w:left") { s with left := m.left.reread } := fun s =>
    takes_margin (f := fun w t => { s with left := ⟨isizeAsUsize w, t⟩ }) (fun d es hd as => by simp [-String.reduceToList, tableCellMarginsLoop])
      (by simp [CellMargin.reread, widthAgain]) (fun d => by simp [-String.reduceToList, tableCellMarginsLoop, closesAt])
  have h3 : ∀ s : TableCellMargins, TakesF x (fun _ => tableCellMarginsLoop x) s (m.bottom.nodes c!"w:bottom") { s with bottom := m.bottom.reread } := fun s =>
    takes_margin (f := fun w t => { s with bottom := ⟨isizeAsUsize w, t⟩ }) (fun d es hd as => by simp [-String.reduceToList, tableCellMarginsLoop])
      (by simp [CellMargin.reread, widthAgain]) (fun d => by simp [-String.reduceToList, tableCellMarginsLoop, closesAt])
  have h4 : ∀ s : TableCellMargins, TakesF x (fun _ => tableCellMarginsLoop x) s (m.right.nodes c!"w:right") { s with right := m.right.reread } := fun s =>
    takes_margin (f := fun w t => { s with right := ⟨isizeAsUsize w, t⟩ }) (fun d es hd as => by simp [-String.reduceToList, tableCellMarginsLoop])
      (by simp [CellMargin.reread, widthAgain]) (fun d => by simp [-String.reduceToList, tableCellMarginsLoop, closesAt])
  refine (Returns.loop (n := c!"w:tblCellMar") ((((h1 {}).append (h2 _)).append (h3 _)).append (h4 _)) (fun d => by
    simp [-String.reduceToList, tableCellMarginsLoop, closesAt])).mono ?_
  simp [TableCellMargins.reread]

end Docx
