import Verif.Lemmas.ReadTableFormat
import Verif.Props.C51_ParagraphFormatting
import Verif.Spec.KeptTable

/-!
# C53: table, row and cell formatting written and read
-/

namespace Docx

open Docx.Xml Docx.Spec

theorem map_tableBorder {place : TableBorderPosition} {o : Option TableBorder} (h : KeptTableBorder place o) :
    o.map TableBorder.reread = o := map_kept fun b e => by
  obtain ⟨_, h2, h3, h4⟩ := h b e
  simp [TableBorder.reread, floatU32_small h2, h3.symm, h4.seen]

theorem map_cellBorder {place : TableCellBorderPosition} {o : Option TableCellBorder} (h : KeptCellBorder place o) :
    o.map TableCellBorder.reread = o := map_kept fun b e => by
  obtain ⟨_, h2, h3, h4⟩ := h b e
  simp [TableCellBorder.reread, floatU32_small h2, h3.symm, h4.seen]

theorem margin_kept {m : CellMargin} (h : m.val < 2 ^ 31) : m.reread = m := by
  simp [CellMargin.reread, widthAgain_small h]

theorem mem_optS {s : Str} {o : Option Str} (h : s ∈ optS o) : o = some s := by simpa [optS] using h

theorem Spec.TableProperty.Kept.reread {p : TableProperty} (h : TableProperty.Kept p) : p.reread = p := by
  obtain ⟨k, hk⟩ := h.justification
  have hd : seen k.toStr = k.toStr := by cases k <;> decide +kernel
  have e1 : ((TableAlignmentType.fromStr (seen p.justification)).map TableAlignmentType.toStr).getD c!"left" = p.justification := by
    rw [hk, hd, Props.C31_TableAlignmentType]; rfl
  have e2 : p.margins.map TableCellMargins.reread = p.margins := map_kept fun m e => by
    obtain ⟨a, b, c, d⟩ := h.margins m e
    simp [TableCellMargins.reread, margin_kept a, margin_kept b, margin_kept c, margin_kept d]
  have e3 : p.indent.bind tableIndentAgain = p.indent := by
    have := h.indent
    cases hi : p.indent with
    | none => rfl
    | some i =>
      obtain ⟨_, b, c⟩ := this i hi
      simp [tableIndentAgain, b, c.symm]
  have e4 : p.style.map seen = p.style := map_kept fun s e => (h.style s e).seen
  have e5 : p.position.map TablePositionProperty.reread = p.position := map_kept fun t e => by
    obtain ⟨a, _⟩ := h.position t e
    have q : ∀ o : Option Str, (∀ s, o = some s → s ∈ t.strings) → o.map seen = o := fun o ho =>
      map_kept fun s e => (a s (ho s e)).seen
    simp only [TablePositionProperty.reread]
    rw [q _ (fun s e => by simp [TablePositionProperty.strings, optS, e]),
      q _ (fun s e => by simp [TablePositionProperty.strings, optS, e]),
      q _ (fun s e => by simp [TablePositionProperty.strings, optS, e]),
      q _ (fun s e => by simp [TablePositionProperty.strings, optS, e])]
  have e6 : p.borders.reread = p.borders := by
    unfold TableBorders.reread
    rw [map_tableBorder h.top, map_tableBorder h.left, map_tableBorder h.bottom, map_tableBorder h.right,
      map_tableBorder h.insideH, map_tableBorder h.insideV]
  unfold TableProperty.reread
  rw [e1, e2, e3, e4, e5, e6, widthAgain_small h.width, ← h.layout]

theorem Spec.TableProperty.Kept.strings {p : TableProperty} (h : TableProperty.Kept p) : AllS p.strings := by
  intro s hs
  obtain ⟨k, hk⟩ := h.justification
  have b : ∀ {pl o}, KeptTableBorder pl o → s ∈ optStrings o TableBorder.strings → Stored s := fun hb hs => by
    obtain ⟨b, e, hm⟩ := mem_optStrings hs
    simp only [TableBorder.strings, List.mem_singleton] at hm
    exact hm ▸ stored_of_plain (hb b e).2.2.2
  simp only [TableProperty.strings, TableBorders.strings, List.mem_append, List.mem_singleton] at hs
  rcases hs with ((hs | ((((hs | hs) | hs) | hs) | hs) | hs) | hs) | hs
  · rw [hs, hk]; cases k <;> exact stored_of_plain (plain_lit (by decide))
  · exact b h.top hs
  · exact b h.left hs
  · exact b h.bottom hs
  · exact b h.right hs
  · exact b h.insideH hs
  · exact b h.insideV hs
  · exact stored_of_plain (h.style s (mem_optS hs))
  · obtain ⟨t, e, hm⟩ := mem_optStrings hs
    exact stored_of_plain ((h.position t e).1 s hm)

theorem Spec.TableCellProperty.Kept.reread {p : TableCellProperty} (h : TableCellProperty.Kept p) : p.reread = p := by
  have e1 : p.borders.map TableCellBorders.reread = p.borders := map_kept fun b e => by
    obtain ⟨h1, h2, h3, h4, h5, h6, h7, h8⟩ := h.borders b e
    unfold TableCellBorders.reread
    rw [map_cellBorder h1, map_cellBorder h2, map_cellBorder h3, map_cellBorder h4, map_cellBorder h5, map_cellBorder h6,
      map_cellBorder h7, map_cellBorder h8]
  have e2 : p.shading.map Shading.reread = p.shading := map_kept fun s e => by
    simp [Shading.reread, (h.shading s e).1.seen, (h.shading s e).2.seen]
  have e3 : p.margins.map CellMargins.reread = p.margins := map_kept fun m e => by
    obtain ⟨a, b, c, d⟩ := h.margins m e
    unfold CellMargins.reread
    rw [map_kept fun m e => margin_kept (a m e), map_kept fun m e => margin_kept (b m e),
      map_kept fun m e => margin_kept (c m e), map_kept fun m e => margin_kept (d m e)]
  unfold TableCellProperty.reread
  rw [e1, e2, e3]

theorem Spec.TableCellProperty.Kept.strings {p : TableCellProperty} (h : TableCellProperty.Kept p) : AllS p.strings := by
  intro s hs
  have b : ∀ {pl o}, KeptCellBorder pl o → s ∈ optStrings o TableCellBorder.strings → Stored s := fun hb hs => by
    obtain ⟨b, e, hm⟩ := mem_optStrings hs
    simp only [TableCellBorder.strings, List.mem_singleton] at hm
    exact hm ▸ stored_of_plain (hb b e).2.2.2
  simp only [TableCellProperty.strings, List.mem_append] at hs
  rcases hs with hs | hs
  · obtain ⟨t, e, hm⟩ := mem_optStrings hs
    obtain ⟨h1, h2, h3, h4, h5, h6, h7, h8⟩ := h.borders t e
    simp only [TableCellBorders.strings, List.mem_append] at hm
    rcases hm with ((((((hs | hs) | hs) | hs) | hs) | hs) | hs) | hs
    · exact b h1 hs
    · exact b h2 hs
    · exact b h3 hs
    · exact b h4 hs
    · exact b h5 hs
    · exact b h6 hs
    · exact b h7 hs
    · exact b h8 hs
  · obtain ⟨t, e, hm⟩ := mem_optStrings hs
    simp only [Shading.strings, List.mem_cons, List.not_mem_nil, or_false] at hm
    rcases hm with rfl | rfl
    · exact stored_of_plain (h.shading t e).1
    · exact stored_of_plain (h.shading t e).2

theorem f32Text_dec (x : ReadEnv) {n : Nat} (h : n ≤ 2 ^ 24) : f32Text x (dec n) = some (dec n) := by
  have : (dec n).head? ≠ some '-' := fun e => by
    have hm : '-' ∈ dec n := List.mem_of_head? e
    exact absurd (List.all_eq_true.1 (isDigit_dec (n := n)) _ hm) (by decide)
  rw [f32Text, intOf_dec]
  simp only [Int.natAbs_natCast]
  rw [if_pos ⟨h, .inr this⟩]
  rfl

theorem dec_plainValue (n : Nat) : PlainValue (dec n) := fun c hc => by
  have := List.all_eq_true.1 (isDigit_dec (n := n)) _ hc
  refine ⟨?_, ?_, ?_, ?_, ?_, ?_⟩ <;> (rintro rfl; exact absurd this (by decide))

theorem Spec.TableRowProperty.Kept.reread {p : TableRowProperty} (x : ReadEnv) (h : TableRowProperty.Kept p) : p.reread x = p := by
  obtain ⟨a1, a2, a3, a4, rh, hr, d, i, cs⟩ := p
  obtain ⟨h1, h2, h3, h4, h5, h6, h7, h8, h9⟩ := h
  simp only at h1 h2 h3 h4 h5 h6 h7 h8 h9
  subst h1 h2 h3 h4 h5
  have em : ∀ m : Mark, EscapedFrom m.author ∧ PlainValue m.date → m.reread = m := fun m hm => by
    simp [Mark.reread, hm.1.again, hm.2.seen]
  have e1 : i.map Mark.reread = i := map_kept fun m e => em m (h8 m e)
  have e2 : d.map Mark.reread = d := map_kept fun m e => em m (h9 m e)
  unfold TableRowProperty.reread
  simp only [e1, e2]
  cases rh with
  | none =>
    cases hr with
    | none => rfl
    | some r => simp at h7
  | some v =>
    obtain ⟨n, hn, rfl⟩ := h6 v rfl
    cases hr with
    | none => simp at h7
    | some r => simp [(dec_plainValue n).seen, f32Text_dec x hn]

theorem Spec.TableRowProperty.Kept.strings {p : TableRowProperty} (h : TableRowProperty.Kept p) : AllS p.strings := by
  intro s hs
  simp only [TableRowProperty.strings, List.mem_append] at hs
  rcases hs with (hs | hs) | hs
  · obtain ⟨n, _, rfl⟩ := h.rowHeight s (mem_optS hs)
    exact stored_of_plain (dec_plainValue n)
  · obtain ⟨m, e, hm⟩ := mem_optStrings hs
    simp only [Mark.strings, List.mem_cons, List.not_mem_nil, or_false] at hm
    rcases hm with rfl | rfl
    · exact (h.del m e).1.stored
    · exact stored_of_plain (h.del m e).2
  · obtain ⟨m, e, hm⟩ := mem_optStrings hs
    simp only [Mark.strings, List.mem_cons, List.not_mem_nil, or_false] at hm
    rcases hm with rfl | rfl
    · exact (h.ins m e).1.stored
    · exact stored_of_plain (h.ins m e).2

theorem Spec.TableProperty.Kept.readable {p : TableProperty} (h : TableProperty.Kept p) : p.Readable :=
  ⟨fun s hs => (h.strings s hs).2.1,
    ⟨fun c e => (h.top c e).1, fun c e => (h.left c e).1, fun c e => (h.bottom c e).1, fun c e => (h.right c e).1,
      fun c e => (h.insideH c e).1, fun c e => (h.insideV c e).1,
      fun s hs => (h.strings s (by simp [TableProperty.strings, hs])).2.1⟩,
    fun i e => (h.indent i e).1, fun t e o ho i ei => by
      obtain ⟨_, a, b, c, d⟩ := h.position t e
      simp only [List.mem_cons, List.not_mem_nil, or_false] at ho
      rcases ho with rfl | rfl | rfl | rfl
      · exact a i ei
      · exact b i ei
      · exact c i ei
      · exact d i ei⟩

theorem Spec.TableCellProperty.Kept.readable {p : TableCellProperty} (h : TableCellProperty.Kept p) : p.Readable :=
  ⟨fun s hs => (h.strings s hs).2.1,
    fun b e => by
      obtain ⟨h1, h2, h3, h4, h5, h6, h7, h8⟩ := h.borders b e
      exact ⟨fun c e => (h1 c e).1, fun c e => (h2 c e).1, fun c e => (h3 c e).1, fun c e => (h4 c e).1,
        fun c e => (h5 c e).1, fun c e => (h6 c e).1, fun c e => (h7 c e).1, fun c e => (h8 c e).1,
        fun s hs => (h.strings s (by simp [TableCellProperty.strings, e, optStrings, hs])).2.1⟩,
    h.width, h.gridSpan⟩

namespace Props

/-- Reading the written form of the table formatting `p` gives `q`. -/
def TableFormattingReadAs (x : ReadEnv) (p q : TableProperty) : Prop :=
  ReadFrom x (emit p.tags) c!"tblPr" (fun R es => (tablePropertyLoop x R.fuel).run R.fuel { borders := .withEmpty } es) q

/-- Reading the written form of the cell formatting `p` gives `q`. -/
def CellFormattingReadAs (x : ReadEnv) (p q : TableCellProperty) : Prop :=
  ReadFrom x (emit p.tags) c!"tcPr" (fun R es => (cellPropertyLoop x R.fuel).run R.fuel {} es) q

/-- Reading the written form of a row with the formatting `p` and no cells gives one with the formatting `q`. -/
def RowFormattingReadAs (x : ReadEnv) (p q : TableRowProperty) : Prop :=
  ReadFrom x (Row.build ⟨[], false, p⟩) c!"tr" (readRow x) ⟨[], false, q⟩

/-- **C53.** What is read from the written form of any table formatting whose strings can be written. -/
theorem C53_read_back_table (x : ReadEnv) (p : TableProperty) (hs : AllS p.strings) (hp : p.Readable) :
    TableFormattingReadAs x p p.reread := by
  obtain ⟨body, e, hr⟩ := returns_tableProperty (x := x) p hp
  refine ReadFrom.of (n := emitN p.nodes) (name := c!"w:tblPr") split_w_tblPr (by simp) (.emit (p.ok hs))
    (fun g => ⟨_, _, rfl⟩) fun g f g' h => ?_
  simp only [emitN, Option.some.injEq, Prod.mk.injEq] at h
  exact ⟨body, h.1 ▸ e, hr⟩

/-- **C53.** What is read from the written form of any cell formatting whose strings can be written. -/
theorem C53_read_back_cell (x : ReadEnv) (p : TableCellProperty) (hs : AllS p.strings) (hp : p.Readable) :
    CellFormattingReadAs x p p.reread := by
  obtain ⟨body, e, hr⟩ := returns_cellProperty (x := x) p hp
  refine ReadFrom.of (n := emitN p.nodes) (name := c!"w:tcPr") split_w_tcPr (by simp) (.emit (p.ok hs))
    (fun g => ⟨_, _, rfl⟩) fun g f g' h => ?_
  simp only [emitN, Option.some.injEq, Prod.mk.injEq] at h
  exact ⟨body, h.1 ▸ e, hr⟩

/-- **C53.** What is read from the written form of any row formatting whose strings can be written. -/
theorem C53_read_back_row (x : ReadEnv) (p : TableRowProperty) (hs : AllS p.strings) :
    RowFormattingReadAs x p (p.reread x) := by
  have ht : Total (Row.nodes ⟨[], false, p⟩) true := by
    have h1 := p.total
    simp only [Row.nodes, nodesCells]
    exact Total.congr (by total) (by simp)
  refine ReadFrom.of (n := Row.nodes ⟨[], false, p⟩) (name := c!"w:tr") split_w_tr (Row_build_flat _)
    (Row.okAt _ (by simpa [Row.strings, stringsCells] using hs)) (fun g => ?_) fun g f g' h => ?_
  · obtain ⟨r, hr⟩ := Option.isSome_iff_exists.1 (ht g)
    exact ⟨r.1, r.2, hr⟩
  · obtain ⟨body, hb, rfl⟩ := elemN_eq h
    refine ⟨body, rfl, ?_⟩
    have hb' : p.nodes g = some (body, g') := by
      cases hn : p.nodes g <;> simpa [catN, N.thenN, nodesCells, emitN, hn, Prod.ext_iff] using hb
    have key := takes_trPr (x := x) p (fun s h => (hs s h).2.1) hb' []
    have := (Returns.loop key (n := c!"w:tr") (fun d => by simp [-String.reduceToList, rowLoop, closesAt])).map
      fun s => { Row.new s.1 with property := s.2 }
    exact this

/-- **C53.** Table formatting is read back as it was within the limits of `TableProperty.Kept`. Missing from the full
property: the layout, the space of borders, an indent of zero or in another unit, widths from `2 ^ 31`. -/
theorem C53_kept_table_partial (x : ReadEnv) (p : TableProperty) (h : TableProperty.Kept p) : TableFormattingReadAs x p p := by
  have := C53_read_back_table x p h.strings h.readable
  rwa [h.reread] at this

/-- **C53.** Cell formatting is read back as it was within the limits of `TableCellProperty.Kept`. Missing from the full
property: the space of borders, widths from `2 ^ 31`. -/
theorem C53_kept_cell_partial (x : ReadEnv) (p : TableCellProperty) (h : TableCellProperty.Kept p) : CellFormattingReadAs x p p := by
  have := C53_read_back_cell x p h.strings h.readable
  rwa [h.reread] at this

/-- **C53.** Row formatting is read back as it was within the limits of `TableRowProperty.Kept`. Missing from the full
property: the cells left out around the row, rows that must not be split, heights that are not whole numbers, a
height without a rule. -/
theorem C53_kept_row_partial (x : ReadEnv) (p : TableRowProperty) (h : TableRowProperty.Kept p) : RowFormattingReadAs x p p := by
  have := C53_read_back_row x p h.strings
  rwa [h.reread x] at this

/-- **C53 fails** for the layout of a table: whatever else is set, it is not read. -/
theorem C53_fails_layout (x : ReadEnv) (p : TableProperty) (hs : AllS p.strings) (hp : p.Readable) (h : p.layout ≠ none) :
    ¬ TableFormattingReadAs x p p := fun hr =>
  h (congrArg TableProperty.layout (ReadFrom.unique (C53_read_back_table x p hs hp) hr)).symm

/-- **C53 fails** for an indent of a table that is zero or not in twentieths of a point. -/
theorem C53_fails_indent (x : ReadEnv) (p : TableProperty) (hs : AllS p.strings) (hp : p.Readable) (i : TableIndent)
    (hi : p.indent = some i) (h : i.width = 0 ∨ i.widthType ≠ .dxa) : ¬ TableFormattingReadAs x p p := fun hr => by
  have := congrArg TableProperty.indent (ReadFrom.unique (C53_read_back_table x p hs hp) hr)
  simp only [TableProperty.reread, hi, Option.bind_some, tableIndentAgain] at this
  split at this
  · cases this
  · rcases h with h | h
    · contradiction
    · obtain ⟨w, t⟩ := i
      simp only [Option.some.injEq, TableIndent.mk.injEq, true_and] at this
      exact h this.symm

/-- **C53 fails** for the space around a border. -/
theorem C53_fails_space (x : ReadEnv) (p : TableProperty) (hs : AllS p.strings) (hp : p.Readable) (b : TableBorder)
    (hb : p.borders.top = some b) (h : b.space ≠ 0) : ¬ TableFormattingReadAs x p p := fun hr => by
  have := congrArg (fun q => q.borders.top) (ReadFrom.unique (C53_read_back_table x p hs hp) hr)
  simp only [TableProperty.reread, TableBorders.reread, hb, Option.map_some, Option.some.injEq] at this
  exact h (congrArg TableBorder.space this).symm

/-- **C53 fails** for rows that must not be split and for cells left out before or after the row. -/
theorem C53_fails_row (x : ReadEnv) (p : TableRowProperty) (hs : AllS p.strings)
    (h : p.cantSplit ≠ none ∨ p.gridBefore ≠ none ∨ p.gridAfter ≠ none ∨ p.widthBefore ≠ none ∨ p.widthAfter ≠ none) :
    ¬ RowFormattingReadAs x p p := fun hr => by
  have e : p.reread x = p := congrArg Row.property (ReadFrom.unique (C53_read_back_row x p hs) hr)
  rcases h with h | h | h | h | h
  · exact h (congrArg TableRowProperty.cantSplit e).symm
  · exact h (congrArg TableRowProperty.gridBefore e).symm
  · exact h (congrArg TableRowProperty.gridAfter e).symm
  · exact h (congrArg TableRowProperty.widthBefore e).symm
  · exact h (congrArg TableRowProperty.widthAfter e).symm

/-- The hypotheses are met: widths, borders, margins, an indent, a style and a position. -/
example (x : ReadEnv) : let p : TableProperty :=
      { width := ⟨9070, .dxa⟩, justification := c!"center", borders := { top := some { position := .top, size := 12, color := c!"FF0000" }, insideV := none },
        margins := some { left := ⟨108, .dxa⟩ }, indent := some ⟨-100, .dxa⟩, style := some c!"Grid",
        position := some { positionX := some (-20), verticalAnchor := some c!"page" } }
    TableFormattingReadAs x p p := by
  intro p
  have b : ∀ {q o}, o = some { position := q } → KeptTableBorder q o := fun e b e' => by
    rw [e] at e'; cases e'; exact ⟨rfl, by simp, rfl, plain_lit (s := c!"000000") (by decide)⟩
  refine C53_kept_table_partial x _ ?_
  constructor
  case width => decide
  case justification => exact ⟨.center, rfl⟩
  case top => intro b e; cases e; exact ⟨rfl, by decide, rfl, plain_lit (by decide)⟩
  case left => exact b rfl
  case bottom => exact b rfl
  case right => exact b rfl
  case insideH => exact b rfl
  case insideV => intro b e; cases e
  case margins => intro m e; cases e; decide
  case indent => intro i e; cases e; exact ⟨by simp only [InI32]; decide, by decide, rfl⟩
  case style => intro i e; cases e; exact plain_lit (by decide)
  case layout => rfl
  case position =>
    intro t e; cases e
    refine ⟨fun s hs => ?_, fun i e => (by cases e), fun i e => (by cases e), fun i e => ?_, fun i e => (by cases e)⟩
    · simp only [TablePositionProperty.strings, optS, Option.toList, List.append_nil, List.mem_singleton] at hs
      subst hs; exact plain_lit (by decide)
    · cases e; simp only [InI32]; decide

/-- The hypotheses are met: a cell that spans three columns and goes on below. -/
example (x : ReadEnv) : let p : TableCellProperty :=
      { width := some ⟨2000, .dxa⟩, gridSpan := some 3, verticalMerge := some .restart, verticalAlign := some .center,
        borders := some { top := none, left := none, bottom := none, right := none, insideH := none, insideV := none, tl2br := some { position := .tl2br } },
        shading := some { color := c!"auto", fill := c!"EEEEEE" }, margins := some { top := some ⟨30, .dxa⟩ } }
    CellFormattingReadAs x p p := by
  intro p
  refine C53_kept_cell_partial x _ ?_
  constructor
  case width => intro w e; cases e; decide
  case borders =>
    intro b e; cases e
    refine ⟨?_, ?_, ?_, ?_, ?_, ?_, ?_, ?_⟩ <;> intro b e <;> cases e
    exact ⟨rfl, by decide, rfl, plain_lit (by decide)⟩
  case gridSpan => intro w e; cases e; decide
  case shading => intro s e; cases e; exact ⟨plain_lit (by decide), plain_lit (by decide)⟩
  case margins =>
    intro s e; cases e
    refine ⟨?_, ?_, ?_, ?_⟩ <;> intro b e <;> cases e
    decide

/-- The hypotheses are met: an inserted row of a fixed height. -/
example (x : ReadEnv) : let p : TableRowProperty :=
      { rowHeight := some (dec 720), heightRule := some .exact, ins := some ⟨escapeOwned c!"a & b", c!"2020-01-01T00:00:00Z"⟩ }
    RowFormattingReadAs x p p := by
  intro p
  refine C53_kept_row_partial x _ ?_
  constructor <;> try rfl
  case rowHeight => intro h e; cases e; exact ⟨720, by decide, rfl⟩
  case ins => intro h e; cases e; exact ⟨⟨c!"a & b", by simp only [KeptText]; decide, rfl⟩, plain_lit (by decide)⟩
  case del => intro h e; cases e

end Props

end Docx
