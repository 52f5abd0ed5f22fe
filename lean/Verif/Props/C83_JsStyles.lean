import Verif.Spec.JsStyle
import Verif.Props.C78_JsTable
import Verif.Props.C82_JsSetup

/-!
# C83: styles made in JavaScript arrive
-/

namespace Docx.Props

open Docx Docx.Xml Docx.Spec

variable (lib : ImageLib)

/-- The style that is built for a new one with the given methods called on it. -/
def builtStyle (id : Str) (t : StyleType) (calls : List JsStyleCall) : Style :=
  (calls.foldl JsStyle.call { styleId := id, styleType := t }).build

theorem style_set (s : JsStyle) : s.build =
    { styleId := escapeOwned s.styleId, styleType := s.styleType, name := escapeOwned s.name
      basedOn := (truthy s.basedOn).map escapeOwned, link := (truthy s.link).map escapeOwned, qFormat := s.qFormat
      uiPriority := s.uiPriority, semiHidden := s.semiHidden, unhideWhenUsed := s.unhideWhenUsed
      runProperty := setRunProperty {} { s.runProperty with style := none }
      paragraphProperty := createParagraphProperty s.paragraphProperty
      tableProperty := setTableProperty {} s.tableProperty } := by
  obtain ⟨i, t, n, r, p, tb, b, l, q, u, sh, uh⟩ := s
  rw [JsStyle.build]
  dsimp only
  cases n with
  | nil => cases truthy b <;> cases truthy l <;> cases q <;> cases u <;> cases sh <;> cases uh <;> rfl
  | cons x n =>
    rw [truthy_some (List.cons_ne_nil x n)]
    cases truthy b <;> cases truthy l <;> cases q <;> cases u <;> cases sh <;> cases uh <;> rfl

theorem style_paragraph (j : JsParagraphProperty) : createParagraphProperty j =
    ⟨{ alignment := (j.align.bind createParagraphAlignment).map AlignmentType.toStr, textAlignment := j.textAlignment
       adjustRightInd := j.adjustRightInd
       indent := j.indent.map fun x => { start := some x.1, end_ := x.2.2.2, special := createSpecialIndent x.2.1 x.2.2.1 }
       lineSpacing := j.lineSpacing, numberingProperty := j.numbering.map fun x => ⟨some x.1, some x.2⟩
       keepLines := litB (some j.keepLines), snapToGrid := j.snapToGrid, keepNext := litB (some j.keepNext)
       pageBreakBefore := litB (some j.pageBreakBefore), widowControl := litB (some j.widowControl)
       outlineLvl := j.outlineLvl.map fun v => if v ≥ 10 then 9 else v, style := (truthy j.styleId).map escapeOwned
       tabs := j.tabs.map fun t => { t with leader := t.leader.map paragraphTabLeader } }, none⟩ := by
  have a1 (x : Option AlignmentType) (b : ParagraphBase) (c) : onSome x ParagraphProperty.setAlign ⟨b, c⟩
      = ⟨{ b with alignment := (x.map AlignmentType.toStr).or b.alignment }, c⟩ := by cases x <;> rfl
  have a2 (x : Option TextAlignmentType) (b : ParagraphBase) (c) : onSome x ParagraphProperty.setTextAlignment ⟨b, c⟩
      = ⟨{ b with textAlignment := x.or b.textAlignment }, c⟩ := by cases x <;> rfl
  have a3 (x : Option Int) (b : ParagraphBase) (c) : onSome x ParagraphProperty.setAdjustRightInd ⟨b, c⟩
      = ⟨{ b with adjustRightInd := x.or b.adjustRightInd }, c⟩ := by cases x <;> rfl
  have a4 (x : Option (Int × Option SpecialIndentKind × Option Int × Option Int)) (b : ParagraphBase) (c) :
      onSome x (fun p x => ParagraphProperty.setIndent p (some x.1) (createSpecialIndent x.2.1 x.2.2.1) x.2.2.2 none) ⟨b, c⟩
      = ⟨{ b with indent := (x.map fun x =>
            { start := some x.1, end_ := x.2.2.2, special := createSpecialIndent x.2.1 x.2.2.1 }).or b.indent }, c⟩ := by cases x <;> rfl
  have a5 (x : Option (Nat × Nat)) (b : ParagraphBase) (c) : onSome x (fun p x => ParagraphProperty.setNumbering p x.1 x.2) ⟨b, c⟩
      = ⟨{ b with numberingProperty := (x.map fun x => (⟨some x.1, some x.2⟩ : NumberingProperty)).or b.numberingProperty }, c⟩ := by
    cases x <;> rfl
  have a9 (x : Option LineSpacing) (b : ParagraphBase) (c) : onSome x ParagraphProperty.setLineSpacing ⟨b, c⟩
      = ⟨{ b with lineSpacing := x.or b.lineSpacing }, c⟩ := by cases x <;> rfl
  have b3 (x : Bool) (b : ParagraphBase) (c) : onTrue (some x) (fun p => ParagraphProperty.setKeepLines p true) ⟨b, c⟩
      = ⟨{ b with keepLines := (litB (some x)).or b.keepLines }, c⟩ := by cases x <;> rfl
  have b4 (x : Option Bool) (b : ParagraphBase) (c) : onSome x ParagraphProperty.setSnapToGrid ⟨b, c⟩
      = ⟨{ b with snapToGrid := x.or b.snapToGrid }, c⟩ := by cases x <;> rfl
  have b5 (x : Bool) (b : ParagraphBase) (c) : onTrue (some x) (fun p => ParagraphProperty.setKeepNext p true) ⟨b, c⟩
      = ⟨{ b with keepNext := (litB (some x)).or b.keepNext }, c⟩ := by cases x <;> rfl
  have b6 (x : Bool) (b : ParagraphBase) (c) : onTrue (some x) (fun p => ParagraphProperty.setPageBreakBefore p true) ⟨b, c⟩
      = ⟨{ b with pageBreakBefore := (litB (some x)).or b.pageBreakBefore }, c⟩ := by cases x <;> rfl
  have b7 (x : Bool) (b : ParagraphBase) (c) : onTrue (some x) (fun p => ParagraphProperty.setWidowControl p true) ⟨b, c⟩
      = ⟨{ b with widowControl := (litB (some x)).or b.widowControl }, c⟩ := by cases x <;> rfl
  have b8 (x : Option Nat) (b : ParagraphBase) (c) : onSome x ParagraphProperty.setOutlineLvl ⟨b, c⟩
      = ⟨{ b with outlineLvl := (x.map fun v => if v ≥ 10 then 9 else v).or b.outlineLvl }, c⟩ := by
    cases x with
    | none => rfl
    | some v =>
      simp only [onSome, ParagraphProperty.setOutlineLvl, ParagraphProperty.upd, Option.map_some, Option.some_or]
      split <;> rfl
  have b9 (x : Option Str) (b : ParagraphBase) (c) : onSome x ParagraphProperty.setStyle ⟨b, c⟩
      = ⟨{ b with style := (x.map escapeOwned).or b.style }, c⟩ := by cases x <;> rfl
  have c1 (l : List Tab) : ∀ (b : ParagraphBase) (c), l.foldl (fun p t => ParagraphProperty.addTab p { t with leader := t.leader.map paragraphTabLeader }) ⟨b, c⟩
      = ⟨{ b with tabs := b.tabs ++ l.map fun t => { t with leader := t.leader.map paragraphTabLeader } }, c⟩ := by
    induction l with
    | nil => intro b c; simp
    | cons t l ih =>
      intro b c
      rw [List.foldl_cons, ParagraphProperty.addTab, ParagraphProperty.upd, ih]
      simp
  have e : ({} : ParagraphProperty) = ⟨{}, none⟩ := rfl
  unfold createParagraphProperty
  rw [e]
  simp only [a1, a2, a3, a4, a5, a9, b3, b4, b5, b6, b7, b8, b9, c1, Option.or_none, List.nil_append]

/-- **C83, C84, formatting of paragraphs.** The formatting made with the methods of `ParagraphProperty` arrives as the setters of the same names in
Rust make it. Missing: the full statement is for all calls; it does not hold for those that are excluded (`C83_fails_start`, `C83_fails_leader`). -/
theorem C83_format_partial (calls : List JsFormatCall) (h : ∀ c ∈ calls, JsFormatCall.comesThrough c) :
    createParagraphProperty (calls.foldl JsParagraphProperty.ownCall {}) = calls.foldl JsFormatCall.wanted {} := by
  induction calls using snoc_induction with
  | h0 => rfl
  | h1 l c ih =>
    have ih := ih fun x hx => h x (List.mem_append_left _ hx)
    have hc := h c (by simp)
    rw [List.foldl_append, List.foldl_append, ← ih, List.foldl_cons, List.foldl_nil, List.foldl_cons, List.foldl_nil]
    generalize l.foldl JsParagraphProperty.ownCall {} = j
    rw [style_paragraph, style_paragraph]
    cases c with
    | tabs ts =>
      have hc : ∀ t ∈ ts, t.leader ≠ some .underscore := hc
      have : (ts.map fun t => { t with leader := t.leader.map paragraphTabLeader }) = ts := by
        conv => rhs; rw [← List.map_id ts]
        refine List.map_congr_left fun t ht => ?_
        have := hc t ht
        obtain ⟨v, l, p⟩ := t
        rcases l with _ | l
        · rfl
        · cases l <;> first | rfl | exact absurd rfl this
      simp only [JsParagraphProperty.ownCall, this]
      rfl
    | align a =>
      have hc : a ≠ .start := hc
      cases a <;> first | rfl | exact absurd rfl hc
    | style s =>
      have hc : s ≠ [] := hc
      simp only [JsParagraphProperty.ownCall, truthy_some hc]
      rfl
    | _ => rfl

/-- **C83 fails** for tabs led by underscores: they are led by nothing. -/
theorem C83_fails_leader (calls : List JsFormatCall) (ts : List Tab) :
    (createParagraphProperty ((calls ++ [JsFormatCall.tabs ts]).foldl JsParagraphProperty.ownCall {})).base.tabs.map (·.leader)
      = ts.map fun t => if t.leader = some .underscore then some .none_ else t.leader := by
  rw [List.foldl_append, style_paragraph]
  simp only [List.foldl_cons, List.foldl_nil, JsParagraphProperty.ownCall, List.map_map]
  refine List.map_congr_left fun t _ => ?_
  obtain ⟨v, l, p⟩ := t
  rcases l with _ | l
  · rfl
  · cases l <;> rfl

theorem own_dstrike (j : JsRunProperty) (c : JsRunCall) (hj : j.dstrike = none) (hc : c ≠ .dstrike) : (j.ownCall c).dstrike = none := by
  cases c <;> first | exact hj | exact absurd rfl hc

theorem own_dstrikes : ∀ (cs : List JsRunCall) (j : JsRunProperty), j.dstrike = none → .dstrike ∉ cs → (cs.foldl JsRunProperty.ownCall j).dstrike = none
  | [], _, hj, _ => hj
  | c :: cs, j, hj, h => by
    simp only [List.mem_cons, not_or] at h
    exact own_dstrikes cs _ (own_dstrike j c hj (Ne.symm h.1)) h.2

theorem style_dstrike (calls : List JsStyleCall) (s : JsStyle) (hs : s.runProperty.dstrike = none) (h : .dstrike ∉ calls.flatMap runsOf) :
    (calls.foldl JsStyle.call s).runProperty.dstrike = none := by
  induction calls using snoc_induction with
  | h0 => exact hs
  | h1 l c ih =>
    simp only [List.flatMap_append, List.flatMap_cons, List.flatMap_nil, List.append_nil, List.mem_append, not_or] at h
    have ih := ih h.1
    rw [List.foldl_append]
    cases c with
    | run c => exact own_dstrike _ c ih fun e => h.2 (by rw [e]; exact List.mem_singleton.2 rfl)
    | runProperty cs => exact own_dstrikes cs {} rfl h.2
    | _ => exact ih

theorem style_run (j : JsRunProperty) (c : JsRunCall) (hc : runInStyle c) (hd : c = .strike → j.dstrike = none) :
    setRunProperty {} { j.ownCall c with style := none } = JsRunCall.wanted (setRunProperty {} { j with style := none }) c := by
  rw [← run_step { j with style := none } c (by cases c <;> first | exact hc | exact hc.elim) hd]
  cases c with
  | style s => exact hc.elim
  | insert a d => exact hc.elim
  | _ => rfl

theorem style_runs (cs : List JsRunCall) (hc : ∀ c ∈ cs, runInStyle c) (hs : ∀ a b, cs = a ++ .strike :: b → .dstrike ∉ a) :
    setRunProperty {} { cs.foldl JsRunProperty.ownCall {} with style := none } = cs.foldl JsRunCall.wanted {} := by
  induction cs using snoc_induction with
  | h0 => rfl
  | h1 l c ih =>
    have ih := ih (fun x hx => hc x (List.mem_append_left _ hx)) fun a b e => hs a (b ++ [c]) (by rw [e]; simp)
    rw [List.foldl_append, List.foldl_append, ← ih, List.foldl_cons, List.foldl_nil, List.foldl_cons, List.foldl_nil]
    refine style_run _ c (hc c (by simp)) fun e => ?_
    subst e
    exact own_dstrikes l {} rfl (hs l [] rfl)

/-- **C83.** A style made in JavaScript arrives with everything its methods were asked for: id, kind, name, base, link, place in the lists,
formatting of runs, paragraphs and tables. Missing: the full statement is for all calls; it does not hold for those that are excluded
(`C83_fails_style`, `C83_fails_marks`, `C83_fails_base`, `C83_fails_off`, `C83_fails_start`, `C83_fails_width`, and on runs
`C78_fails_strike`, `C78_fails_baseline`, `C78_fails_border`, `C78_fails_empty`). -/
theorem C83_style_partial (id : Str) (t : StyleType) (calls : List JsStyleCall) (h : ∀ c ∈ calls, JsStyleCall.comesThrough c)
    (hs : ∀ a b, calls.flatMap runsOf = a ++ .strike :: b → .dstrike ∉ a) :
    builtStyle id t calls = wantedStyle id t calls := by
  rw [builtStyle, wantedStyle]
  induction calls using snoc_induction with
  | h0 => rfl
  | h1 l c ih =>
    have ih := ih (fun x hx => h x (List.mem_append_left _ hx)) fun a b e => hs a (b ++ runsOf c) (by rw [List.flatMap_append, e]; simp)
    have hc := h c (by simp)
    have hd : c = .run .strike → (l.foldl JsStyle.call { styleId := id, styleType := t }).runProperty.dstrike = none := by
      intro e
      subst e
      exact style_dstrike l _ rfl (hs _ [] (by simp [runsOf]))
    rw [List.foldl_append, List.foldl_append, ← ih, List.foldl_cons, List.foldl_nil, List.foldl_cons, List.foldl_nil]
    generalize l.foldl JsStyle.call { styleId := id, styleType := t } = s at hd
    rw [style_set, style_set]
    cases c with
    | basedOn n =>
      have hc : n ≠ [] := hc
      simp [JsStyle.call, JsStyleCall.wanted, truthy_some hc]
    | link n =>
      have hc : n ≠ [] := hc
      simp [JsStyle.call, JsStyleCall.wanted, truthy_some hc]
    | run c =>
      simp only [JsStyle.call, JsStyleCall.wanted]
      rw [style_run _ c hc fun e => hd (by rw [e])]
    | runProperty cs =>
      simp only [JsStyle.call, JsStyleCall.wanted]
      rw [style_runs cs hc fun a b e hx => hs (l.flatMap runsOf ++ a) b (by simp [runsOf, e]) (List.mem_append_right _ hx)]
    | width n => exact hc.elim
    | paragraphProperty cs => simp only [JsStyle.call, JsStyleCall.wanted, C83_format_partial cs hc]
    | align a =>
      have hc : a ≠ .start := hc
      simp only [JsStyle.call, JsStyle.onParagraph, JsStyleCall.wanted, styleParagraph, style_paragraph]
      cases a <;> first | rfl | exact absurd rfl hc
    | indent l k n =>
      simp only [JsStyle.call, JsStyle.onParagraph, style_paragraph]
      cases k with
      | none => rfl
      | some k => cases k <;> cases n <;> rfl
    | keepNext v =>
      have hc : v = true := hc
      subst hc
      simp only [JsStyle.call, JsStyle.onParagraph, JsStyleCall.wanted, styleParagraph, style_paragraph]; rfl
    | keepLines v =>
      have hc : v = true := hc
      subst hc
      simp only [JsStyle.call, JsStyle.onParagraph, JsStyleCall.wanted, styleParagraph, style_paragraph]; rfl
    | pageBreakBefore v =>
      have hc : v = true := hc
      subst hc
      simp only [JsStyle.call, JsStyle.onParagraph, JsStyleCall.wanted, styleParagraph, style_paragraph]; rfl
    | widowControl v =>
      have hc : v = true := hc
      subst hc
      simp only [JsStyle.call, JsStyle.onParagraph, JsStyleCall.wanted, styleParagraph, style_paragraph]; rfl
    | outlineLevel n =>
      simp only [JsStyle.call, JsStyle.onParagraph, JsStyleCall.wanted, styleParagraph, style_paragraph,
        ParagraphProperty.setOutlineLvl, ParagraphProperty.upd, Option.map_some]
      split <;> rfl
    | numbering i l => simp only [JsStyle.call, JsStyle.onParagraph, JsStyleCall.wanted, styleParagraph, style_paragraph]; rfl
    | lineSpacing x => simp only [JsStyle.call, JsStyle.onParagraph, JsStyleCall.wanted, styleParagraph, style_paragraph]; rfl
    | snapToGrid v => simp only [JsStyle.call, JsStyle.onParagraph, JsStyleCall.wanted, styleParagraph, style_paragraph]; rfl
    | tableIndent n => simp only [JsStyle.call, JsStyle.onTable, JsStyleCall.wanted, styleTable, table_set]; rfl
    | tableAlign n => simp only [JsStyle.call, JsStyle.onTable, JsStyleCall.wanted, styleTable, table_set]; rfl
    | layout n => simp only [JsStyle.call, JsStyle.onTable, JsStyleCall.wanted, styleTable, table_set]; rfl
    | cellMargins t r b l => simp only [JsStyle.call, JsStyle.onTable, JsStyleCall.wanted, styleTable, table_set]; rfl
    | cellMarginTop n t => simp only [JsStyle.call, JsStyle.onTable, JsStyleCall.wanted, styleTable, table_set]; rfl
    | cellMarginLeft n t => simp only [JsStyle.call, JsStyle.onTable, JsStyleCall.wanted, styleTable, table_set]; rfl
    | cellMarginRight n t => simp only [JsStyle.call, JsStyle.onTable, JsStyleCall.wanted, styleTable, table_set]; rfl
    | cellMarginBottom n t => simp only [JsStyle.call, JsStyle.onTable, JsStyleCall.wanted, styleTable, table_set]; rfl
    | _ => rfl

/-- A style with something of everything. -/
def jsStyleOf : List JsStyleCall :=
  [.name c!"A & B", .basedOn c!"Normal", .qFormat false, .run .bold, .run (.size 30), .uiPriority 9, .align .center, .indent 420 (some .hanging) (some 7),
    .keepNext true, .outlineLevel 12, .tableIndent 5, .cellMarginLeft 9 .pct, .semiHidden, .name c!"B & C", .run .dstrike,
    .runProperty [.italic, .size 30]]

example : (∀ c ∈ jsStyleOf, JsStyleCall.comesThrough c) ∧ (∀ a b, jsStyleOf.flatMap runsOf = a ++ .strike :: b → .dstrike ∉ a) ∧
    (wantedStyle c!"x" .paragraph jsStyleOf).name = c!"B &amp; C" ∧ (wantedStyle c!"x" .paragraph jsStyleOf).runProperty.sz = some 30 ∧
    (wantedStyle c!"x" .paragraph jsStyleOf).paragraphProperty.base.outlineLvl = some 9 ∧ (wantedStyle c!"x" .paragraph jsStyleOf).qFormat = false ∧
    (wantedStyle c!"x" .paragraph jsStyleOf).tableProperty.margins = some { left := ⟨9, .pct⟩ } := by
  refine ⟨?_, ?_, by decide +kernel, by decide +kernel, by decide +kernel, by decide +kernel, by decide +kernel⟩
  · intro c hc
    simp only [jsStyleOf, List.mem_cons, List.not_mem_nil, or_false] at hc
    rcases hc with h | h | h | h | h | h | h | h | h | h | h | h | h | h | h | h <;> subst h <;> simp [JsStyleCall.comesThrough, JsRunCall.comesThrough, runInStyle]
  · intro a b e
    exfalso
    have : JsRunCall.strike ∈ jsStyleOf.flatMap runsOf := by rw [e]; simp
    simp [jsStyleOf, runsOf] at this

theorem style_snoc (id : Str) (t : StyleType) (calls : List JsStyleCall) (c : JsStyleCall) :
    builtStyle id t (calls ++ [c]) = ((calls.foldl JsStyle.call { styleId := id, styleType := t }).call c).build ∧
    wantedStyle id t (calls ++ [c]) = JsStyleCall.wanted (wantedStyle id t calls) c := by
  rw [builtStyle, wantedStyle, wantedStyle, List.foldl_append, List.foldl_append]
  exact ⟨rfl, rfl⟩

/-- **C83 fails** for the style of runs: whatever is called, none arrives. -/
theorem C83_fails_style (id : Str) (t : StyleType) (calls : List JsStyleCall) (s : Str) :
    (builtStyle id t (calls ++ [.run (.style s)])).runProperty.style = none ∧
    (wantedStyle id t (calls ++ [.run (.style s)])).runProperty.style = some (escapeOwned s) := by
  rw [(style_snoc ..).1, (style_snoc ..).2, style_set, run_set]
  exact ⟨rfl, rfl⟩

/-- **C83 fails** for marks of insertions and deletions: none arrives, whatever is called. -/
theorem C83_fails_marks (id : Str) (t : StyleType) (calls : List JsStyleCall) (a d : Str) :
    (builtStyle id t calls).runProperty.ins = none ∧ (builtStyle id t calls).runProperty.del = none ∧
    (wantedStyle id t (calls ++ [.run (.insert a d)])).runProperty.ins = some (.new a d) ∧
    (wantedStyle id t (calls ++ [.run (.delete a d)])).runProperty.del = some (.new a d) := by
  rw [(style_snoc ..).2, (style_snoc ..).2, builtStyle, style_set, run_set]
  exact ⟨rfl, rfl, rfl, rfl⟩

/-- **C83 fails** for an empty base or link: it does not replace the one given before by an empty one, it removes it. -/
theorem C83_fails_base (id : Str) (t : StyleType) (calls : List JsStyleCall) :
    (builtStyle id t (calls ++ [.basedOn []])).basedOn = none ∧ (wantedStyle id t (calls ++ [.basedOn []])).basedOn = some [] ∧
    (builtStyle id t (calls ++ [.link []])).link = none ∧ (wantedStyle id t (calls ++ [.link []])).link = some [] := by
  rw [(style_snoc ..).1, (style_snoc ..).2, (style_snoc ..).1, (style_snoc ..).2, style_set, style_set]
  exact ⟨rfl, rfl, rfl, rfl⟩

/-- **C83 fails** for flags turned off: the style says nothing about them, so it cannot undo what its base says. -/
theorem C83_fails_off (id : Str) (t : StyleType) (calls : List JsStyleCall) :
    (builtStyle id t (calls ++ [.keepNext false])).paragraphProperty.base.keepNext = none ∧
    (wantedStyle id t (calls ++ [.keepNext false])).paragraphProperty.base.keepNext = some false ∧
    (builtStyle id t (calls ++ [.keepLines false])).paragraphProperty.base.keepLines = none ∧
    (wantedStyle id t (calls ++ [.keepLines false])).paragraphProperty.base.keepLines = some false ∧
    (builtStyle id t (calls ++ [.pageBreakBefore false])).paragraphProperty.base.pageBreakBefore = none ∧
    (wantedStyle id t (calls ++ [.pageBreakBefore false])).paragraphProperty.base.pageBreakBefore = some false ∧
    (builtStyle id t (calls ++ [.widowControl false])).paragraphProperty.base.widowControl = none ∧
    (wantedStyle id t (calls ++ [.widowControl false])).paragraphProperty.base.widowControl = some false := by
  simp only [(style_snoc ..).1, (style_snoc ..).2, style_set, style_paragraph]
  exact ⟨rfl, rfl, rfl, rfl, rfl, rfl, rfl, rfl⟩

/-- **C83.** Bold, italic and struck text that a style is to switch off is not mentioned in the style that arrives, so that a style based
on a bold one is bold too. -/
theorem C83_fails_disable (s : JsStyle) (p : JsRunProperty) :
    ({ s with runProperty := p.disableBold }.build.runProperty.bold = none ∧ (RunProperty.disableBold {}).bold = some false) ∧
    ({ s with runProperty := p.disableItalic }.build.runProperty.italic = none ∧ (RunProperty.disableItalic {}).italic = some false) ∧
    ({ s with runProperty := { p with dstrike := none }.disableStrike }.build.runProperty.strike = none ∧
      (RunProperty.disableStrike {}).strike = some false) := by
  simp only [style_set, run_set, JsRunProperty.disableBold, JsRunProperty.disableItalic, JsRunProperty.disableStrike]
  exact ⟨⟨rfl, rfl⟩, ⟨rfl, rfl⟩, rfl, rfl⟩

/-- **C83 fails** for the alignment `start`: it takes away the one given before. -/
theorem C83_fails_start (id : Str) (t : StyleType) (calls : List JsStyleCall) :
    (builtStyle id t (calls ++ [.align .start])).paragraphProperty.base.alignment = none ∧
    (wantedStyle id t (calls ++ [.align .start])).paragraphProperty.base.alignment = some c!"start" := by
  simp only [(style_snoc ..).1, (style_snoc ..).2, style_set, style_paragraph]
  exact ⟨rfl, rfl⟩

/-- **C83 fails** for the width of tables: whatever is called, it is that of a table no width was given to. -/
theorem C83_fails_width (id : Str) (t : StyleType) (calls : List JsStyleCall) (m : Nat) :
    (builtStyle id t (calls ++ [.width m])).tableProperty.width = ⟨0, .auto⟩ ∧
    (wantedStyle id t (calls ++ [.width m])).tableProperty.width = ⟨m, .dxa⟩ := by
  simp only [(style_snoc ..).1, (style_snoc ..).2, style_set, table_set]
  exact ⟨trivial, rfl⟩

/-! ## The styles of a document -/

def effStyles : List Style → BridgeCall → List Style
  | l, .builder (.addStyle s) => l ++ [s]
  | x, _ => x

theorem view_styles : View (fun d => d.styles.styles) effStyles := by view_field

theorem styles_given (cs : List JsFileCall) : (jsFileOf cs).styles = cs.filterMap givesStyle :=
  all_calls (g := givesStyle) (π := JsFile.styles) (fun f c => by cases c <;> first | rfl | exact (List.append_nil _).symm) cs {}

/-- **C83.** The styles of a document made in JavaScript are those that were added, in order, whatever else was called. -/
theorem C83_styles (cs : List JsFileCall) (n m : Ids) (d : DocxFile) (hb : (jsFileOf cs).build lib n = some (d, m)) :
    d.styles.styles = (cs.filterMap givesStyle).map JsStyle.build := by
  have h := view_styles.built lib hb
  run_field h [effStyles]
  rw [h, styles_given, foldl_push JsStyle.build]
  rfl

example : ∃ d m, (jsFileOf [.addStyle (jsStyleOf.foldl JsStyle.call ⟨c!"x", .paragraph, [], {}, {}, {}, none, none, true, none, false, false⟩),
      .add (.paragraph {}), .addStyle ⟨c!"y", .character, c!"Y", {}, {}, {}, none, none, true, none, false, false⟩]).build sampleLib ⟨1, 1, 1⟩ = some (d, m) ∧
    d.styles.styles.map Style.name = [c!"B &amp; C", c!"Y"] := by
  obtain ⟨d, m, h⟩ := (C82_builds sampleLib [.addStyle (jsStyleOf.foldl JsStyle.call ⟨c!"x", .paragraph, [], {}, {}, {}, none, none, true, none, false, false⟩),
      .add (.paragraph {}), .addStyle ⟨c!"y", .character, c!"Y", {}, {}, {}, none, none, true, none, false, false⟩] ⟨1, 1, 1⟩).2 (fun id xml h => by simp at h)
  refine ⟨d, m, h, ?_⟩
  rw [C83_styles _ _ _ _ _ h]
  decide +kernel

end Docx.Props
