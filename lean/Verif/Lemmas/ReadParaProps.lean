import Verif.Lemmas.ReadRunProps

/-!
# Paragraph formatting and section properties written and read
-/

namespace Docx

open Docx.Xml Docx.Spec

variable {x : ReadEnv}

/-! ## Attributes -/

theorem foldAttrs_optMap {σ α : Type} {f : σ → Str → Str → List REvent → Read σ} {k : Str} {o : Option α} {t : α → Str}
    (g : α → σ → σ) (hd : ∀ a, decodeAttr (t a) = some (t a))
    (h : ∀ a s es, f s (splitQName k).loc (t a) es = .ok (g a s) es) (as : List (Str × Str)) (s : σ) (es : List REvent) :
    foldAttrs f s (expectAttrs (optAttr k (o.map t) ++ as)) es =
      foldAttrs f (o.elim s fun a => g a s) (expectAttrs as) es := by
  cases o with
  | none => simp [optAttr]
  | some a =>
    simp only [Option.map_some, optAttr, List.cons_append, List.nil_append, expectAttrs_lit _ _ (hd a), foldAttrs, h,
      Read.bind, Option.elim_some]

theorem foldAttrs_one {σ : Type} {f : σ → Str → Str → List REvent → Read σ} {k v : Str} {s s' : σ}
    (hd : decodeAttr v = some v) (as : List (Str × Str)) (es : List REvent)
    (h : f s (splitQName k).loc v es = .ok s' es) :
    foldAttrs f s (expectAttrs ((k, v) :: as)) es = foldAttrs f s' (expectAttrs as) es := by
  simp only [expectAttrs_lit _ _ hd, foldAttrs, h, Read.bind]

theorem foldAttrs_done {σ : Type} {f : σ → Str → Str → List REvent → Read σ} {s : σ} {es : List REvent} :
    foldAttrs f s (expectAttrs []) es = .ok s es := rfl

theorem foldl_optMap {σ α : Type} {f : σ → QName × Str → σ} {k : Str} {o : Option α} {t : α → Str}
    (hd : ∀ a, decodeAttr (t a) = some (t a)) (as : List (Str × Str)) (s : σ) :
    (expectAttrs (optAttr k (o.map t) ++ as)).foldl f s =
      (expectAttrs as).foldl f (o.elim s fun a => f s (splitQName k, t a)) := by
  cases o with
  | none => simp [optAttr]
  | some a => simp only [Option.map_some, optAttr, List.cons_append, List.nil_append, expectAttrs_lit _ _ (hd a)]; rfl

theorem elim_set {σ α β : Type} (o : Option α) (s : σ) (put : Option β → σ) (r : α → β) (old : Option β)
    (h : put old = s) : (o.elim s fun a => put (some (r a))) = put ((o.map r).or old) := by
  cases o <;> simp [h]

theorem valueToDax_decInt (x : ReadEnv) (i : Int) : valueToDax x (decInt i) = some (floatI32 i) := by
  have : c!"pt".isSuffixOf (decInt i) = false := by
    rw [Bool.eq_false_iff]
    intro h
    have hs : c!"pt" <:+ decInt i := List.isSuffixOf_iff_suffix.1 h
    have ht : 't' ∈ decInt i := hs.subset (by decide)
    have key : ∀ n, 't' ∉ dec n := fun n hn => by
      have := List.all_eq_true.1 (isDigit_dec (n := n)) _ hn
      exact absurd this (by decide)
    cases i with
    | ofNat n => exact key n ht
    | negSucc n =>
      rcases List.mem_cons.1 ht with h | h
      · exact absurd h (by decide)
      · exact key _ h
  unfold valueToDax
  rw [this]
  simp [parseFloat_decInt, floatI32]

theorem valueToDax_dec (x : ReadEnv) (n : Nat) : valueToDax x (dec n) = some (floatI32 n) :=
  valueToDax_decInt x (Int.ofNat n)

/-- An empty element in the paragraph property loop. -/
macro "pp_leaf" "[" ls:Lean.Parser.Tactic.simpLemma,* "]" : tactic => `(tactic|
  (refine TakesF.leaf' (fun d es hd => ?_) (fun d => ?_)
   · simp [-String.reduceToList, String.toList_inj, paragraphPropertyLoop, Read.bind, Read.map, expectAttrs_nil, firstValue, attrFirst,
       attrNamed_cons, attrNamed_nil, orErr, ParagraphProperty.upd, $ls,*]
   · simp [-String.reduceToList, String.toList_inj, paragraphPropertyLoop, closesAt]))

/-! ## Simple values -/

theorem takes_pStyle (o : Option Str) (h : OptDecodes o) : TakesN x (paragraphPropertyLoop x) (emitN (optN o (valN c!"w:pStyle")))
    (fun p => p.upd fun b => { b with style := (o.map again).or b.style }) := by
  refine .opt (fun v e ⟨pb, pc⟩ => ?_) (fun e p => by cases p; simp [e, ParagraphProperty.upd])
  replace h := h v e
  subst e
  pp_leaf [expectAttrs_cons h, ParagraphProperty.setStyle, again]

/-- An alignment read back: the names the reader knows. -/
def alignmentAgain (s : Str) : Option Str := (AlignmentType.fromStr (seen s)).map AlignmentType.toStr

theorem takes_jc (o : Option Str) (h : OptDecodes o) : TakesN x (paragraphPropertyLoop x) (emitN (optN o (valN c!"w:jc")))
    (fun p => p.upd fun b => { b with alignment := (o.bind alignmentAgain).or b.alignment }) := by
  refine .opt (fun v e ⟨pb, pc⟩ => ?_) (fun e p => by cases p; simp [e, ParagraphProperty.upd])
  replace h := h v e
  subst e
  simp only [Option.bind_some, alignmentAgain]
  cases hv : AlignmentType.fromStr (seen v) <;>
    pp_leaf [expectAttrs_cons h, ParagraphProperty.setAlign, hv]

/-- An outline level read back. -/
def outlineAgain (n : Nat) : Nat := if n ≥ 10 then 9 else n

theorem takes_outlineLvl (o : Option Nat) (h : ∀ n, o = some n → n < 2 ^ 64) :
    TakesN x (paragraphPropertyLoop x) (emitN (optN o fun v => valN c!"w:outlineLvl" (dec v)))
    (fun p => p.upd fun b => { b with outlineLvl := (o.map outlineAgain).or b.outlineLvl }) := by
  refine .opt (fun v e ⟨pb, pc⟩ => ?_) (fun e p => by cases p; simp [e, ParagraphProperty.upd])
  replace h := h v e
  subst e
  by_cases hv : v ≥ 10 <;>
    pp_leaf [expectAttrs_dec, usizeFromStr_dec h, ParagraphProperty.setOutlineLvl, outlineAgain, hv]

theorem takes_textAlignment (o : Option TextAlignmentType) :
    TakesN x (paragraphPropertyLoop x) (emitN (optN o fun v => valN c!"w:textAlignment" v.toStr))
    (fun p => p.upd fun b => { b with textAlignment := o.or b.textAlignment }) := by
  refine .opt (fun v e ⟨pb, pc⟩ => ?_) (fun e p => by cases p; simp [e, ParagraphProperty.upd])
  subst e
  have ht : decodeAttr v.toStr = some v.toStr := by cases v <;> decide +kernel
  pp_leaf [expectAttrs_lit _ _ ht, Props.C31_TextAlignmentType, ParagraphProperty.setTextAlignment]

theorem takes_adjustRightInd (o : Option Int) (h : ∀ i, o = some i → -(2 ^ 63) ≤ i ∧ i < 2 ^ 63) :
    TakesN x (paragraphPropertyLoop x) (emitN (optN o fun v => valN c!"w:adjustRightInd" (decInt v)))
    (fun p => p.upd fun b => { b with adjustRightInd := o.or b.adjustRightInd }) := by
  refine .opt (fun v e ⟨pb, pc⟩ => ?_) (fun e p => by cases p; simp [e, ParagraphProperty.upd])
  replace h := h v e
  subst e
  pp_leaf [expectAttrs_decInt, parseSigned_decInt 64 v h, ParagraphProperty.setAdjustRightInd]

theorem takes_snapToGrid (o : Option Bool) :
    TakesN x (paragraphPropertyLoop x) (emitN (optN o fun v => valN c!"w:snapToGrid" (boolText v)))
    (fun p => p.upd fun b => { b with snapToGrid := o.or b.snapToGrid }) := by
  refine .opt (fun v e ⟨pb, pc⟩ => ?_) (fun e p => by cases p; simp [e, ParagraphProperty.upd])
  subst e
  cases v
  · pp_leaf [boolText, expectAttrs_lit _ _ decodes_false, readBool_false]
  · pp_leaf [boolText, expectAttrs_lit _ _ decodes_true, readBool_true]

/-- A switch that is only written when it is on. -/
def onAgain (o : Option Bool) : Option Bool := if o = some true then some true else none

theorem takes_ifOn {L : Readers → Loop ParagraphProperty} {o : Option Bool} {f : List Node}
    {put : Option Bool → ParagraphProperty → ParagraphProperty}
    (h : ∀ p, TakesF x L p f (put (some true) p)) (hn : ∀ p, put none p = p) :
    TakesN x L (emitN (if o = some true then f else [])) (put (onAgain o)) := by
  refine .emit fun p => ?_
  unfold onAgain
  split
  · exact h p
  · rw [hn]; exact .nil _

theorem takes_keepNext (o : Option Bool) :
    TakesN x (paragraphPropertyLoop x) (emitN (if o = some true then leafN c!"w:keepNext" else []))
    (fun p => p.upd fun b => { b with keepNext := (onAgain o).or b.keepNext }) :=
  takes_ifOn (put := fun o p => p.upd fun b => { b with keepNext := o.or b.keepNext })
    (fun p => by pp_leaf [readBool_empty]) (fun p => by cases p; simp [ParagraphProperty.upd])

theorem takes_keepLines (o : Option Bool) :
    TakesN x (paragraphPropertyLoop x) (emitN (if o = some true then leafN c!"w:keepLines" else []))
    (fun p => p.upd fun b => { b with keepLines := (onAgain o).or b.keepLines }) :=
  takes_ifOn (put := fun o p => p.upd fun b => { b with keepLines := o.or b.keepLines })
    (fun p => by pp_leaf [readBool_empty]) (fun p => by cases p; simp [ParagraphProperty.upd])

theorem takes_pageBreakBefore (o : Option Bool) :
    TakesN x (paragraphPropertyLoop x) (emitN (if o = some true then leafN c!"w:pageBreakBefore" else []))
    (fun p => p.upd fun b => { b with pageBreakBefore := (onAgain o).or b.pageBreakBefore }) :=
  takes_ifOn (put := fun o p => p.upd fun b => { b with pageBreakBefore := o.or b.pageBreakBefore })
    (fun p => by pp_leaf [readBool_empty]) (fun p => by cases p; simp [ParagraphProperty.upd])

theorem takes_bidi (o : Option Bool) :
    TakesN x (paragraphPropertyLoop x) (emitN (if o = some true then leafN c!"w:bidi" else [])) id := by
  refine .emit fun p => ?_
  split
  · pp_leaf [readBool_empty]
  · exact .nil _

theorem decodes_0 : decodeAttr c!"0" = some c!"0" := by decide +kernel
theorem decodes_1 : decodeAttr c!"1" = some c!"1" := by decide +kernel
theorem readBool_0 (q : QName) : readBool [(q, c!"0")] = false := by
  have h : isFalse c!"0" = true := by decide +kernel
  unfold readBool
  simp only [attrNamed_cons, attrNamed_nil, attrFirst, List.head?_cons, Option.map_some]
  by_cases e : q.loc = c!"val" <;> simp [-String.reduceToList, String.toList_inj, e, h]
theorem readBool_1 (q : QName) : readBool [(q, c!"1")] = true := by
  have h : isFalse c!"1" = false := by decide +kernel
  unfold readBool
  simp only [attrNamed_cons, attrNamed_nil, attrFirst, List.head?_cons, Option.map_some]
  by_cases e : q.loc = c!"val" <;> simp [-String.reduceToList, String.toList_inj, e, h]

theorem takes_widowControl (o : Option Bool) :
    TakesN x (paragraphPropertyLoop x) (emitN (optN o fun v => valN c!"w:widowControl" (bitText v)))
    (fun p => p.upd fun b => { b with widowControl := (onAgain o).or b.widowControl }) := by
  refine .opt (fun v e ⟨pb, pc⟩ => ?_) (fun e p => by cases p; simp [e, ParagraphProperty.upd, onAgain])
  subst e
  cases v
  · pp_leaf [bitText, expectAttrs_lit _ _ decodes_0, readBool_0, onAgain]
  · pp_leaf [bitText, expectAttrs_lit _ _ decodes_1, readBool_1, onAgain]

theorem takes_pShading (o : Option Shading) (h : ∀ f, o = some f → ∀ s ∈ f.strings, (decodeAttr s).isSome) :
    TakesN x (paragraphPropertyLoop x) (emitN (optN o Shading.nodes))
    (fun p => p.upd fun b => { b with shading := (o.map Shading.reread).or b.shading }) := by
  refine .opt (fun f e ⟨pb, pc⟩ => ?_) (fun e p => by cases p; simp [e, ParagraphProperty.upd])
  replace h := h f e
  subst e
  pp_leaf [readShading_nodes f h]

/-! ## Indentation and spacing -/

/-- What `w:ind` says about a special indent, read back. -/
def SpecialIndentType.reread : SpecialIndentType → SpecialIndentType
  | .firstLine v => .firstLine (floatI32 v)
  | .hanging v => .hanging (floatI32 v)

/-- An indent read back: missing sides are `0`, and indents in characters other than at the start are lost. -/
def Indent.reread (i : Indent) : Indent where
  start := some (floatI32 (i.start.getD 0))
  end_ := some (floatI32 (i.end_.getD 0))
  special := i.special.map SpecialIndentType.reread
  startChars := i.startChars.map floatI32

theorem readIndent_nodes (i : Indent) (es : List REvent) :
    readIndent x (expectAttrs ([(c!"w:left", decInt (i.start.getD 0)), (c!"w:right", decInt (i.end_.getD 0))]
    ++ optAttr c!"w:leftChars" (i.startChars.map decInt)
    ++ (match i.special with
        | some (.firstLine v) => [(c!"w:firstLine", decInt v)]
        | some (.hanging v) => [(c!"w:hanging", decInt v)]
        | none => []))) es =
      .ok ⟨i.reread.start, i.reread.end_, i.reread.special, i.reread.startChars, none, none⟩ es := by
  obtain ⟨s, e, sp, sc, hc, fc⟩ := i
  rcases sp with _ | (v | v) <;> cases sc <;>
    simp [-String.reduceToList, String.toList_inj, readIndent, foldAttrs, Read.bind, Read.map, orErr, expectAttrs_decInt, optAttr,
      expectAttrs_nil, valueToDax_decInt, parseFloat_decInt, Indent.reread, SpecialIndentType.reread, floatI32]

theorem takes_ind (o : Option Indent) :
    TakesN x (paragraphPropertyLoop x) (emitN (optN o Indent.nodes))
    (fun p => p.upd fun b => { b with indent := (o.map Indent.reread).or b.indent }) := by
  refine .opt (fun i e ⟨pb, pc⟩ => ?_) (fun e p => by cases p; simp [e, ParagraphProperty.upd])
  subst e
  refine TakesF.leaf' (fun d es hd => ?_) (fun d => ?_)
  · simp only [paragraphPropertyLoop, split_w_ind, el_ind]
    refine (congrArg (Read.map _) (readIndent_nodes i es)).trans ?_
    simp [Read.map, Read.bind, ParagraphProperty.setIndent, ParagraphProperty.upd, Indent.reread]
  · simp [-String.reduceToList, String.toList_inj, paragraphPropertyLoop, closesAt]

/-- Line spacing read back. -/
def LineSpacing.reread (l : LineSpacing) : LineSpacing where
  lineRule := l.lineRule
  before := l.before.map floatU32
  after := l.after.map floatU32
  beforeLines := l.beforeLines.map floatU32
  afterLines := l.afterLines.map floatU32
  line := l.line.map floatI32

/-- One attribute of the line spacing. -/
def spacingStep (x : ReadEnv) (s : LineSpacing) (name v : Str) (es : List REvent) : Read LineSpacing :=
    if name = c!"before" then (orErr (parseFloat x v) es).map fun i => { s with before := some (toU32 i) }
    else if name = c!"after" then (orErr (parseFloat x v) es).map fun i => { s with after := some (toU32 i) }
    else if name = c!"line" then (orErr (parseFloat x v) es).map fun i => { s with line := some (toI32 i) }
    else if name = c!"lineRule" then
      (orErr (LineSpacingType.fromStr v) es).map fun t => { s with lineRule := some t }
    else if name = c!"beforeLines" then
      (orErr (parseFloat x v) es).map fun i => { s with beforeLines := some (toU32 i) }
    else if name = c!"afterLines" then
      (orErr (parseFloat x v) es).map fun i => { s with afterLines := some (toU32 i) }
    else .ok s es

/-- The text of a line rule. -/
def lineRuleText : LineSpacingType → Str
  | .auto => c!"auto"
  | .atLeast => c!"atLeast"
  | .exact => c!"exact"

theorem readLineSpacing_nodes (l : LineSpacing) (es : List REvent) :
    readLineSpacing x (expectAttrs (optAttr c!"w:before" (l.before.map dec) ++ optAttr c!"w:after" (l.after.map dec)
    ++ optAttr c!"w:beforeLines" (l.beforeLines.map dec)
    ++ optAttr c!"w:afterLines" (l.afterLines.map dec)
    ++ optAttr c!"w:line" (l.line.map decInt)
    ++ optAttr c!"w:lineRule" (l.lineRule.map lineRuleText))) es = .ok l.reread es := by
  obtain ⟨f1, f2, f3, f4, f5, f6⟩ := l
  have e : readLineSpacing x = foldAttrs (spacingStep x) {} := rfl
  have hr : ∀ t, decodeAttr (lineRuleText t) = some (lineRuleText t) := by intro t; cases t <;> decide +kernel
  have hf : ∀ t, LineSpacingType.fromStr (lineRuleText t) = some t := by intro t; cases t <;> decide +kernel
  simp only [e, List.append_assoc]
  rw [foldAttrs_optMap (fun n s => { s with before := some (floatU32 n) }) decodeAttr_dec
      (fun n s es => by simp [-String.reduceToList, String.toList_inj, spacingStep, orErr, Read.map, Read.bind, parseFloat_dec, floatU32]),
    foldAttrs_optMap (fun n s => { s with after := some (floatU32 n) }) decodeAttr_dec
      (fun n s es => by simp [-String.reduceToList, String.toList_inj, spacingStep, orErr, Read.map, Read.bind, parseFloat_dec, floatU32]),
    foldAttrs_optMap (fun n s => { s with beforeLines := some (floatU32 n) }) decodeAttr_dec
      (fun n s es => by simp [-String.reduceToList, String.toList_inj, spacingStep, orErr, Read.map, Read.bind, parseFloat_dec, floatU32]),
    foldAttrs_optMap (fun n s => { s with afterLines := some (floatU32 n) }) decodeAttr_dec
      (fun n s es => by simp [-String.reduceToList, String.toList_inj, spacingStep, orErr, Read.map, Read.bind, parseFloat_dec, floatU32]),
    foldAttrs_optMap (fun n s => { s with line := some (floatI32 n) }) decodeAttr_decInt
      (fun n s es => by simp [-String.reduceToList, String.toList_inj, spacingStep, orErr, Read.map, Read.bind, parseFloat_decInt, floatI32]),
    ← List.append_nil (optAttr _ (f1.map _)),
    foldAttrs_optMap (fun t s => { s with lineRule := some t }) hr
      (fun n s es => by simp [-String.reduceToList, String.toList_inj, spacingStep, orErr, Read.map, Read.bind, hf]),
    foldAttrs_done]
  cases f1 <;> cases f2 <;> cases f3 <;> cases f4 <;> cases f5 <;> cases f6 <;> rfl

theorem takes_lineSpacing (o : Option LineSpacing) :
    TakesN x (paragraphPropertyLoop x) (emitN (optN o LineSpacing.nodes))
    (fun p => p.upd fun b => { b with lineSpacing := (o.map LineSpacing.reread).or b.lineSpacing }) := by
  refine .opt (fun l e ⟨pb, pc⟩ => ?_) (fun e p => by cases p; simp [e, ParagraphProperty.upd])
  subst e
  refine TakesF.leaf' (fun d es hd => ?_) (fun d => ?_)
  · simp only [paragraphPropertyLoop, split_w_spacing, el_spacing]
    refine (congrArg (Read.caught · _) (readLineSpacing_nodes l es)).trans ?_
    simp [Read.caught, ParagraphProperty.setLineSpacing, ParagraphProperty.upd]
  · simp [-String.reduceToList, String.toList_inj, paragraphPropertyLoop, closesAt]

/-! ## Numbering -/

theorem takes_numPr (o : Option NumberingProperty) (h : ∀ n, o = some n →
      (∀ i, n.id = some i → i < 2 ^ 64) ∧ ∀ l, n.level = some l → l < 2 ^ 64) :
    TakesN x (paragraphPropertyLoop x) (emitN (optN o NumberingProperty.nodes))
    (fun p => p.upd fun b => { b with numberingProperty := o.or b.numberingProperty }) := by
  refine .opt (fun n e ⟨pb, pc⟩ => ?_) (fun e p => by cases p; simp [e, ParagraphProperty.upd])
  replace h := h n e
  subst e
  obtain ⟨i, l⟩ := n
  refine TakesF.child ?_
  have h1 : TakesF x (fun _ => numPrLoop) {} (optN i (fun i => valN c!"w:numId" (dec i))) { id := i } := by
    cases i with
    | none => exact .nil _
    | some i =>
      refine TakesF.leaf' (fun d es hd => ?_) (fun d => ?_)
      · simp [-String.reduceToList, String.toList_inj, numPrLoop, expectAttrs_dec, expectAttrs_nil, firstValue, attrFirst, Read.bind, Read.map,
          orErr, usizeFromStr_dec (h.1 i rfl)]
      · simp [-String.reduceToList, String.toList_inj, numPrLoop, closesAt]
  have h2 : TakesF x (fun _ => numPrLoop) { id := i } (optN l (fun i => valN c!"w:ilvl" (dec i))) { id := i, level := l } := by
    cases l with
    | none => exact .nil _
    | some l =>
      refine TakesF.leaf' (fun d es hd => ?_) (fun d => ?_)
      · simp [-String.reduceToList, String.toList_inj, numPrLoop, expectAttrs_dec, expectAttrs_nil, firstValue, attrFirst, Read.bind, Read.map,
          orErr, usizeFromStr_dec (h.2 l rfl)]
      · simp [-String.reduceToList, String.toList_inj, numPrLoop, closesAt]
  refine ((Returns.loop (n := c!"w:numPr") (h1.append h2) (fun d => by
    simp [-String.reduceToList, String.toList_inj, numPrLoop, closesAt])).caught (g := fun n es => match n with
        | some n => .ok (ParagraphProperty.setNumberingProperty ⟨pb, pc⟩ n) es
        | none => .ok ⟨pb, pc⟩ es) (fun es => rfl)).congr (fun d es hd => ?_)
  simp [-String.reduceToList, String.toList_inj, paragraphPropertyLoop]
  rfl

/-! ## Borders -/

/-- A paragraph border read back. -/
def ParagraphBorder.reread (b : ParagraphBorder) : ParagraphBorder :=
  { b with size := floatU32 b.size, space := floatU32 b.space, color := seen b.color }

/-- Borders read back. -/
def ParagraphBorders.reread (b : ParagraphBorders) : ParagraphBorders where
  left := b.left.map ParagraphBorder.reread
  right := b.right.map ParagraphBorder.reread
  top := b.top.map ParagraphBorder.reread
  bottom := b.bottom.map ParagraphBorder.reread
  between := b.between.map ParagraphBorder.reread
  bar := b.bar.map ParagraphBorder.reread

/-- Each border is at its place, and the colours can be written. -/
def ParagraphBorders.Readable (b : ParagraphBorders) : Prop :=
  (∀ c, b.left = some c → c.position = .left) ∧ (∀ c, b.right = some c → c.position = .right) ∧
  (∀ c, b.top = some c → c.position = .top) ∧ (∀ c, b.bottom = some c → c.position = .bottom) ∧
  (∀ c, b.between = some c → c.position = .between) ∧ (∀ c, b.bar = some c → c.position = .bar) ∧
  ∀ s ∈ b.strings, (decodeAttr s).isSome

theorem closesAt_ne {σ : Type} {e : El} {s : σ} {q : QName} (h : elementOf q.loc ≠ e) : closesAt e s q = some s := if_neg h

theorem paragraphBorderPosition_element (p : ParagraphBorderPosition) :
    paragraphBorderPosition (elementOf (splitQName p.element).loc) = some p := by
  have h1 : elementOf (splitQName c!"w:left").loc = .left := by simp [-String.reduceToList]
  have h2 : elementOf (splitQName c!"w:right").loc = .right := by simp [-String.reduceToList]
  have h3 : elementOf (splitQName c!"w:top").loc = .top := by simp [-String.reduceToList]
  have h4 : elementOf (splitQName c!"w:bottom").loc = .bottom := by simp [-String.reduceToList]
  have h5 : elementOf (splitQName c!"w:between").loc = .between := by simp [-String.reduceToList]
  have h6 : elementOf (splitQName c!"w:bar").loc = .bar := by simp [-String.reduceToList]
  cases p
  · exact (congrArg paragraphBorderPosition h1).trans rfl
  · exact (congrArg paragraphBorderPosition h2).trans rfl
  · exact (congrArg paragraphBorderPosition h3).trans rfl
  · exact (congrArg paragraphBorderPosition h4).trans rfl
  · exact (congrArg paragraphBorderPosition h5).trans rfl
  · exact (congrArg paragraphBorderPosition h6).trans rfl

theorem takes_pBorder (o : Option ParagraphBorder) (pos : ParagraphBorderPosition) (s : ParagraphBorders)
    (h : ∀ b, o = some b → b.position = pos) (hc : ∀ b, o = some b → (decodeAttr b.color).isSome) :
    TakesF x (fun _ => paragraphBordersLoop x) s (optN o ParagraphBorder.nodes)
      (o.elim s fun b => s.set b.reread) := by
  cases o with
  | none => exact .nil _
  | some b =>
    replace h := h b rfl
    replace hc := hc b rfl
    obtain ⟨p, v, sz, sp, col⟩ := b
    simp only at h hc
    subst h
    have ht : decodeAttr v.toStr = some v.toStr := by cases v <;> decide +kernel
    have hb : ∀ es, readBorder x (expectAttrs [(c!"w:val", v.toStr), (c!"w:space", dec sp), (c!"w:sz", dec sz), (c!"w:color", col)]) es
      = .ok ⟨v, seen col, floatU32 sz, floatU32 sp⟩ es := fun es => by
      rw [expectAttrs_lit _ _ ht, expectAttrs_dec, expectAttrs_dec, expectAttrs_cons hc, expectAttrs_nil]
      simp [-String.reduceToList, String.toList_inj, readBorder, foldAttrs, Read.bind, Read.map, orErr, parseFloat_dec, Props.C31_BorderType, floatU32]
    refine TakesF.leaf' (fun d es hd => ?_) (fun d => ?_)
    · have hp := paragraphBorderPosition_element p
      simp only [paragraphBordersLoop, hp]
      exact congrArg (Read.map _) (hb es)
    · refine closesAt_ne fun hp => ?_
      have := paragraphBorderPosition_element p
      rw [hp] at this
      cases this

theorem takes_pBdr (o : Option ParagraphBorders) (h : ∀ b, o = some b → b.Readable) :
    TakesN x (paragraphPropertyLoop x) (emitN (optN o ParagraphBorders.nodes))
    (fun p => p.upd fun b => { b with borders := (o.map ParagraphBorders.reread).or b.borders }) := by
  refine .opt (fun n e ⟨pb, pc⟩ => ?_) (fun e p => by cases p; simp [e, ParagraphProperty.upd])
  obtain ⟨h1, h2, h3, h4, h5, h6, h7⟩ := h n e
  clear h
  subst e
  obtain ⟨l, r, t, b, bt, ba⟩ := n
  simp only at h1 h2 h3 h4 h5 h6
  refine TakesF.child ?_
  have hc : ∀ o : Option ParagraphBorder, (∀ s ∈ optStrings o ParagraphBorder.strings, (decodeAttr s).isSome) →
      ∀ b, o = some b → (decodeAttr b.color).isSome := by
    rintro o ho b rfl; exact ho _ (by simp [optStrings, ParagraphBorder.strings])
  simp only [ParagraphBorders.strings, List.forall_mem_append] at h7
  have key : TakesF x (fun _ => paragraphBordersLoop x) .withEmpty
      (optN l ParagraphBorder.nodes ++ optN r ParagraphBorder.nodes
    ++ optN t ParagraphBorder.nodes ++ optN b ParagraphBorder.nodes
    ++ optN bt ParagraphBorder.nodes ++ optN ba ParagraphBorder.nodes) _ :=
    ((((((takes_pBorder l _ .withEmpty h1 (hc _ (by grind))).append (takes_pBorder r _ _ h2 (hc _ (by grind)))).append
      (takes_pBorder t _ _ h3 (hc _ (by grind)))).append (takes_pBorder b _ _ h4 (hc _ (by grind)))).append
      (takes_pBorder bt _ _ h5 (hc _ (by grind)))).append (takes_pBorder ba _ _ h6 (hc _ (by grind))))
  refine ((Returns.loop (n := c!"w:pBdr") key (fun d => by
    simp [-String.reduceToList, String.toList_inj, paragraphBordersLoop, closesAt])).caught (g := fun n es => match n with
        | some n => .ok (ParagraphProperty.setBorders ⟨pb, pc⟩ n) es
        | none => .ok ⟨pb, pc⟩ es) (fun es => rfl)).congr (fun d es hd => ?_) |>.mono ?_
  · simp [-String.reduceToList, String.toList_inj, paragraphPropertyLoop]
    rfl
  · simp only [ParagraphProperty.setBorders, ParagraphProperty.upd, Option.map_some, Option.some_or]
    congr 3
    clear key h7 hc
    have s1 : ∀ (o : Option ParagraphBorder) (s : ParagraphBorders), (∀ b, o = some b → b.position = .left) →
        (o.elim s fun b => s.set b.reread) = { s with left := (o.map ParagraphBorder.reread).or s.left } := by
      rintro (_ | b) s h <;> simp [ParagraphBorders.set, ParagraphBorder.reread]
      simp [h b rfl]
    have s2 : ∀ (o : Option ParagraphBorder) (s : ParagraphBorders), (∀ b, o = some b → b.position = .right) →
        (o.elim s fun b => s.set b.reread) = { s with right := (o.map ParagraphBorder.reread).or s.right } := by
      rintro (_ | b) s h <;> simp [ParagraphBorders.set, ParagraphBorder.reread]
      simp [h b rfl]
    have s3 : ∀ (o : Option ParagraphBorder) (s : ParagraphBorders), (∀ b, o = some b → b.position = .top) →
        (o.elim s fun b => s.set b.reread) = { s with top := (o.map ParagraphBorder.reread).or s.top } := by
      rintro (_ | b) s h <;> simp [ParagraphBorders.set, ParagraphBorder.reread]
      simp [h b rfl]
    have s4 : ∀ (o : Option ParagraphBorder) (s : ParagraphBorders), (∀ b, o = some b → b.position = .bottom) →
        (o.elim s fun b => s.set b.reread) = { s with bottom := (o.map ParagraphBorder.reread).or s.bottom } := by
      rintro (_ | b) s h <;> simp [ParagraphBorders.set, ParagraphBorder.reread]
      simp [h b rfl]
    have s5 : ∀ (o : Option ParagraphBorder) (s : ParagraphBorders), (∀ b, o = some b → b.position = .between) →
        (o.elim s fun b => s.set b.reread) = { s with between := (o.map ParagraphBorder.reread).or s.between } := by
      rintro (_ | b) s h <;> simp [ParagraphBorders.set, ParagraphBorder.reread]
      simp [h b rfl]
    have s6 : ∀ (o : Option ParagraphBorder) (s : ParagraphBorders), (∀ b, o = some b → b.position = .bar) →
        (o.elim s fun b => s.set b.reread) = { s with bar := (o.map ParagraphBorder.reread).or s.bar } := by
      rintro (_ | b) s h <;> simp [ParagraphBorders.set, ParagraphBorder.reread]
      simp [h b rfl]
    rw [s1 _ _ h1, s2 _ _ h2, s3 _ _ h3, s4 _ _ h4, s5 _ _ h5, s6 _ _ h6]
    simp [ParagraphBorders.withEmpty, ParagraphBorders.reread]

/-! ## Frames -/

/-- A frame read back: the spaces around it are written under names the reader does not know. -/
def FrameProperty.reread (f : FrameProperty) : FrameProperty where
  h := f.h.map floatU32
  hRule := f.hRule.map seen
  hAnchor := f.hAnchor.map seen
  vAnchor := f.vAnchor.map seen
  w := f.w.map floatU32
  wrap := f.wrap.map seen
  x := f.x.map floatI32
  xAlign := f.xAlign.map seen
  y := f.y.map floatI32
  yAlign := f.yAlign.map seen

/-- One attribute of a frame. -/
def frameEl (x : ReadEnv) (f : FrameProperty) (e : El) (v : Str) : FrameProperty :=
    let num (g : Int → FrameProperty) : FrameProperty :=
      match parseFloat x v with
      | some i => g i
      | none => f
    match e with
    | .wrap => { f with wrap := some v }
    | .heightRule => { f with hRule := some v }
    | .hAnchor => { f with hAnchor := some v }
    | .vAnchor => { f with vAnchor := some v }
    | .hSpace => num fun i => { f with hSpace := some (toI32 i) }
    | .vSpace => num fun i => { f with vSpace := some (toI32 i) }
    | .xAlign => { f with xAlign := some v }
    | .yAlign => { f with yAlign := some v }
    | .w => num fun i => { f with w := some (toU32 i) }
    | .h => num fun i => { f with h := some (toU32 i) }
    | .x => num fun i => { f with x := some (toI32 i) }
    | .y => num fun i => { f with y := some (toI32 i) }
    | _ => f

/-- One attribute of a frame. -/
def frameStep (x : ReadEnv) (f : FrameProperty) (a : QName × Str) : FrameProperty := frameEl x f (elementOf a.1.loc) a.2

theorem frameStep_of {f : FrameProperty} {q : QName} {v : Str} {e : El} (h : elementOf q.loc = e) :
    frameStep x f (q, v) = frameEl x f e v := congrArg (frameEl x f · v) h

theorem el_h_space : elementOf (splitQName c!"w:h_space").loc = .unsupported := by decide +kernel
theorem el_v_space : elementOf (splitQName c!"w:v_space").loc = .unsupported := by decide +kernel

theorem readFrame_nodes (p : FrameProperty) (h : ∀ t ∈ p.strings, (decodeAttr t).isSome) :
    readFrame x (expectAttrs (optAttr c!"w:wrap" p.wrap ++ optAttr c!"w:hRule" p.hRule
    ++ optAttr c!"w:hAnchor" p.hAnchor ++ optAttr c!"w:vAnchor" p.vAnchor
    ++ optAttr c!"w:xAlign" p.xAlign ++ optAttr c!"w:yAlign" p.yAlign
    ++ optAttr c!"w:x" (p.x.map decInt) ++ optAttr c!"w:y" (p.y.map decInt)
    ++ optAttr c!"w:h_space" (p.hSpace.map decInt) ++ optAttr c!"w:v_space" (p.vSpace.map decInt)
    ++ optAttr c!"w:w" (p.w.map dec) ++ optAttr c!"w:h" (p.h.map dec))) = p.reread := by
  obtain ⟨ph, phRule, phAnchor, phSpace, pvAnchor, pvSpace, pw, pwrap, px, pxAlign, py, pyAlign⟩ := p
  have h1 : OptDecodes phRule := optDecodes_mem h (by simp [FrameProperty.strings]; grind)
  have h2 : OptDecodes phAnchor := optDecodes_mem h (by simp [FrameProperty.strings]; grind)
  have h3 : OptDecodes pvAnchor := optDecodes_mem h (by simp [FrameProperty.strings]; grind)
  have h4 : OptDecodes pwrap := optDecodes_mem h (by simp [FrameProperty.strings]; grind)
  have h5 : OptDecodes pxAlign := optDecodes_mem h (by simp [FrameProperty.strings]; grind)
  have h6 : OptDecodes pyAlign := optDecodes_mem h (by simp [FrameProperty.strings]; grind)
  clear h
  have e : ∀ as, readFrame x as = as.foldl (frameStep x) {} := fun _ => rfl
  simp only [e, List.append_assoc]
  rw [foldl_opt h4, foldl_opt h1, foldl_opt h2, foldl_opt h3, foldl_opt h5, foldl_opt h6,
    foldl_optMap decodeAttr_decInt, foldl_optMap decodeAttr_decInt, foldl_optMap decodeAttr_decInt,
    foldl_optMap decodeAttr_decInt, foldl_optMap decodeAttr_dec, ← List.append_nil (optAttr _ (ph.map _)),
    foldl_optMap decodeAttr_dec, expectAttrs_nil, List.foldl_nil]
  have e1 : elementOf (splitQName c!"w:wrap").loc = .wrap := by simp [-String.reduceToList]
  have e2 : elementOf (splitQName c!"w:hRule").loc = .heightRule := by simp [-String.reduceToList]
  have e3 : elementOf (splitQName c!"w:hAnchor").loc = .hAnchor := by simp [-String.reduceToList]
  have e4 : elementOf (splitQName c!"w:vAnchor").loc = .vAnchor := by simp [-String.reduceToList]
  have e5 : elementOf (splitQName c!"w:xAlign").loc = .xAlign := by simp [-String.reduceToList]
  have e6 : elementOf (splitQName c!"w:yAlign").loc = .yAlign := by simp [-String.reduceToList]
  have e7 : elementOf (splitQName c!"w:x").loc = .x := by simp [-String.reduceToList]
  have e8 : elementOf (splitQName c!"w:y").loc = .y := by simp [-String.reduceToList]
  have e9 : elementOf (splitQName c!"w:w").loc = .w := by simp [-String.reduceToList]
  have e10 : elementOf (splitQName c!"w:h").loc = .h := by simp [-String.reduceToList]
  simp only [frameStep_of e1, frameStep_of e2, frameStep_of e3, frameStep_of e4, frameStep_of e5, frameStep_of e6, frameStep_of e7,
    frameStep_of e8, frameStep_of el_h_space, frameStep_of el_v_space, frameStep_of e9, frameStep_of e10, frameEl, parseFloat_decInt, parseFloat_dec]
  cases pwrap <;> cases phRule <;> cases phAnchor <;> cases pvAnchor <;> simp only [Option.elim] <;>
    cases pxAlign <;> cases pyAlign <;> simp only [] <;> cases px <;> cases py <;> cases phSpace <;> cases pvSpace <;> simp only [] <;>
    cases pw <;> cases ph <;> rfl

theorem takes_framePr (o : Option FrameProperty) (h : ∀ f, o = some f → ∀ s ∈ f.strings, (decodeAttr s).isSome) :
    TakesN x (paragraphPropertyLoop x) (emitN (optN o FrameProperty.nodes))
    (fun p => p.upd fun b => { b with frameProperty := (o.map FrameProperty.reread).or b.frameProperty }) := by
  refine .opt (fun f e ⟨pb, pc⟩ => ?_) (fun e p => by cases p; simp [e, ParagraphProperty.upd])
  replace h := h f e
  subst e
  refine TakesF.leaf' (fun d es hd => ?_) (fun d => ?_)
  · simp only [paragraphPropertyLoop, split_w_framePr, el_framePr, readFrame_nodes f h]
    simp [ParagraphProperty.upd]
  · simp [-String.reduceToList, String.toList_inj, paragraphPropertyLoop, closesAt]

end Docx
