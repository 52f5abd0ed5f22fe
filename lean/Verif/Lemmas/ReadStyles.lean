import Verif.Lemmas.ReadNumberings

/-!
# Reading `word/styles.xml`
-/

namespace Docx

open Docx.Xml Docx.Spec

variable {x : ReadEnv}

@[simp] theorem el_qFormat : elementOf c!"qFormat" = .unsupported := by decide +kernel
@[simp] theorem el_uiPriority : elementOf c!"uiPriority" = .unsupported := by decide +kernel
@[simp] theorem el_semiHidden : elementOf c!"semiHidden" = .unsupported := by decide +kernel
@[simp] theorem el_unhideWhenUsed : elementOf c!"unhideWhenUsed" = .unsupported := by decide +kernel

/-! ## Styles -/

/-- What the reader needs of a style to read it whole. -/
def Style.Readable (s : Style) : Prop :=
  (∀ t ∈ [s.styleId, s.name] ++ optS s.link ++ optS s.basedOn, (decodeAttr t).isSome) ∧ s.paragraphProperty.Readable ∧
    s.runProperty.Readable ∧ (s.styleType = .table → s.tableProperty.Readable ∧ s.tableCellProperty.Readable)

/-- A style read back. -/
def Style.reread (s : Style) : Style where
  styleId := again s.styleId
  name := again s.name
  styleType := s.styleType
  runProperty := s.runProperty.reread
  paragraphProperty := s.paragraphProperty.reread
  tableProperty := if s.styleType = .table then s.tableProperty.reread else {}
  tableCellProperty := if s.styleType = .table then s.tableCellProperty.reread else {}
  basedOn := s.basedOn.map again
  link := s.link.map again

/-- An empty element in the loop over a style. -/
macro "sty_leaf" "[" ls:Lean.Parser.Tactic.simpLemma,* "]" : tactic => `(tactic|
  (refine TakesF.leaf' (fun d es hd => ?_) (fun d => ?_)
   · simp [-String.reduceToList, String.toList_inj, styleLoop, Read.bind, Read.map, expectAttrs_nil, firstValue, attrFirst,
       attrNamed_cons, attrNamed_nil, orErr, expectAttrs_dec, $ls,*]
   · simp [-String.reduceToList, String.toList_inj, styleLoop, closesAt]))

theorem styleType_lit (t : StyleType) : decodeAttr t.toStr = some t.toStr := by cases t <;> decide +kernel

set_option maxHeartbeats 1000000 in
theorem style_k1 (s : Style) (h2 : (decodeAttr s.name).isSome) :
    TakesN x (styleLoop x) (emitN (valN c!"w:name" s.name)) (fun t => { t with name := again s.name }) :=
  .emit fun s => by sty_leaf [expectAttrs_cons h2, Style.setName, again]

set_option maxHeartbeats 1000000 in
theorem style_k2 (s : Style) (hr : s.runProperty.Readable) :
    TakesN x (styleLoop x) s.runProperty.nodes (fun t => { t with runProperty := s.runProperty.reread }) := by
  intro g f g' e t
  obtain ⟨body, rfl, hq⟩ := returns_runProperty (x := x) _ hr e
  refine TakesF.child ((hq.map fun p => ({ t with runProperty := p } : Style)).congr fun d es hd => ?_)
  simp [-String.reduceToList, styleLoop]

set_option maxHeartbeats 1000000 in
theorem style_k3 (s : Style) (hp : s.paragraphProperty.Readable) :
    TakesN x (styleLoop x) s.paragraphProperty.nodes (fun t => { t with paragraphProperty := s.paragraphProperty.reread }) := by
  intro g f g' e t
  obtain ⟨body, rfl, hq⟩ := returns_paragraphProperty (x := x) _ hp e
  refine TakesF.child ?_
  refine (hq.caught (g := fun p es => match p with
    | some p => .ok { t with paragraphProperty := p } es
    | none => .ok t es) (fun es => rfl)).congr (fun d es hd => ?_)
  simp [-String.reduceToList, styleLoop]; rfl

set_option maxHeartbeats 1000000 in
theorem style_k4 (s : Style) (ht : s.styleType = .table → s.tableProperty.Readable ∧ s.tableCellProperty.Readable) :
    TakesN x (styleLoop x) (ifN (decide (s.styleType = .table)) (emitN (s.tableCellProperty.nodes ++ s.tableProperty.nodes)))
    (fun t => { t with tableCellProperty := if s.styleType = .table then s.tableCellProperty.reread else t.tableCellProperty,
                       tableProperty := if s.styleType = .table then s.tableProperty.reread else t.tableProperty }) := by
  by_cases hc : s.styleType = .table
  · simp only [hc, decide_true, ifN, if_true]
    refine .emit fun t => ?_
    obtain ⟨b1, e1, q1⟩ := returns_cellProperty (x := x) _ (ht hc).2
    obtain ⟨b2, e2, q2⟩ := returns_tableProperty (x := x) _ (ht hc).1
    rw [e1, e2]
    refine TakesF.append (s' := { t with tableCellProperty := s.tableCellProperty.reread }) ?_ ?_
    · refine TakesF.child ((q1.caught (g := fun p es => match p with
        | some p => .ok { t with tableCellProperty := p } es
        | none => .ok t es) (fun es => rfl)).congr (fun d es hd => ?_))
      simp [-String.reduceToList, styleLoop]; rfl
    · show TakesF x (styleLoop x) { t with tableCellProperty := s.tableCellProperty.reread } _
        { ({ t with tableCellProperty := s.tableCellProperty.reread } : Style) with tableProperty := s.tableProperty.reread }
      generalize ({ t with tableCellProperty := s.tableCellProperty.reread } : Style) = u
      refine TakesF.child ((q2.caught (g := fun p es => match p with
        | some p => .ok { u with tableProperty := p } es
        | none => .ok u es) (fun es => rfl)).congr (fun d es hd => ?_))
      simp [-String.reduceToList, styleLoop]; rfl
  · simp only [hc, decide_false, ifN, if_false]
    exact .nil

set_option maxHeartbeats 1000000 in
theorem style_k5 (s : Style)  :
    TakesN x (styleLoop x) (emitN (optN s.next (valN c!"w:next"))) id := by
  refine .opt (fun v e s => ?_) (fun e s => rfl)
  sty_leaf []

set_option maxHeartbeats 1000000 in
theorem style_k6 (s : Style) (h3 : OptDecodes s.link) :
    TakesN x (styleLoop x) (emitN (optN s.link (valN c!"w:link"))) (fun t => { t with link := (s.link.map again).or t.link }) := by
  refine .opt (fun v e s => ?_) (fun e s => by simp [e])
  replace h3 := h3 v e
  rw [e]
  sty_leaf [expectAttrs_cons h3, again]

set_option maxHeartbeats 1000000 in
theorem style_k7 (s : Style)  :
    TakesN x (styleLoop x) (emitN (if s.qFormat then leafN c!"w:qFormat" else [])) id := by
  refine .emit fun t => ?_
  cases s.qFormat
  · exact .nil t
  · sty_leaf []

set_option maxHeartbeats 1000000 in
theorem style_k8 (s : Style)  :
    TakesN x (styleLoop x) (emitN (optN s.uiPriority (fun n => valN c!"w:uiPriority" (dec n)))) id := by
  refine .opt (fun v e s => ?_) (fun e s => rfl)
  sty_leaf []

set_option maxHeartbeats 1000000 in
theorem style_k9 (s : Style)  :
    TakesN x (styleLoop x) (emitN (if s.semiHidden then leafN c!"w:semiHidden" else [])) id := by
  refine .emit fun t => ?_
  cases s.semiHidden
  · exact .nil t
  · sty_leaf []

set_option maxHeartbeats 1000000 in
theorem style_k10 (s : Style)  :
    TakesN x (styleLoop x) (emitN (if s.unhideWhenUsed then leafN c!"w:unhideWhenUsed" else [])) id := by
  refine .emit fun t => ?_
  cases s.unhideWhenUsed
  · exact .nil t
  · sty_leaf []

set_option maxHeartbeats 1000000 in
theorem style_k11 (s : Style) (h4 : OptDecodes s.basedOn) :
    TakesN x (styleLoop x) (emitN (optN s.basedOn (valN c!"w:basedOn")))
    (fun t => { t with basedOn := (s.basedOn.map again).or t.basedOn }) := by
  refine .opt (fun v e s => ?_) (fun e s => by simp [e])
  replace h4 := h4 v e
  rw [e]
  sty_leaf [expectAttrs_cons h4, again]

theorem takes_styleBody (s : Style) (h : s.Readable) {g g' : Gen} {body : List Node} (hb : catN
      [ emitN (valN c!"w:name" s.name),
        s.runProperty.nodes,
        s.paragraphProperty.nodes,
        ifN (decide (s.styleType = .table)) (emitN (s.tableCellProperty.nodes ++ s.tableProperty.nodes)),
        emitN (optN s.next (valN c!"w:next")),
        emitN (optN s.link (valN c!"w:link")),
        emitN (if s.qFormat then leafN c!"w:qFormat" else []),
        emitN (optN s.uiPriority (fun n => valN c!"w:uiPriority" (dec n))),
        emitN (if s.semiHidden then leafN c!"w:semiHidden" else []),
        emitN (if s.unhideWhenUsed then leafN c!"w:unhideWhenUsed" else []),
        emitN (optN s.basedOn (valN c!"w:basedOn")) ] g = some (body, g')) :
    TakesF x (styleLoop x) (Style.new (seen s.styleId) s.styleType) body s.reread := by
  obtain ⟨hs, hp, hr, ht⟩ := h
  have h2 : (decodeAttr s.name).isSome := hs _ (by simp)
  have h3 : OptDecodes s.link := fun v e => hs v (by rw [e]; simp [optS])
  have h4 : OptDecodes s.basedOn := fun v e => hs v (by rw [e]; simp [optS])
  have key := (style_k1 (x := x) s h2).cat_cons <| (style_k2 s hr).cat_cons <| (style_k3 s hp).cat_cons <| (style_k4 s ht).cat_cons <|
    (style_k5 s).cat_cons <| (style_k6 s h3).cat_cons <| (style_k7 s).cat_cons <| (style_k8 s).cat_cons <| (style_k9 s).cat_cons <|
    (style_k10 s).cat_cons <| (style_k11 s h4).cat_cons .cat_nil
  have hk := key _ _ _ hb (Style.new (seen s.styleId) s.styleType)
  simp only [Function.comp_apply, id_eq, Option.or_none, Style.new] at hk
  exact hk

theorem takes_oneStyle (s : Style) (h : s.Readable) :
    TakesN x (stylesLoop x) s.nodes (fun p => { p with styles := p.styles ++ [s.reread] }) := by
  intro g f g' e p
  obtain ⟨body, hb, rfl⟩ := elemN_eq e
  have h1 : (decodeAttr s.styleId).isSome := h.1 _ (by simp)
  have := (Returns.loop (n := c!"w:style") (takes_styleBody (x := x) s h hb)
    (fun d => by simp [-String.reduceToList, styleLoop, closesAt])).caught
    (g := fun t es => match t with
      | some t => .ok ({ p with styles := p.styles ++ [t] } : Styles) es
      | none => .ok p es) (fun es => rfl)
  refine TakesF.child (this.congr fun d es hd => ?_)
  simp [-String.reduceToList, String.toList_inj, stylesLoop, readStyle, readStyleAttrs, Read.bind, Read.map, foldAttrs, orErr,
    expectAttrs_nil, expectAttrs_cons h1, expectAttrs_lit _ _ (styleType_lit s.styleType), Props.C31_StyleType]
  rfl

/-! ## The defaults -/

/-- What the reader needs of the defaults to read them whole. -/
def DocDefaults.Readable (d : DocDefaults) : Prop := d.runProperty.Readable ∧ d.paragraphProperty.Readable

/-- The defaults read back. -/
def DocDefaults.reread (d : DocDefaults) : DocDefaults := ⟨d.runProperty.reread, d.paragraphProperty.reread⟩

theorem takes_docDefaults (d : DocDefaults) (h : d.Readable) :
    TakesN x (stylesLoop x) d.nodes (fun p => { p with docDefaults := d.reread }) := by
  intro g f g' e p
  obtain ⟨body, hb, rfl⟩ := elemN_eq e
  have k1 : TakesN x (docDefaultsLoop x) (elemN c!"w:rPrDefault" [] d.runProperty.nodes) (fun t => { t with runProperty := d.runProperty.reread }) := by
    intro g f g' e t
    obtain ⟨body, hb, rfl⟩ := elemN_eq e
    obtain ⟨body, rfl, hq⟩ := returns_runProperty (x := x) _ h.1 hb
    refine TakesF.wrap (s₁ := t) (fun d es => ?_)
      (TakesF.child ((hq.map fun p => ({ t with runProperty := p } : DocDefaults)).congr fun d es hd => ?_)) (fun d => ?_)
    all_goals simp [-String.reduceToList, docDefaultsLoop, closesAt]
  have k2 : TakesN x (docDefaultsLoop x) (elemN c!"w:pPrDefault" [] d.paragraphProperty.nodes)
      (fun t => { t with paragraphProperty := d.paragraphProperty.reread }) := by
    intro g f g' e t
    obtain ⟨body, hb, rfl⟩ := elemN_eq e
    obtain ⟨body, rfl, hq⟩ := returns_paragraphProperty (x := x) _ h.2 hb
    refine TakesF.wrap (s₁ := t) (fun d es => ?_)
      (TakesF.child ((hq.map fun p => ({ t with paragraphProperty := p } : DocDefaults)).congr fun d es hd => ?_)) (fun d => ?_)
    all_goals simp [-String.reduceToList, docDefaultsLoop, closesAt]
  have hk := (k1.cat_cons <| k2.cat_cons .cat_nil) _ _ _ hb {}
  have := (Returns.loop (n := c!"w:docDefaults") hk (fun d => by simp [-String.reduceToList, docDefaultsLoop, closesAt])).caught
    (g := fun d es => match d with
      | some d => .ok ({ p with docDefaults := d } : Styles) es
      | none => .ok p es) (fun es => rfl)
  refine TakesF.child ((this.mono ?_).congr fun d es hd => ?_)
  · simp [DocDefaults.reread]
  · simp [-String.reduceToList, stylesLoop]
    rfl

/-! ## The part -/

/-- What the reader needs of the style part to read it whole. -/
def Styles.Readable (s : Styles) : Prop := s.docDefaults.Readable ∧ ∀ t ∈ s.styles, t.Readable

/-- The style part read back: the style that is always written comes first. -/
def Styles.reread (s : Styles) : Styles := ⟨s.docDefaults.reread, normalStyle.reread :: s.styles.map Style.reread⟩

theorem foldl_styles (l : List Style) (a : Styles) :
    l.foldl (fun a b => { a with styles := a.styles ++ [b.reread] }) a = { a with styles := a.styles ++ l.map Style.reread } := by
  induction l generalizing a with
  | nil => simp
  | cons b l ih => simp [ih]

theorem normalStyle_readable : normalStyle.Readable := by
  refine ⟨fun t ht => ?_, ?_, ?_, ?_⟩
  · have : t = escapeOwned c!"Normal" := by simpa [-String.reduceToList, normalStyle, Style.new, Style.setName, optS] using ht
    rw [this]; decide +kernel
  · have := Props.base_default_kept.readable
    simp only [normalStyle, Style.new, Style.setName, ParagraphProperty.Readable, changeReadable, and_true]
    exact this
  · exact Props.base_default_kept.runProperty.readable
  · intro h; cases h

/-- The style part, written, reads as `s.reread`. -/
theorem reads_styles (s : Styles) (hs : AllS s.strings) (h : s.Readable) {g g' : Gen} {out : Str}
    (e : buildElement s.build g = some (.ok out, g')) :
    ∃ k, ∀ d, k ≤ d → readStyles x d out = .ok s.reread [.endDocument] := by
  rw [← Styles_build_flat] at e
  obtain ⟨f, hf, _, hr⟩ := buildElement_reads (s.ok hs) e
  obtain ⟨body, hb, rfl⟩ := elemN_eq hf
  have k1 : TakesN x (stylesLoop x) (eachN Style.nodes s.styles)
      (fun p => s.styles.foldl (fun p a => { p with styles := p.styles ++ [a.reread] }) p) :=
    .each (add := fun (p : Styles) a => { p with styles := p.styles ++ [Style.reread a] }) fun a ha => takes_oneStyle a (h.2 a ha)
  have hk := ((takes_docDefaults (x := x) _ h.1).cat_cons <| (takes_oneStyle (x := x) _ normalStyle_readable).cat_cons <|
    k1.cat_cons .cat_nil) _ _ _ hb {}
  simp only [Function.comp_apply, id_eq, foldl_styles, List.nil_append, List.cons_append] at hk
  obtain ⟨k, hk⟩ := runs_root (L := stylesLoop x) (n := c!"w:styles") (as := stylesAttrs) (s := {}) (s' := s.reread)
    (fun d es => by simp [-String.reduceToList, stylesLoop]) hk
    (fun d => by simp [-String.reduceToList, stylesLoop, closesAt])
  exact ⟨k, fun d hd => by rw [readStyles, hr]; exact hk d hd d hd⟩

end Docx
