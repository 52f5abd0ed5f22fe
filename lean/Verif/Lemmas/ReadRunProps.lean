import Verif.Lemmas.ReadTree
import Verif.Lemmas.ReadNumbers
import Verif.Lemmas.SplitNames
import Verif.Props.C31_Enums
import Verif.Lemmas.BuildOk

/-!
# Run formatting written and read
-/

namespace Docx

open Docx.Xml Docx.Spec

variable {x : ReadEnv}

/-- A `usize` read through a float. -/
def floatSize (n : Nat) : Nat := toUsize (roundInt 53 n)

/-- A `u32` read through a float. -/
def floatU32 (n : Nat) : Nat := toU32 (roundInt 53 n)

/-- An `i32` read through a float. -/
def floatI32 (i : Int) : Int := toI32 (roundInt 53 i)

theorem seen_dec (n : Nat) : seen (dec n) = dec n := by simp [seen, decodeAttr_dec]
theorem seen_decInt (i : Int) : seen (decInt i) = decInt i := by simp [seen, decodeAttr_decInt]

theorem expectAttrs_dec (k : Str) (n : Nat) (as : List (Str × Str)) :
    expectAttrs ((k, dec n) :: as) = (splitQName k, dec n) :: expectAttrs as := by
  rw [expectAttrs_cons (by simp [decodeAttr_dec]), seen_dec]

theorem expectAttrs_decInt (k : Str) (i : Int) (as : List (Str × Str)) :
    expectAttrs ((k, decInt i) :: as) = (splitQName k, decInt i) :: expectAttrs as := by
  rw [expectAttrs_cons (by simp [decodeAttr_decInt]), seen_decInt]

theorem expectAttrs_lit (k v : Str) (h : decodeAttr v = some v) (as : List (Str × Str)) :
    expectAttrs ((k, v) :: as) = (splitQName k, v) :: expectAttrs as := by
  rw [expectAttrs_cons (by simp [h])]; simp [seen, h]

theorem attrNamed_nil (name : Str) : attrNamed [] name = none := rfl

theorem attrNamed_cons (q : QName) (v : Str) (as : Attrs) (name : Str) :
    attrNamed ((q, v) :: as) name = if q.loc = name then some v else attrNamed as name := by
  unfold attrNamed
  by_cases h : q.loc = name <;> simp [h]

/-- Every string is an attribute value. -/
abbrev OptDecodes (o : Option Str) : Prop := ∀ s, o = some s → (decodeAttr s).isSome

theorem attrNamed_opt {k : Str} {o : Option Str} (h : OptDecodes o) (as : List (Str × Str)) (name : Str) :
    attrNamed (expectAttrs (optAttr k o ++ as)) name =
      if (splitQName k).loc = name then (o.map seen).or (attrNamed (expectAttrs as) name)
      else attrNamed (expectAttrs as) name := by
  cases o with
  | none => simp [optAttr]
  | some v => simp only [optAttr, List.cons_append, List.nil_append, expectAttrs_cons (h v rfl), attrNamed_cons]; simp

theorem attrNamed_optLast {k : Str} {o : Option Str} (h : OptDecodes o) (name : Str) :
    attrNamed (expectAttrs (optAttr k o)) name = if (splitQName k).loc = name then o.map seen else none := by
  have := attrNamed_opt (k := k) h [] name
  simpa [expectAttrs_nil, attrNamed_nil] using this

theorem foldl_opt {σ : Type} {f : σ → QName × Str → σ} {k : Str} {o : Option Str} (h : OptDecodes o) (as : List (Str × Str))
    (s : σ) : (expectAttrs (optAttr k o ++ as)).foldl f s =
      (expectAttrs as).foldl f (o.elim s fun v => f s (splitQName k, seen v)) := by
  cases o with
  | none => simp [optAttr]
  | some v => simp only [optAttr, List.cons_append, List.nil_append, expectAttrs_cons (h v rfl)]; rfl

theorem optDecodes_mem {o : Option Str} {l : List Str} (h : ∀ s ∈ l, (decodeAttr s).isSome) (hm : ∀ s ∈ optS o, s ∈ l) :
    OptDecodes o := fun s e => h s (hm s (by simp [e, optS]))

theorem decodes_false : decodeAttr c!"false" = some c!"false" := by decide +kernel
theorem decodes_true : decodeAttr c!"true" = some c!"true" := by decide +kernel

theorem readBool_empty : readBool [] = true := rfl
theorem readBool_false (q : QName) : readBool [(q, c!"false")] = false := by
  have h : isFalse c!"false" = true := by decide +kernel
  unfold readBool
  simp only [attrNamed_cons, attrNamed_nil, attrFirst, List.head?_cons, Option.map_some]
  by_cases e : q.loc = c!"val" <;> simp [-String.reduceToList, String.toList_inj, e, h]
theorem readBool_true (q : QName) : readBool [(q, c!"true")] = true := by
  have h : isFalse c!"true" = false := by decide +kernel
  unfold readBool
  simp only [attrNamed_cons, attrNamed_nil, attrFirst, List.head?_cons, Option.map_some]
  by_cases e : q.loc = c!"val" <;> simp [-String.reduceToList, String.toList_inj, e, h]

/-- An empty element in the run property loop. -/
macro "rp_leaf" "[" ls:Lean.Parser.Tactic.simpLemma,* "]" : tactic => `(tactic|
  (refine TakesF.leaf' (fun d es hd => ?_) (fun d => ?_)
   · simp [-String.reduceToList, String.toList_inj, runPropertyLoop, ignoreElement, Read.bind, Read.map, expectAttrs_nil, firstValue, attrFirst,
       attrNamed_cons, attrNamed_nil, orErr, $ls,*]
   · simp [-String.reduceToList, String.toList_inj, runPropertyLoop, closesAt]))

theorem takes_sz (o : Option Nat) : TakesN x (runPropertyLoop x) (emitN (optN o fun v => valN c!"w:sz" (dec v)))
    (fun rp => { rp with sz := (o.map floatSize).or rp.sz, szCs := (o.map floatSize).or rp.szCs }) := by
  refine .opt (fun v e rp => ?_) (fun e rp => by simp [e])
  subst e
  rp_leaf [expectAttrs_dec, parseFloat_dec, RunProperty.setSize, floatSize]

theorem takes_szCs (o : Option Nat) : TakesN x (runPropertyLoop x) (emitN (optN o fun v => valN c!"w:szCs" (dec v))) id := by
  refine .opt (fun v e rp => ?_) (fun e rp => by simp)
  subst e
  rp_leaf [expectAttrs_dec]

/-- A colour read back. -/
def Color.reread (c : Color) : Color where
  val := seen c.val
  themeColor := ((c.themeColor.map seen).bind ThemeColor.fromStr).map ThemeColor.toStr
  themeShade := c.themeShade.map seen
  themeTint := c.themeTint.map seen

theorem takes_color (o : Option Color) (h : ∀ c, o = some c → ∀ s ∈ c.strings, (decodeAttr s).isSome) :
    TakesN x (runPropertyLoop x) (emitN (optN o Color.nodes))
    (fun rp => { rp with color := (o.map Color.reread).or rp.color }) := by
  refine .opt (fun c e rp => ?_) (fun e rp => by simp [e])
  replace h := h c e
  subst e
  obtain ⟨v, tc, ts, tt⟩ := c
  have hv : (decodeAttr v).isSome := h _ (by simp [Color.strings])
  have h1 : OptDecodes tc := optDecodes_mem h (by simp [Color.strings]; grind)
  have h2 : OptDecodes ts := optDecodes_mem h (by simp [Color.strings]; grind)
  have h3 : OptDecodes tt := optDecodes_mem h (by simp [Color.strings]; grind)
  refine TakesF.leaf' (fun d es hd => ?_) (fun d => ?_)
  · simp only [List.cons_append, List.nil_append, List.append_assoc]
    have e0 : (runPropertyLoop x (readers x d)).start rp (splitQName c!"w:color")
        (expectAttrs ((c!"w:val", v) :: (optAttr c!"w:themeColor" tc ++ (optAttr c!"w:themeShade" ts ++ optAttr c!"w:themeTint" tt)))) es
        = .ok (readColor rp (expectAttrs ((c!"w:val", v) :: (optAttr c!"w:themeColor" tc ++ (optAttr c!"w:themeShade" ts ++ optAttr c!"w:themeTint" tt))))) es := by
      simp [-String.reduceToList, String.toList_inj, runPropertyLoop, ignoreElement, Read.bind]
    rw [e0]
    generalize has : expectAttrs _ = as
    have a1 : attrNamed as c!"val" = some (seen v) := by
      simp [-String.reduceToList, String.toList_inj, ← has, expectAttrs_cons hv, attrNamed_cons]
    have a2 : attrNamed as c!"themeColor" = tc.map seen := by
      simp [-String.reduceToList, String.toList_inj, ← has, expectAttrs_cons hv, attrNamed_cons, attrNamed_opt h1, attrNamed_opt h2, attrNamed_optLast h3]
    have a3 : attrNamed as c!"themeShade" = ts.map seen := by
      simp [-String.reduceToList, String.toList_inj, ← has, expectAttrs_cons hv, attrNamed_cons, attrNamed_opt h1, attrNamed_opt h2, attrNamed_optLast h3]
    have a4 : attrNamed as c!"themeTint" = tt.map seen := by
      simp [-String.reduceToList, String.toList_inj, ← has, expectAttrs_cons hv, attrNamed_cons, attrNamed_opt h1, attrNamed_opt h2, attrNamed_optLast h3]
    simp only [readColor, a1, a2, a3, a4, Option.map_some, Option.some_or, Color.reread]
    cases (tc.map seen).bind ThemeColor.fromStr <;> cases ts <;> cases tt <;> rfl
  · simp [-String.reduceToList, String.toList_inj, runPropertyLoop, closesAt]

theorem takes_bold (o : Option Bool) : TakesN x (runPropertyLoop x) (emitN (optN o (toggleNodes c!"w:b")))
    (fun rp => { rp with bold := o.or rp.bold, boldCs := o.or rp.boldCs }) := by
  refine .opt (fun v e rp => ?_) (fun e rp => by simp [e])
  subst e
  cases v
  · rp_leaf [expectAttrs_lit _ _ decodes_false, readBool_false, RunProperty.disableBold]
  · rp_leaf [readBool_empty, RunProperty.setBold]

theorem takes_boldCs (o : Option Bool) : TakesN x (runPropertyLoop x) (emitN (optN o (toggleCsNodes c!"w:bCs"))) id := by
  refine .opt (fun v e rp => ?_) (fun e rp => by simp)
  rp_leaf [readBool_empty]

theorem takes_caps (o : Option Bool) : TakesN x (runPropertyLoop x) (emitN (optN o fun v => valN c!"w:caps" (boolText v)))
    (fun rp => { rp with caps := o.or rp.caps }) := by
  refine .opt (fun v e rp => ?_) (fun e rp => by simp [e])
  subst e
  cases v
  · rp_leaf [boolText, expectAttrs_lit _ _ decodes_false, readBool_false]
  · rp_leaf [boolText, expectAttrs_lit _ _ decodes_true, readBool_true, RunProperty.setCaps]

theorem takes_italic (o : Option Bool) : TakesN x (runPropertyLoop x) (emitN (optN o (toggleNodes c!"w:i")))
    (fun rp => { rp with italic := o.or rp.italic, italicCs := o.or rp.italicCs }) := by
  refine .opt (fun v e rp => ?_) (fun e rp => by simp [e])
  subst e
  cases v
  · rp_leaf [expectAttrs_lit _ _ decodes_false, readBool_false, RunProperty.disableItalic]
  · rp_leaf [readBool_empty, RunProperty.setItalic]

theorem takes_italicCs (o : Option Bool) : TakesN x (runPropertyLoop x) (emitN (optN o (toggleCsNodes c!"w:iCs"))) id := by
  refine .opt (fun v e rp => ?_) (fun e rp => by simp)
  rp_leaf [readBool_empty]

/-- Strike and double strike put each other out. -/
def putOut (o other : Option Bool) : Option Bool := if o = some true then none else other

theorem takes_strike (o : Option Bool) : TakesN x (runPropertyLoop x) (emitN (optN o (toggleNodes c!"w:strike")))
    (fun rp => { rp with strike := o.or rp.strike, dstrike := putOut o rp.dstrike }) := by
  refine .opt (fun v e rp => ?_) (fun e rp => by simp [e, putOut])
  subst e
  cases v
  · rp_leaf [expectAttrs_lit _ _ decodes_false, readBool_false, putOut]
  · rp_leaf [readBool_empty, RunProperty.setStrike, putOut]

theorem takes_dstrike (o : Option Bool) : TakesN x (runPropertyLoop x) (emitN (optN o (toggleNodes c!"w:dstrike")))
    (fun rp => { rp with dstrike := o.or rp.dstrike, strike := putOut o rp.strike }) := by
  refine .opt (fun v e rp => ?_) (fun e rp => by simp [e, putOut])
  subst e
  cases v
  · rp_leaf [expectAttrs_lit _ _ decodes_false, readBool_false, putOut]
  · rp_leaf [readBool_empty, RunProperty.setDstrike, putOut]

theorem takes_highlight (o : Option Str) (h : OptDecodes o) : TakesN x (runPropertyLoop x) (emitN (optN o (valN c!"w:highlight")))
    (fun rp => { rp with highlight := (o.map seen).or rp.highlight }) := by
  refine .opt (fun v e rp => ?_) (fun e rp => by simp [e])
  replace h := h v e
  subst e
  rp_leaf [expectAttrs_cons h, RunProperty.setHighlight]

theorem takes_underline (o : Option Str) (h : OptDecodes o) : TakesN x (runPropertyLoop x) (emitN (optN o (valN c!"w:u")))
    (fun rp => { rp with underline := (o.map seen).or rp.underline }) := by
  refine .opt (fun v e rp => ?_) (fun e rp => by simp [e])
  replace h := h v e
  subst e
  rp_leaf [expectAttrs_cons h, RunProperty.setUnderline]

theorem takes_vanish (o : Option Unit) : TakesN x (runPropertyLoop x) (emitN (optN o fun _ => leafN c!"w:vanish"))
    (fun rp => { rp with vanish := o.or rp.vanish }) := by
  refine .opt (fun v e rp => ?_) (fun e rp => by simp [e])
  subst e
  rp_leaf [RunProperty.setVanish]

theorem takes_specVanish (o : Option Unit) : TakesN x (runPropertyLoop x) (emitN (optN o fun _ => leafN c!"w:specVanish"))
    (fun rp => { rp with specVanish := o.or rp.specVanish }) := by
  refine .opt (fun v e rp => ?_) (fun e rp => by simp [e])
  subst e
  rp_leaf [RunProperty.setSpecVanish]

/-- A text written, seen by the reader and escaped again. -/
def again (s : Str) : Str := escapeOwned (seen s)

/-- Fonts read back. -/
def RunFonts.reread (f : RunFonts) : RunFonts where
  ascii := f.ascii.map again
  hiAnsi := f.hiAnsi.map again
  eastAsia := f.eastAsia.map again
  cs := f.cs.map again
  asciiTheme := f.asciiTheme.map again
  hiAnsiTheme := f.hiAnsiTheme.map again
  eastAsiaTheme := f.eastAsiaTheme.map again
  csTheme := f.csTheme.map again
  hint := f.hint.map again

/-- One attribute of the fonts. -/
def fontStep (f : RunFonts) (a : QName × Str) : RunFonts :=
    if a.1.loc = c!"asciiTheme" then f.setAsciiTheme a.2
    else if a.1.loc = c!"eastAsiaTheme" then f.setEastAsiaTheme a.2
    else if a.1.loc = c!"hAnsiTheme" then f.setHiAnsiTheme a.2
    else if a.1.loc = c!"cstheme" then f.setCsTheme a.2
    else if a.1.loc = c!"ascii" then f.setAscii a.2
    else if a.1.loc = c!"eastAsia" then f.setEastAsia a.2
    else if a.1.loc = c!"hAnsi" then f.setHiAnsi a.2
    else if a.1.loc = c!"cs" then f.setCs a.2
    else if a.1.loc = c!"hint" then f.setHint a.2
    else f

theorem readFonts_eq (as : Attrs) : readFonts as = as.foldl fontStep {} := rfl

theorem fontStep_ascii (o : Option Str) (f : RunFonts) :
    (o.elim f fun v => fontStep f (splitQName c!"w:ascii", seen v)) = { f with ascii := (o.map again).or f.ascii } := by
  cases o <;> simp [-String.reduceToList, String.toList_inj, fontStep, RunFonts.setAscii, again]

theorem fontStep_hAnsi (o : Option Str) (f : RunFonts) :
    (o.elim f fun v => fontStep f (splitQName c!"w:hAnsi", seen v)) = { f with hiAnsi := (o.map again).or f.hiAnsi } := by
  cases o <;> simp [-String.reduceToList, String.toList_inj, fontStep, RunFonts.setHiAnsi, again]

theorem fontStep_cs (o : Option Str) (f : RunFonts) :
    (o.elim f fun v => fontStep f (splitQName c!"w:cs", seen v)) = { f with cs := (o.map again).or f.cs } := by
  cases o <;> simp [-String.reduceToList, String.toList_inj, fontStep, RunFonts.setCs, again]

theorem fontStep_eastAsia (o : Option Str) (f : RunFonts) :
    (o.elim f fun v => fontStep f (splitQName c!"w:eastAsia", seen v)) = { f with eastAsia := (o.map again).or f.eastAsia } := by
  cases o <;> simp [-String.reduceToList, String.toList_inj, fontStep, RunFonts.setEastAsia, again]

theorem fontStep_asciiTheme (o : Option Str) (f : RunFonts) :
    (o.elim f fun v => fontStep f (splitQName c!"w:asciiTheme", seen v)) = { f with asciiTheme := (o.map again).or f.asciiTheme } := by
  cases o <;> simp [-String.reduceToList, String.toList_inj, fontStep, RunFonts.setAsciiTheme, again]

theorem fontStep_hAnsiTheme (o : Option Str) (f : RunFonts) :
    (o.elim f fun v => fontStep f (splitQName c!"w:hAnsiTheme", seen v)) = { f with hiAnsiTheme := (o.map again).or f.hiAnsiTheme } := by
  cases o <;> simp [-String.reduceToList, String.toList_inj, fontStep, RunFonts.setHiAnsiTheme, again]

theorem fontStep_cstheme (o : Option Str) (f : RunFonts) :
    (o.elim f fun v => fontStep f (splitQName c!"w:cstheme", seen v)) = { f with csTheme := (o.map again).or f.csTheme } := by
  cases o <;> simp [-String.reduceToList, String.toList_inj, fontStep, RunFonts.setCsTheme, again]

theorem fontStep_eastAsiaTheme (o : Option Str) (f : RunFonts) :
    (o.elim f fun v => fontStep f (splitQName c!"w:eastAsiaTheme", seen v)) = { f with eastAsiaTheme := (o.map again).or f.eastAsiaTheme } := by
  cases o <;> simp [-String.reduceToList, String.toList_inj, fontStep, RunFonts.setEastAsiaTheme, again]

theorem fontStep_hint (o : Option Str) (f : RunFonts) :
    (o.elim f fun v => fontStep f (splitQName c!"w:hint", seen v)) = { f with hint := (o.map again).or f.hint } := by
  cases o <;> simp [-String.reduceToList, String.toList_inj, fontStep, RunFonts.setHint, again]

theorem readFonts_nodes (f : RunFonts) (h : ∀ s ∈ f.strings, (decodeAttr s).isSome) :
    readFonts (expectAttrs (optAttr c!"w:ascii" f.ascii ++ optAttr c!"w:hAnsi" f.hiAnsi
    ++ optAttr c!"w:cs" f.cs ++ optAttr c!"w:eastAsia" f.eastAsia
    ++ optAttr c!"w:asciiTheme" f.asciiTheme ++ optAttr c!"w:hAnsiTheme" f.hiAnsiTheme
    ++ optAttr c!"w:cstheme" f.csTheme ++ optAttr c!"w:eastAsiaTheme" f.eastAsiaTheme
    ++ optAttr c!"w:hint" f.hint)) = f.reread := by
  obtain ⟨f1, f2, f3, f4, f5, f6, f7, f8, f9⟩ := f
  have h1 : OptDecodes f1 := optDecodes_mem h (by simp [RunFonts.strings]; grind)
  have h2 : OptDecodes f2 := optDecodes_mem h (by simp [RunFonts.strings]; grind)
  have h3 : OptDecodes f3 := optDecodes_mem h (by simp [RunFonts.strings]; grind)
  have h4 : OptDecodes f4 := optDecodes_mem h (by simp [RunFonts.strings]; grind)
  have h5 : OptDecodes f5 := optDecodes_mem h (by simp [RunFonts.strings]; grind)
  have h6 : OptDecodes f6 := optDecodes_mem h (by simp [RunFonts.strings]; grind)
  have h7 : OptDecodes f7 := optDecodes_mem h (by simp [RunFonts.strings]; grind)
  have h8 : OptDecodes f8 := optDecodes_mem h (by simp [RunFonts.strings]; grind)
  have h9 : OptDecodes f9 := optDecodes_mem h (by simp [RunFonts.strings]; grind)
  simp only [List.append_assoc, readFonts_eq]
  rw [foldl_opt h1, foldl_opt h2, foldl_opt h4, foldl_opt h3, foldl_opt h5, foldl_opt h6, foldl_opt h8, foldl_opt h7,
    ← List.append_nil (optAttr _ f9), foldl_opt h9, expectAttrs_nil, List.foldl_nil, fontStep_ascii, fontStep_hAnsi,
    fontStep_cs, fontStep_eastAsia, fontStep_asciiTheme, fontStep_hAnsiTheme, fontStep_cstheme, fontStep_eastAsiaTheme,
    fontStep_hint]
  simp [RunFonts.reread]

theorem takes_fonts (o : Option RunFonts) (h : ∀ f, o = some f → ∀ s ∈ f.strings, (decodeAttr s).isSome) :
    TakesN x (runPropertyLoop x) (emitN (optN o RunFonts.nodes))
    (fun rp => { rp with fonts := (o.map RunFonts.reread).or rp.fonts }) := by
  refine .opt (fun f e rp => ?_) (fun e rp => by simp [e])
  replace h := h f e
  subst e
  refine TakesF.leaf' (fun d es hd => ?_) (fun d => ?_)
  · simp only [Option.map_some, Option.some_or, ← readFonts_nodes f h]
    simp [-String.reduceToList, String.toList_inj, -List.append_assoc, runPropertyLoop, ignoreElement, Read.bind, RunProperty.setFonts]
  · simp [-String.reduceToList, String.toList_inj, runPropertyLoop, closesAt]

/-- A text border read back: the space is not kept. -/
def TextBorder.reread (b : TextBorder) : TextBorder where
  borderType := b.borderType
  size := floatU32 b.size
  color := seen b.color

theorem readBorder_nodes (t : BorderType) (size space : Nat) (color : Str) (h : (decodeAttr color).isSome)
    (es : List REvent) :
    readBorder x (expectAttrs [(c!"w:val", t.toStr), (c!"w:sz", dec size), (c!"w:space", dec space), (c!"w:color", color)]) es
      = .ok ⟨t, seen color, floatU32 size, floatU32 space⟩ es := by
  have ht : decodeAttr t.toStr = some t.toStr := by cases t <;> decide +kernel
  rw [expectAttrs_lit _ _ ht, expectAttrs_dec, expectAttrs_dec, expectAttrs_cons h, expectAttrs_nil]
  simp [-String.reduceToList, String.toList_inj, readBorder, foldAttrs, Read.bind, Read.map, orErr, parseFloat_dec, Props.C31_BorderType, floatU32]

theorem takes_textBorder (o : Option TextBorder) (h : ∀ b, o = some b → (decodeAttr b.color).isSome) :
    TakesN x (runPropertyLoop x) (emitN (optN o TextBorder.nodes))
    (fun rp => { rp with textBorder := (o.map TextBorder.reread).or rp.textBorder }) := by
  refine .opt (fun b e rp => ?_) (fun e rp => by simp [e])
  replace h := h b e
  subst e
  refine TakesF.leaf' (fun d es hd => ?_) (fun d => ?_)
  · simp [-String.reduceToList, String.toList_inj, runPropertyLoop, ignoreElement, Read.bind, readBorder_nodes _ _ _ _ h, Read.caught,
      RunProperty.setTextBorder, TextBorder.reread]
  · simp [-String.reduceToList, String.toList_inj, runPropertyLoop, closesAt]

theorem takes_vertAlign (o : Option VertAlignType) :
    TakesN x (runPropertyLoop x) (emitN (optN o fun v => valN c!"w:vertAlign" v.toStr))
    (fun rp => { rp with vertAlign := o.or rp.vertAlign }) := by
  refine .opt (fun v e rp => ?_) (fun e rp => by simp [e])
  subst e
  have ht : decodeAttr v.toStr = some v.toStr := by cases v <;> decide +kernel
  rp_leaf [expectAttrs_lit _ _ ht, Props.C31_VertAlignType, RunProperty.setVertAlign]

theorem takes_spacing (o : Option Int) :
    TakesN x (runPropertyLoop x) (emitN (optN o fun v => valN c!"w:spacing" (decInt v)))
    (fun rp => { rp with characterSpacing := (o.map floatI32).or rp.characterSpacing }) := by
  refine .opt (fun v e rp => ?_) (fun e rp => by simp [e])
  subst e
  rp_leaf [expectAttrs_decInt, parseFloat_decInt, RunProperty.setSpacing, floatI32]

/-- Values a `u32` and a `usize` can have. -/
def FitText.Fits (f : FitText) : Prop := f.val < 2 ^ 64 ∧ ∀ i, f.id = some i → i < 2 ^ 32

theorem takes_fitText (o : Option FitText) (h : ∀ f, o = some f → f.Fits) :
    TakesN x (runPropertyLoop x) (emitN (optN o FitText.nodes))
    (fun rp => { rp with fitText := o.or rp.fitText }) := by
  refine .opt (fun f e rp => ?_) (fun e rp => by simp [e])
  replace h := h f e
  subst e
  obtain ⟨v, i⟩ := f
  cases i with
  | none => rp_leaf [optAttr, expectAttrs_dec, usizeFromStr_dec h.1, RunProperty.setFitText]
  | some i =>
    rp_leaf [optAttr, expectAttrs_dec, usizeFromStr_dec h.1, u32FromStr_dec (h.2 i rfl), RunProperty.setFitText]

theorem takes_stretch (o : Option Int) :
    TakesN x (runPropertyLoop x) (emitN (optN o fun v => valN c!"w:w" (decInt v))) id := by
  refine .opt (fun v e rp => ?_) (fun e rp => by simp)
  rp_leaf [expectAttrs_decInt]

theorem takes_style (o : Option Str) (h : OptDecodes o) : TakesN x (runPropertyLoop x) (emitN (optN o (valN c!"w:rStyle")))
    (fun rp => { rp with style := (o.map again).or rp.style }) := by
  refine .opt (fun v e rp => ?_) (fun e rp => by simp [e])
  replace h := h v e
  subst e
  rp_leaf [expectAttrs_cons h, RunProperty.setStyle, again]

/-- Shading read back. -/
def Shading.reread (s : Shading) : Shading := ⟨s.shdType, seen s.color, seen s.fill⟩

theorem readShading_nodes (s : Shading) (h : ∀ t ∈ s.strings, (decodeAttr t).isSome) :
    readShading (expectAttrs [(c!"w:val", s.shdType.toStr), (c!"w:color", s.color), (c!"w:fill", s.fill)]) = s.reread := by
  have ht : decodeAttr s.shdType.toStr = some s.shdType.toStr := by cases s.shdType <;> decide +kernel
  rw [expectAttrs_lit _ _ ht, expectAttrs_cons (h _ (by simp [Shading.strings])),
    expectAttrs_cons (h _ (by simp [Shading.strings])), expectAttrs_nil]
  simp [-String.reduceToList, String.toList_inj, readShading, Props.C31_ShdType, Shading.reread]

theorem takes_shading (o : Option Shading) (h : ∀ f, o = some f → ∀ s ∈ f.strings, (decodeAttr s).isSome) :
    TakesN x (runPropertyLoop x) (emitN (optN o Shading.nodes))
    (fun rp => { rp with shading := (o.map Shading.reread).or rp.shading }) := by
  refine .opt (fun f e rp => ?_) (fun e rp => by simp [e])
  replace h := h f e
  subst e
  refine TakesF.leaf' (fun d es hd => ?_) (fun d => ?_)
  · simp [-String.reduceToList, String.toList_inj, runPropertyLoop, ignoreElement, Read.bind, readShading_nodes f h, RunProperty.setShading]
  · simp [-String.reduceToList, String.toList_inj, runPropertyLoop, closesAt]

/-- A positional tab read back: what it is relative to is not kept. -/
def PositionalTab.reread (t : PositionalTab) : PositionalTab := { t with relativeTo := .margin }

theorem returns_ptab (t : PositionalTab) :
    Returns x (fun R es => readPtab R.fuel (expectAttrs [(c!"w:alignment", t.alignment.toStr),
      (c!"w:relativeTo", t.relativeTo.toStr), (c!"w:leader", t.leader.toStr)]) es) c!"w:ptab" [] t.reread := by
  have h1 : decodeAttr t.alignment.toStr = some t.alignment.toStr := by cases t.alignment <;> decide +kernel
  have h2 : decodeAttr t.relativeTo.toStr = some t.relativeTo.toStr := by cases t.relativeTo <;> decide +kernel
  have h3 : decodeAttr t.leader.toStr = some t.leader.toStr := by cases t.leader <;> decide +kernel
  have h4 : PositionalTabRelativeTo.fromStr t.alignment.toStr = none := by cases t.alignment <;> decide +kernel
  rw [expectAttrs_lit _ _ h1, expectAttrs_lit _ _ h2, expectAttrs_lit _ _ h3, expectAttrs_nil]
  refine Returns.congr (Returns.loop (L := fun _ => { start := fun s _ _ es => .ok s es, close := closesAt .pTab })
    (TakesF.nil (t.reread)) (fun d => by simp [-String.reduceToList, String.toList_inj, closesAt])) (fun d es hd => ?_)
  simp [-String.reduceToList, String.toList_inj, readPtab, untilEnd, firstAccepted, h4, Props.C31_PositionalTabAlignmentType, Props.C31_TabLeaderType,
    PositionalTab.reread]

theorem takes_ptab (o : Option PositionalTab) :
    TakesN x (runPropertyLoop x) (emitN (optN o PositionalTab.nodes))
    (fun rp => { rp with positionalTab := (o.map PositionalTab.reread).or rp.positionalTab }) := by
  refine .opt (fun t e rp => ?_) (fun e rp => by simp [e])
  subst e
  refine TakesF.child ?_
  refine ((returns_ptab t).caught (g := fun t es => match t with
        | some t => .ok (rp.setPtab t) es
        | none => .ok rp es) (fun es => rfl)).congr (fun d es hd => ?_)
  simp [-String.reduceToList, String.toList_inj, runPropertyLoop, ignoreElement, Read.bind]
  rfl

/-- A tracked change mark read back. -/
def Mark.reread (m : Mark) : Mark := ⟨again m.author, seen m.date⟩

theorem readChange_attrs (id a b : Str) (m : Mark) (hi : (decodeAttr id).isSome) (h : ∀ s ∈ m.strings, (decodeAttr s).isSome) :
    readChange (expectAttrs (revisionAttrs id m.author m.date)) a b = (again m.author, seen m.date) := by
  rw [revisionAttrs, expectAttrs_cons hi, expectAttrs_cons (h _ (by simp [Mark.strings])),
    expectAttrs_cons (h _ (by simp [Mark.strings])), expectAttrs_nil]
  simp [-String.reduceToList, String.toList_inj, readChange, again]

theorem decodes_history (i : Nat) : (decodeAttr (historyIdText i)).isSome := by
  simp [historyIdText, decodeAttr_dec]

theorem takes_ins (o : Option Mark) (h : ∀ m, o = some m → ∀ s ∈ m.strings, (decodeAttr s).isSome) :
    TakesN x (runPropertyLoop x) (optNB o (Mark.nodes c!"w:ins"))
    (fun rp => { rp with ins := (o.map Mark.reread).or rp.ins }) := by
  refine .optB (fun m e => ?_) (fun e rp => by simp [e])
  replace h := h m e
  subst e
  refine .history fun g => .emit fun rp => TakesF.child ?_
  have h1 := (Returns.loop (x := x) (L := fun R => insertLoop R .insert) (TakesF.nil {}) (n := c!"w:ins")
    (fun d => by simp [-String.reduceToList, String.toList_inj, insertLoop, closesAt])).map (fun i : Insert =>
      let q := readChange (expectAttrs (revisionAttrs (historyIdText (generateId g.history).1) m.author m.date)) i.author i.date
      { i with author := q.1, date := q.2 })
  refine (h1.caught (g := fun i es => match i with
        | some i => .ok (rp.setInsert ⟨i.author, i.date⟩) es
        | none => .ok rp es) (fun es => rfl)).congr (fun d es hd => ?_) |>.mono ?_
  · simp [-String.reduceToList, String.toList_inj, runPropertyLoop, ignoreElement, Read.bind, readInsert]
    rfl
  · rw [readChange_attrs _ _ _ _ (decodes_history _) h]; simp [RunProperty.setInsert, Mark.reread]

theorem takes_del (o : Option Mark) (h : ∀ m, o = some m → ∀ s ∈ m.strings, (decodeAttr s).isSome) :
    TakesN x (runPropertyLoop x) (optNB o (Mark.nodes c!"w:del"))
    (fun rp => { rp with del := (o.map Mark.reread).or rp.del }) := by
  refine .optB (fun m e => ?_) (fun e rp => by simp [e])
  replace h := h m e
  subst e
  refine .history fun g => .emit fun rp => TakesF.child ?_
  have h1 := (Returns.loop (x := x) (L := fun R => deleteLoop R .delete) (TakesF.nil {}) (n := c!"w:del")
    (fun d => by simp [-String.reduceToList, String.toList_inj, deleteLoop, closesAt])).map (fun i : Delete =>
      let q := readChange (expectAttrs (revisionAttrs (historyIdText (generateId g.history).1) m.author m.date)) i.author i.date
      { i with author := q.1, date := q.2 })
  refine (h1.caught (g := fun i es => match i with
        | some i => .ok (rp.setDelete ⟨i.author, i.date⟩) es
        | none => .ok rp es) (fun es => rfl)).congr (fun d es hd => ?_) |>.mono ?_
  · simp [-String.reduceToList, String.toList_inj, runPropertyLoop, ignoreElement, Read.bind, readDelete]
    rfl
  · rw [readChange_attrs _ _ _ _ (decodes_history _) h]; simp [RunProperty.setDelete, Mark.reread]

end Docx
