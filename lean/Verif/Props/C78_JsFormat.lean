import Verif.Spec.JsFormat
import Verif.Lemmas.JsContent

/-!
# C78: formatting given by a JavaScript program arrives
-/

namespace Docx.Props

open Docx Docx.Xml Docx.Spec

/-! ## Fonts -/

theorem onSome_map {α β : Type} (x : Option α) (f : β → α → β) (b : β) : onSome x f b = (x.map (f b)).getD b := by
  cases x <;> rfl

theorem fonts_build (f : JsFonts) : f.build =
    { ascii := (truthy f.ascii).map escapeOwned, hiAnsi := (truthy f.hiAnsi).map escapeOwned,
      eastAsia := (truthy f.eastAsia).map escapeOwned, cs := (truthy f.cs).map escapeOwned,
      asciiTheme := (truthy f.asciiTheme).map escapeOwned, hiAnsiTheme := (truthy f.hiAnsiTheme).map escapeOwned,
      eastAsiaTheme := (truthy f.eastAsiaTheme).map escapeOwned, csTheme := (truthy f.csTheme).map escapeOwned,
      hint := (truthy f.hint).map escapeOwned } := by
  have a1 (x : Option Str) (r : RunFonts) : onSome x RunFonts.setAscii r = { r with ascii := (x.map escapeOwned).or r.ascii } := by cases x <;> rfl
  have a2 (x : Option Str) (r : RunFonts) : onSome x RunFonts.setHiAnsi r = { r with hiAnsi := (x.map escapeOwned).or r.hiAnsi } := by cases x <;> rfl
  have a3 (x : Option Str) (r : RunFonts) : onSome x RunFonts.setCs r = { r with cs := (x.map escapeOwned).or r.cs } := by cases x <;> rfl
  have a4 (x : Option Str) (r : RunFonts) : onSome x RunFonts.setEastAsia r = { r with eastAsia := (x.map escapeOwned).or r.eastAsia } := by cases x <;> rfl
  have a5 (x : Option Str) (r : RunFonts) : onSome x RunFonts.setAsciiTheme r = { r with asciiTheme := (x.map escapeOwned).or r.asciiTheme } := by cases x <;> rfl
  have a6 (x : Option Str) (r : RunFonts) : onSome x RunFonts.setHiAnsiTheme r = { r with hiAnsiTheme := (x.map escapeOwned).or r.hiAnsiTheme } := by cases x <;> rfl
  have a7 (x : Option Str) (r : RunFonts) : onSome x RunFonts.setCsTheme r = { r with csTheme := (x.map escapeOwned).or r.csTheme } := by cases x <;> rfl
  have a8 (x : Option Str) (r : RunFonts) : onSome x RunFonts.setEastAsiaTheme r = { r with eastAsiaTheme := (x.map escapeOwned).or r.eastAsiaTheme } := by cases x <;> rfl
  have a9 (x : Option Str) (r : RunFonts) : onSome x RunFonts.setHint r = { r with hint := (x.map escapeOwned).or r.hint } := by cases x <;> rfl
  simp only [JsFonts.build, a1, a2, a3, a4, a5, a6, a7, a8, a9, Option.or_none]

theorem fonts_buildPlain (f : JsFonts) : f.buildPlain =
    { ascii := (truthy f.ascii).map escapeOwned, hiAnsi := (truthy f.hiAnsi).map escapeOwned,
      eastAsia := (truthy f.eastAsia).map escapeOwned, cs := (truthy f.cs).map escapeOwned } := by
  have a1 (x : Option Str) (r : RunFonts) : onSome x RunFonts.setAscii r = { r with ascii := (x.map escapeOwned).or r.ascii } := by cases x <;> rfl
  have a2 (x : Option Str) (r : RunFonts) : onSome x RunFonts.setHiAnsi r = { r with hiAnsi := (x.map escapeOwned).or r.hiAnsi } := by cases x <;> rfl
  have a3 (x : Option Str) (r : RunFonts) : onSome x RunFonts.setCs r = { r with cs := (x.map escapeOwned).or r.cs } := by cases x <;> rfl
  have a4 (x : Option Str) (r : RunFonts) : onSome x RunFonts.setEastAsia r = { r with eastAsia := (x.map escapeOwned).or r.eastAsia } := by cases x <;> rfl
  simp only [JsFonts.buildPlain, a1, a2, a3, a4, Option.or_none]

theorem truthy_some {s : Str} (h : s ≠ []) : truthy (some s) = some s := by simp [truthy, Option.filter, h]

theorem snoc_induction {α : Type} {P : List α → Prop} (h0 : P []) (h1 : ∀ l c, P l → P (l ++ [c])) (l : List α) : P l := by
  rw [← List.reverse_reverse l]
  induction l.reverse with
  | nil => exact h0
  | cons c l ih => rw [List.reverse_cons]; exact h1 _ _ ih

/-- **C78.** Fonts arrive. Missing: the full statement is without the hypotheses, and does not hold (`C78_fails_theme`). -/
theorem C78_fonts_partial (calls : List JsFontCall) (h : ∀ c ∈ calls, JsFontCall.given c ≠ [] ∧ JsFontCall.isEastAsiaTheme c = false) :
    (calls.foldl JsFonts.call {}).build = calls.foldl JsFontCall.wanted {} := by
  induction calls using snoc_induction with
  | h0 => rfl
  | h1 l c ih =>
    have ih := ih fun x hx => h x (List.mem_append_left _ hx)
    obtain ⟨hg, ht⟩ := h c (by simp)
    rw [List.foldl_append, List.foldl_append, ← ih]
    generalize l.foldl JsFonts.call {} = f
    cases c <;> simp only [JsFontCall.given] at hg <;>
      simp only [List.foldl_cons, List.foldl_nil, JsFonts.call, JsFontCall.wanted, fonts_build, RunFonts.setAscii, RunFonts.setHiAnsi,
        RunFonts.setCs, RunFonts.setEastAsia, RunFonts.setAsciiTheme, RunFonts.setHiAnsiTheme, RunFonts.setCsTheme, RunFonts.setHint,
        truthy_some hg, Option.map_some]
    exact absurd ht (by simp [JsFontCall.isEastAsiaTheme])

/-- **C78 fails** for the theme of East Asian text: whatever is called, no such theme arrives, and one that is given
takes the place of the East Asian font. -/
theorem C78_fails_theme (calls : List JsFontCall) (s : Str) (hs : s ≠ []) :
    ((calls ++ [JsFontCall.eastAsiaTheme s]).foldl JsFonts.call {}).build.eastAsiaTheme = none ∧
    ((calls ++ [JsFontCall.eastAsiaTheme s]).foldl JsFonts.call {}).build.eastAsia = some (escapeOwned s) ∧
    ((calls ++ [JsFontCall.eastAsiaTheme s]).foldl JsFontCall.wanted {}).eastAsiaTheme = some (escapeOwned s) := by
  have key : ∀ calls : List JsFontCall, (calls.foldl JsFonts.call {}).eastAsiaTheme = none := by
    intro calls
    induction calls using snoc_induction with
    | h0 => rfl
    | h1 l c ih =>
      rw [List.foldl_append]
      cases c <;> exact ih
  refine ⟨?_, ?_, ?_⟩
  · rw [fonts_build, key]; rfl
  · rw [fonts_build, List.foldl_append]
    simp only [List.foldl_cons, List.foldl_nil, JsFonts.call, truthy_some hs, Option.map_some]
  · rw [List.foldl_append]; rfl

/-! ## Runs -/

/-- A flag that is on, or nothing. -/
def litB : Option Bool → Option Bool
  | some true => some true
  | _ => none

/-- The same without the value. -/
def lit1 : Option Bool → Option Unit
  | some true => some ()
  | _ => none

/-- Nothing if a flag is on. -/
def offB : Option Bool → Option Bool → Option Bool
  | some true, _ => none
  | _, y => y

theorem offB_none (x : Option Bool) : offB x none = none := by
  cases x with
  | none => rfl
  | some x => cases x <;> rfl

/-- What is given to a run, in closed form. -/
theorem run_set (j : JsRunProperty) : setRunProperty {} j =
    { style := (truthy j.style).map escapeOwned, sz := j.size, szCs := j.size, color := (truthy j.color).map .new,
      highlight := truthy j.highlight, vertAlign := j.vertAlign.filter fun a => decide (a = .superScript ∨ a = .subScript),
      underline := truthy j.underline,
      bold := litB j.bold, boldCs := litB j.bold,
      caps := litB j.caps,
      italic := litB j.italic, italicCs := litB j.italic,
      vanish := lit1 j.vanish,
      characterSpacing := j.characterSpacing, fitText := j.fitText.map fun x => ⟨x.1, x.2⟩,
      fonts := j.fonts.map JsFonts.build,
      textBorder := j.textBorder.map fun x => { x with borderType := convertBorderType x.borderType },
      strike := offB j.dstrike (litB j.strike),
      dstrike := litB j.dstrike,
      shading := j.shading.map fun x => bridgeShading x.1 x.2.1 x.2.2 } := by
  have a1 (x : Option Str) (r : RunProperty) : onSome x RunProperty.setStyle r = { r with style := (x.map escapeOwned).or r.style } := by cases x <;> rfl
  have a2 (x : Option Nat) (r : RunProperty) : onSome x RunProperty.setSize r = { r with sz := x.or r.sz, szCs := x.or r.szCs } := by cases x <;> rfl
  have a3 (x : Option Str) (r : RunProperty) : onSome x RunProperty.setColor r = { r with color := (x.map .new).or r.color } := by cases x <;> rfl
  have a4 (x : Option Str) (r : RunProperty) : onSome x RunProperty.setHighlight r = { r with highlight := x.or r.highlight } := by cases x <;> rfl
  have a5 (x : Option VertAlignType) (r : RunProperty) : onSome x RunProperty.setVertAlign r = { r with vertAlign := x.or r.vertAlign } := by cases x <;> rfl
  have a6 (x : Option Bool) (r : RunProperty) : onTrue x RunProperty.setBold r =
      { r with bold := (litB x).or r.bold, boldCs := (litB x).or r.boldCs } := by
    cases x with
    | none => rfl
    | some x => cases x <;> rfl
  have a7 (x : Option Bool) (r : RunProperty) : onTrue x RunProperty.setItalic r =
      { r with italic := (litB x).or r.italic, italicCs := (litB x).or r.italicCs } := by
    cases x with
    | none => rfl
    | some x => cases x <;> rfl
  have a8 (x : Option Bool) (r : RunProperty) : onTrue x RunProperty.setStrike r =
      { r with strike := (litB x).or r.strike, dstrike := offB x r.dstrike } := by
    cases x with
    | none => rfl
    | some x => cases x <;> rfl
  have a9 (x : Option Bool) (r : RunProperty) : onTrue x RunProperty.setDstrike r =
      { r with dstrike := (litB x).or r.dstrike, strike := offB x r.strike } := by
    cases x with
    | none => rfl
    | some x => cases x <;> rfl
  have b1 (x : Option Bool) (r : RunProperty) : onTrue x RunProperty.setCaps r = { r with caps := (litB x).or r.caps } := by
    cases x with
    | none => rfl
    | some x => cases x <;> rfl
  have b2 (x : Option Str) (r : RunProperty) : onSome x RunProperty.setUnderline r = { r with underline := x.or r.underline } := by cases x <;> rfl
  have b3 (x : Option Bool) (r : RunProperty) : onTrue x RunProperty.setVanish r = { r with vanish := (lit1 x).or r.vanish } := by
    cases x with
    | none => rfl
    | some x => cases x <;> rfl
  have b4 (x : Option Int) (r : RunProperty) : onSome x RunProperty.setSpacing r = { r with characterSpacing := x.or r.characterSpacing } := by cases x <;> rfl
  have b5 (x : Option (Nat × Option Nat)) (r : RunProperty) : onSome x (fun p x => p.setFitText x.1 x.2) r
      = { r with fitText := (x.map fun x => (⟨x.1, x.2⟩ : FitText)).or r.fitText } := by cases x <;> rfl
  have b6 (x : Option TextBorder) (r : RunProperty) : onSome x (fun p x => p.setTextBorder { x with borderType := convertBorderType x.borderType }) r
      = { r with textBorder := (x.map fun x => { x with borderType := convertBorderType x.borderType }).or r.textBorder } := by cases x <;> rfl
  have b7 (x : Option JsFonts) (r : RunProperty) : onSome x (fun p x => p.setFonts x.build) r
      = { r with fonts := (x.map JsFonts.build).or r.fonts } := by cases x <;> rfl
  have b8 (x : Option (Str × Str × Str)) (r : RunProperty) : onSome x (fun p x => p.setShading (bridgeShading x.1 x.2.1 x.2.2)) r
      = { r with shading := (x.map fun x => bridgeShading x.1 x.2.1 x.2.2).or r.shading } := by cases x <;> rfl
  simp only [setRunProperty, a1, a2, a3, a4, a5, a6, a7, a8, a9, b1, b2, b3, b4, b5, b6, b7, b8, Option.or_none, offB_none]

theorem known_border {k : BorderType} (h : k ∈ knownBorders) : convertBorderType k = k := by
  simp only [knownBorders, List.mem_cons, List.not_mem_nil, or_false] at h
  rcases h with h | h | h | h | h | h | h | h | h | h <;> subst h <;> rfl

theorem run_dstrike (calls : List JsRunCall) (h : ∀ c ∈ calls, c ≠ .dstrike) : (calls.foldl JsRunProperty.call {}).dstrike = none := by
  induction calls using snoc_induction with
  | h0 => rfl
  | h1 l c ih =>
    have ih := ih fun x hx => h x (List.mem_append_left _ hx)
    have hc := h c (by simp)
    rw [List.foldl_append]
    cases c <;> first | exact ih | exact absurd rfl hc

theorem run_step (j : JsRunProperty) (c : JsRunCall) (hc : JsRunCall.comesThrough c) (hd : c = .strike → j.dstrike = none) :
    setRunProperty {} (j.call c) = JsRunCall.wanted (setRunProperty {} j) c := by
  rw [run_set, run_set]
  cases c with
  | strike => simp [JsRunProperty.call, JsRunCall.wanted, RunProperty.setStrike, hd rfl, offB, litB]
  | dstrike => simp [JsRunProperty.call, JsRunCall.wanted, RunProperty.setDstrike, offB, litB]
  | style s => simp [JsRunProperty.call, JsRunCall.wanted, RunProperty.setStyle, truthy_some hc]
  | color s => simp [JsRunProperty.call, JsRunCall.wanted, RunProperty.setColor, truthy_some hc]
  | highlight s => simp [JsRunProperty.call, JsRunCall.wanted, RunProperty.setHighlight, truthy_some hc]
  | underline s => simp [JsRunProperty.call, JsRunCall.wanted, RunProperty.setUnderline, truthy_some hc]
  | vertAlign a =>
    have hc : a = .superScript ∨ a = .subScript := hc
    simp [JsRunProperty.call, JsRunCall.wanted, RunProperty.setVertAlign, Option.filter, hc]
  | delete a d => exact hc.elim
  | insert a d => exact hc.elim
  | textBorder k s sp c => simp [JsRunProperty.call, JsRunCall.wanted, RunProperty.setTextBorder, known_border hc]
  | shading k c f =>
    simp only [JsRunProperty.call, JsRunCall.wanted, RunProperty.setShading, Option.map_some, bridgeShading]
    cases ShdType.fromStr k <;> rfl
  | _ =>
    simp [JsRunProperty.call, JsRunCall.wanted, RunProperty.setSize, RunProperty.setBold, RunProperty.setItalic, RunProperty.setVanish,
      RunProperty.setCaps, RunProperty.setFonts, RunProperty.setSpacing, RunProperty.setFitText, litB, lit1]

theorem run_formatted (calls : List JsRunCall) (h : ∀ c ∈ calls, JsRunCall.comesThrough c)
    (hs : ∀ a b, calls = a ++ .strike :: b → .dstrike ∉ a) :
    setRunProperty {} (calls.foldl JsRunProperty.call {}) = calls.foldl JsRunCall.wanted {} := by
  induction calls using snoc_induction with
  | h0 => rfl
  | h1 l c ih =>
    have ih := ih (fun x hx => h x (List.mem_append_left _ hx)) fun a b e => hs a (b ++ [c]) (by rw [e]; simp)
    have hc := h c (by simp)
    have hd : c = .strike → (l.foldl JsRunProperty.call {}).dstrike = none := by
      intro e
      subst e
      exact run_dstrike l fun x hx e => hs l [] rfl (e ▸ hx)
    rw [List.foldl_append, List.foldl_append, ← ih]
    exact run_step _ c hc hd

theorem run_kept (lib : ImageLib) : ∀ (cs : List JsRunChild) (x : Run) (n : Ids), (jsRunChildren lib x cs n).1.property = x.property := by
  intro cs
  induction cs with
  | nil => exact fun x n => rfl
  | cons c cs ih =>
    intro x n
    rw [jsRunChildren, ih]
    cases c with
    | brk t => cases t <;> rfl
    | _ => rfl

/-- The formatting of the run that is built for one with the given content and formatting methods called on it. -/
def builtFormat (lib : ImageLib) (content : List JsRunChild) (calls : List JsRunCall) (n : Ids) : RunProperty :=
  ((calls.foldl JsRun.call { children := content }).build lib n).1.property

/-- The formatting the same methods of the Rust library give. -/
def wantedFormat (calls : List JsRunCall) : RunProperty := calls.foldl JsRunCall.wanted {}

theorem built_format (lib : ImageLib) (content : List JsRunChild) (calls : List JsRunCall) (n : Ids) :
    builtFormat lib content calls n = setRunProperty {} (calls.foldl JsRunProperty.call {}) := by
  have e : ∀ (calls : List JsRunCall) (r : JsRun),
      (calls.foldl JsRun.call r).property.getD {} = calls.foldl JsRunProperty.call (r.property.getD {}) := by
    intro calls
    induction calls with
    | nil => exact fun r => rfl
    | cons c calls ih => exact fun r => by rw [List.foldl_cons, ih]; rfl
  unfold builtFormat
  have e' : calls.foldl JsRunProperty.call {} = (calls.foldl JsRun.call { children := content }).property.getD {} := (e calls { children := content }).symm
  rw [e']
  clear e e'
  generalize calls.foldl JsRun.call { children := content } = r
  unfold JsRun.build
  cases h : r.property with
  | none => simp only [run_kept]; rfl
  | some j => simp only [Run.format, run_kept]; rfl

/-- **C78.** Formatting given to a run arrives. Missing: the full statement is for all calls; it does not hold for those
that are excluded (`C78_fails_marks`, `C78_fails_strike`, `C78_fails_baseline`, `C78_fails_border`, `C78_fails_empty`). -/
theorem C78_run_partial (lib : ImageLib) (content : List JsRunChild) (calls : List JsRunCall) (n : Ids)
    (h : ∀ c ∈ calls, JsRunCall.comesThrough c) (hs : ∀ a b, calls = a ++ .strike :: b → .dstrike ∉ a) :
    builtFormat lib content calls n = wantedFormat calls := by
  rw [built_format, run_formatted calls h hs]; rfl

example : ∃ calls : List JsRunCall, (∀ c ∈ calls, JsRunCall.comesThrough c) ∧ (∀ a b, calls = a ++ .strike :: b → .dstrike ∉ a) ∧
    wantedFormat calls =
      { style := some c!"S&amp;", sz := some 24, szCs := some 24, bold := some true, boldCs := some true,
        dstrike := some true, vertAlign := some .subScript, textBorder := some ⟨.triple, 4, c!"FF0000", 1⟩ } := by
  refine ⟨[.size 20, .strike, .style c!"S&", .bold, .dstrike, .vertAlign .subScript, .textBorder .triple 4 1 c!"FF0000", .size 24], ?_, ?_, ?_⟩
  · intro c hc
    simp only [List.mem_cons, List.not_mem_nil, or_false] at hc
    rcases hc with h | h | h | h | h | h | h | h <;> subst h <;> simp [JsRunCall.comesThrough, knownBorders]
  · intro a b e
    rcases a with _ | ⟨x, a⟩
    · simp
    · rcases a with _ | ⟨y, a⟩
      · simp only [List.cons_append, List.cons.injEq] at e
        simp [← e.1]
      · exfalso
        simp only [List.cons_append, List.cons.injEq] at e
        have : JsRunCall.strike ∈ [JsRunCall.style c!"S&", .bold, .dstrike, .vertAlign .subScript, .textBorder .triple 4 1 c!"FF0000", .size 24] := by
          rw [e.2.2]; simp
        simp at this
  · decide +kernel

/-- **C78 fails** for marks of insertions and deletions on a run: none arrives, whatever is called. -/
theorem C78_fails_marks (lib : ImageLib) (content : List JsRunChild) (calls : List JsRunCall) (n : Ids) (a d : Str) :
    (builtFormat lib content calls n).ins = none ∧ (builtFormat lib content calls n).del = none ∧
    (wantedFormat (calls ++ [.insert a d])).ins = some (.new a d) ∧ (wantedFormat (calls ++ [.delete a d])).del = some (.new a d) := by
  rw [built_format, run_set, wantedFormat, wantedFormat, List.foldl_append, List.foldl_append]
  exact ⟨rfl, rfl, rfl, rfl⟩

/-- **C78 fails** for a single line through the text after a double one: the double line stays. -/
theorem C78_fails_strike (lib : ImageLib) (content : List JsRunChild) (a b : List JsRunCall) (n : Ids) :
    (builtFormat lib content (a ++ .dstrike :: b ++ [.strike]) n).dstrike = some true ∧
    (wantedFormat (a ++ .dstrike :: b ++ [.strike])).dstrike = none ∧
    (wantedFormat (a ++ .dstrike :: b ++ [.strike])).strike = some true := by
  have key : ∀ (b : List JsRunCall) (j : JsRunProperty), j.dstrike = some true → (b.foldl JsRunProperty.call j).dstrike = some true := by
    intro b
    induction b with
    | nil => exact fun j h => h
    | cons c b ih => exact fun j h => ih _ (by cases c <;> first | exact h | rfl)
  refine ⟨?_, ?_, ?_⟩
  · rw [built_format, run_set, List.foldl_append, List.foldl_append, List.foldl_cons]
    have := key b ((a.foldl JsRunProperty.call {}).call .dstrike) rfl
    simp only [JsRunProperty.call, List.foldl_cons, List.foldl_nil] at this ⊢
    rw [this]; rfl
  · rw [wantedFormat, List.foldl_append]; rfl
  · rw [wantedFormat, List.foldl_append]; rfl

/-- **C78 fails** for text that goes back to the line: that is not passed on. -/
theorem C78_fails_baseline (lib : ImageLib) (content : List JsRunChild) (calls : List JsRunCall) (n : Ids) :
    (builtFormat lib content (calls ++ [.vertAlign .baseline]) n).vertAlign = none ∧
    (wantedFormat (calls ++ [.vertAlign .baseline])).vertAlign = some .baseline := by
  rw [built_format, run_set, wantedFormat, List.foldl_append, List.foldl_append]
  exact ⟨rfl, rfl⟩

/-- **C78 fails** for every kind of line around text but the ten that are known: a single line arrives. -/
theorem C78_fails_border (lib : ImageLib) (content : List JsRunChild) (calls : List JsRunCall) (n : Ids) (k : BorderType) (s sp : Nat)
    (c : Str) (hk : k ∉ knownBorders) :
    (builtFormat lib content (calls ++ [.textBorder k s sp c]) n).textBorder = some ⟨.single, s, c, sp⟩ ∧
    (wantedFormat (calls ++ [.textBorder k s sp c])).textBorder = some ⟨k, s, c, sp⟩ ∧ k ≠ .single := by
  rw [built_format, run_set, wantedFormat, List.foldl_append, List.foldl_append]
  refine ⟨?_, rfl, fun e => hk (by rw [e]; decide)⟩
  simp only [List.foldl_cons, List.foldl_nil, JsRunProperty.call, Option.map_some]
  congr 2
  cases k <;> first | rfl | exact absurd (by decide) hk

example : BorderType.wave ∉ knownBorders := by decide

/-- **C78 fails** for a colour that is replaced by the empty text: none is left. The same goes for a style, a highlight and an underline. -/
theorem C78_fails_empty (lib : ImageLib) (content : List JsRunChild) (calls : List JsRunCall) (n : Ids) :
    (builtFormat lib content (calls ++ [.color []]) n).color = none ∧
    (wantedFormat (calls ++ [.color []])).color = some (.new []) := by
  rw [built_format, run_set, wantedFormat, List.foldl_append, List.foldl_append]
  exact ⟨rfl, rfl⟩

/-! ## Pictures -/

/-- **C78 fails** for the place of a picture: the horizontal offset is the vertical one that was given, and the vertical one
is always 0. -/
theorem C78_fails_offset (lib : ImageLib) (i : JsImage) (n : Ids) :
    (i.build lib n).1.positionH = .offset i.offsetY ∧ (i.build lib n).1.positionV = .offset 0 := by
  obtain ⟨data, size, fl, x, y, rot⟩ := i
  cases size <;> cases fl <;> exact ⟨rfl, rfl⟩

/-- **C78.** A picture has the place that was asked for. Missing: only where both offsets are 0. -/
theorem C78_offset_partial (lib : ImageLib) (i : JsImage) (n : Ids) (hx : i.offsetX = 0) (hy : i.offsetY = 0) :
    (i.build lib n).1.positionH = .offset i.offsetX ∧ (i.build lib n).1.positionV = .offset i.offsetY := by
  obtain ⟨h1, h2⟩ := C78_fails_offset lib i n
  rw [h1, h2, hx, hy]
  exact ⟨rfl, rfl⟩

end Docx.Props
