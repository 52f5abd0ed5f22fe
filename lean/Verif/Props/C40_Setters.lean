import Verif.Model.Api

/-!
# C40: formatting calls keep their exclusions and bounds
-/

namespace Docx.Props

open Docx

/-- A formatting call on a run. -/
inductive RunCall where
  | style (s : Str) | size (n : Nat) | spacing (n : Int) | color (s : Str) | themeColor (t : ThemeColor)
  | themeShade (s : Str) | themeTint (s : Str) | highlight (s : Str) | vertAlign (a : VertAlignType)
  | bold | disableBold | caps | italic | disableItalic | strike | disableStrike | dstrike | disableDstrike
  | underline (s : Str) | vanish | specVanish | fonts (f : RunFonts) | characterSpacing (n : Int)
  | stretch (n : Int) | fitText (n : Nat) (id : Option Nat) | textBorder (b : TextBorder)
  | delete (author date : Str) | insert (author date : Str) | ptab (t : PositionalTab) | shading (s : Shading)

/-- Its effect. -/
def RunCall.apply (p : RunProperty) : RunCall → RunProperty
  | style s => p.setStyle s | size n => p.setSize n | spacing n => p.setSpacing n | color s => p.setColor s
  | themeColor t => p.setThemeColor t | themeShade s => p.setThemeShade s | themeTint s => p.setThemeTint s
  | highlight s => p.setHighlight s | vertAlign a => p.setVertAlign a | bold => p.setBold
  | disableBold => p.disableBold | caps => p.setCaps | italic => p.setItalic | disableItalic => p.disableItalic
  | strike => p.setStrike | disableStrike => p.disableStrike | dstrike => p.setDstrike
  | disableDstrike => p.disableDstrike | underline s => p.setUnderline s | vanish => p.setVanish
  | specVanish => p.setSpecVanish | fonts f => p.setFonts f | characterSpacing n => p.setCharacterSpacing n
  | stretch n => p.setStretch n | fitText n id => p.setFitText n id | textBorder b => p.setTextBorder b
  | delete a d => p.setDelete (.new a d) | insert a d => p.setInsert (.new a d) | ptab t => p.setPtab t
  | shading s => p.setShading s

/-- The formatting after a history of calls. -/
def formatted (calls : List RunCall) : RunProperty := calls.foldl RunCall.apply {}

/-- What a value should be after a history of calls: the value the last call about it gave. -/
def lastOf {α : Type} (f : RunCall → Option α) (calls : List RunCall) : Option α :=
  calls.foldl (fun a c => (f c).or a) none

/-- What the calls say about the size. -/
def sizeOf? : RunCall → Option Nat
  | .size n => some n
  | _ => none

/-- What the calls say about bold. -/
def boldOf? : RunCall → Option Bool
  | .bold => some true
  | .disableBold => some false
  | _ => none

/-- What the calls say about italic. -/
def italicOf? : RunCall → Option Bool
  | .italic => some true
  | .disableItalic => some false
  | _ => none

/-- What the calls say about the space between characters: two methods set it. -/
def spacingOf? : RunCall → Option Int
  | .spacing n => some n
  | .characterSpacing n => some n
  | _ => none

/-- A line through the text. -/
inductive Line where
  | none | single | double
deriving DecidableEq

/-- What the calls say about lines through the text: the one asked for last, unless that one was disabled. -/
def lineAfter (l : Line) : RunCall → Line
  | .strike => .single
  | .dstrike => .double
  | .disableStrike => if l = .single then .none else l
  | .disableDstrike => if l = .double then .none else l
  | _ => l

/-- The line the formatting shows. -/
def shownLine (p : RunProperty) : Option Line :=
  if p.strike = some true then if p.dstrike = some true then none else some .single
  else if p.dstrike = some true then some .double else some .none

theorem formatted_append (calls : List RunCall) (c : RunCall) : formatted (calls ++ [c]) = RunCall.apply (formatted calls) c := by
  simp [formatted]

theorem lastOf_append {α : Type} (f : RunCall → Option α) (calls : List RunCall) (c : RunCall) :
    lastOf f (calls ++ [c]) = (f c).or (lastOf f calls) := by
  simp [lastOf]

theorem calls_induction {P : List RunCall → Prop} (h0 : P []) (h1 : ∀ calls c, P calls → P (calls ++ [c]))
    (calls : List RunCall) : P calls := by
  rw [← List.reverse_reverse calls]
  generalize calls.reverse = l
  induction l with
  | nil => exact h0
  | cons c l ih =>
    rw [List.reverse_cons]
    exact h1 _ _ ih

/-- **C40.** After every history of formatting calls, single and double strike are not both on, and the line
through the text is the one asked for last and not disabled since. -/
theorem C40_strike (calls : List RunCall) :
    ¬ ((formatted calls).strike = some true ∧ (formatted calls).dstrike = some true) ∧
    shownLine (formatted calls) = some (calls.foldl lineAfter .none) := by
  have key : shownLine (formatted calls) = some (calls.foldl lineAfter .none) := by
    induction calls using calls_induction with
    | h0 => rfl
    | h1 calls c ih =>
      rw [formatted_append, List.foldl_append]
      simp only [List.foldl_cons, List.foldl_nil]
      revert ih
      generalize formatted calls = p
      generalize calls.foldl lineAfter .none = l
      intro ih
      cases c <;> try exact ih
      · rfl
      · unfold shownLine at ih ⊢
        simp only [RunCall.apply, RunProperty.disableStrike, lineAfter]
        by_cases a : p.strike = some true <;> by_cases b : p.dstrike = some true <;>
          simp only [a, b, if_true, if_false, Option.some.injEq, reduceCtorEq, Bool.false_eq_true] at ih ⊢ <;>
          subst ih <;> rfl
      · rfl
      · unfold shownLine at ih ⊢
        simp only [RunCall.apply, RunProperty.disableDstrike, lineAfter]
        by_cases a : p.strike = some true <;> by_cases b : p.dstrike = some true <;>
          simp only [a, b, if_true, if_false, Option.some.injEq, reduceCtorEq, Bool.false_eq_true] at ih ⊢ <;>
          subst ih <;> rfl
  refine ⟨?_, key⟩
  rintro ⟨a, b⟩
  unfold shownLine at key
  rw [if_pos a, if_pos b] at key
  cases key

/-- **C40.** After every history of formatting calls, the size, bold and italic for complex scripts are those
for other scripts, and each is the value given last. -/
theorem C40_complex_script (calls : List RunCall) :
    (formatted calls).sz = lastOf sizeOf? calls ∧ (formatted calls).szCs = lastOf sizeOf? calls ∧
    (formatted calls).bold = lastOf boldOf? calls ∧ (formatted calls).boldCs = lastOf boldOf? calls ∧
    (formatted calls).italic = lastOf italicOf? calls ∧ (formatted calls).italicCs = lastOf italicOf? calls ∧
    (formatted calls).characterSpacing = lastOf spacingOf? calls := by
  induction calls using calls_induction with
  | h0 => exact ⟨rfl, rfl, rfl, rfl, rfl, rfl, rfl⟩
  | h1 calls c ih =>
    simp only [formatted_append, lastOf_append]
    obtain ⟨h1, h2, h3, h4, h5, h6, h7⟩ := ih
    revert h1 h2 h3 h4 h5 h6 h7
    generalize formatted calls = p
    intro h1 h2 h3 h4 h5 h6 h7
    cases c <;> exact ⟨by first | exact h1 | rfl, by first | exact h2 | rfl, by first | exact h3 | rfl,
      by first | exact h4 | rfl, by first | exact h5 | rfl, by first | exact h6 | rfl, by first | exact h7 | rfl⟩

/-- The last colour-related calls: a theme colour, shade or tint keeps the colour value, and makes it automatic if
there was none. -/
def colorAfter (c : Option Color) : RunCall → Option Color
  | .color s => some { val := s }
  | .themeColor t => some { c.getD { val := c!"auto" } with themeColor := some t.toStr }
  | .themeShade s => some { c.getD { val := c!"auto" } with themeShade := some s }
  | .themeTint s => some { c.getD { val := c!"auto" } with themeTint := some s }
  | _ => c

/-- **C40.** Calls about other things do not change the colour, and a theme colour does not change its value. -/
theorem C40_color (calls : List RunCall) : (formatted calls).color = calls.foldl colorAfter none := by
  induction calls using calls_induction with
  | h0 => rfl
  | h1 calls c ih =>
    rw [formatted_append, List.foldl_append]
    simp only [List.foldl_cons, List.foldl_nil, ← ih]
    cases c <;> rfl

/-! ## Paragraphs -/

/-- A formatting call on a paragraph. -/
inductive ParagraphCall where
  | align (a : AlignmentType) | style (s : Str)
  | indent (left : Option Int) (special : Option SpecialIndentType) (end_ startChars : Option Int)
  | numbering (id level : Nat) | numberingProperty (n : NumberingProperty) | lineSpacing (s : LineSpacing)
  | characterSpacing (n : Int) | snapToGrid (v : Bool) | shading (s : Shading) | keepNext (v : Bool)
  | keepLines (v : Bool) | outlineLvl (v : Nat) | pageBreakBefore (v : Bool) | bidi (v : Bool)
  | widowControl (v : Bool) | addTab (t : Tab) | sectionProperty (s : SectionBase)
  | change (c : ParagraphPropertyChange) | frameProperty (f : FrameProperty) | runProperty (r : RunProperty)
  | textAlignment (t : TextAlignmentType) | adjustRightInd (n : Int) | hangingChars (n : Int)
  | firstLineChars (n : Int) | setBorders (b : ParagraphBorders) | setBorder (b : ParagraphBorder)
  | clearBorder (p : ParagraphBorderPosition) | clearAllBorders

/-- Its effect. -/
def ParagraphCall.apply (p : ParagraphProperty) : ParagraphCall → ParagraphProperty
  | align a => p.setAlign a | style s => p.setStyle s | indent l s e c => p.setIndent l s e c
  | numbering i l => p.setNumbering i l | numberingProperty n => p.setNumberingProperty n
  | lineSpacing s => p.setLineSpacing s | characterSpacing n => p.setCharacterSpacing n
  | snapToGrid v => p.setSnapToGrid v | shading s => p.setShading s | keepNext v => p.setKeepNext v
  | keepLines v => p.setKeepLines v | outlineLvl v => p.setOutlineLvl v | pageBreakBefore v => p.setPageBreakBefore v
  | bidi v => p.setBidi v | widowControl v => p.setWidowControl v | addTab t => p.addTab t
  | sectionProperty s => p.setSectionProperty s | change c => p.setChange c | frameProperty f => p.setFrameProperty f
  | runProperty r => p.setRunProperty r | textAlignment t => p.setTextAlignment t
  | adjustRightInd n => p.setAdjustRightInd n | hangingChars n => p.setHangingChars n
  | firstLineChars n => p.setFirstLineChars n | setBorders b => p.setBorders b | setBorder b => p.setBorder b
  | clearBorder x => p.clearBorder x | clearAllBorders => p.clearAllBorders

/-- The formatting after a history of calls. -/
def paragraphFormatted (calls : List ParagraphCall) : ParagraphProperty := calls.foldl ParagraphCall.apply {}

/-- What the calls say about the outline level: the number given last, and 9 if that is larger. -/
def outlineOf? : ParagraphCall → Option Nat
  | .outlineLvl v => some (min v 9)
  | _ => none

theorem paragraphFormatted_outline (calls : List ParagraphCall) :
    (paragraphFormatted calls).base.outlineLvl = calls.foldl (fun a c => (outlineOf? c).or a) none := by
  unfold paragraphFormatted
  have key : ∀ (calls : List ParagraphCall) (p : ParagraphProperty),
      (calls.foldl ParagraphCall.apply p).base.outlineLvl =
        calls.foldl (fun a c => (outlineOf? c).or a) p.base.outlineLvl := by
    intro calls
    induction calls with
    | nil => intro p; rfl
    | cons c calls ih =>
      intro p
      rw [List.foldl_cons, List.foldl_cons, ih]
      congr 1
      cases c <;> try rfl
      rename_i v
      simp only [ParagraphCall.apply, ParagraphProperty.setOutlineLvl, ParagraphProperty.upd, outlineOf?, Option.some_or]
      split
      · simp; omega
      · simp; omega
  exact key calls {}

/-- **C40.** After every history of formatting calls the outline level is the one given last, reduced to 9 if it
is larger; so it is always below ten. -/
theorem C40_outline (calls : List ParagraphCall) :
    (paragraphFormatted calls).base.outlineLvl = calls.foldl (fun a c => (outlineOf? c).or a) none ∧
    ∀ n, (paragraphFormatted calls).base.outlineLvl = some n → n < 10 := by
  refine ⟨paragraphFormatted_outline calls, fun n hn => ?_⟩
  rw [paragraphFormatted_outline] at hn
  have key : ∀ (calls : List ParagraphCall) (a : Option Nat), (∀ n, a = some n → n < 10) →
      ∀ n, calls.foldl (fun a c => (outlineOf? c).or a) a = some n → n < 10 := by
    intro calls
    induction calls with
    | nil => intro a h; exact h
    | cons c calls ih =>
      intro a h
      rw [List.foldl_cons]
      refine ih _ fun n hn => ?_
      cases c <;> try exact h n hn
      simp only [outlineOf?, Option.some_or, Option.some.injEq] at hn
      omega
  exact key calls none (by simp) n hn

/-- **C40, a disagreement.** The characters of a hanging or first-line indent are dropped without notice if no
indent has been set before, whatever else has. -/
theorem C40_chars_dropped (n m : Int) :
    (paragraphFormatted [.hangingChars n, .firstLineChars m]).base.indent = none ∧
    ((paragraphFormatted [.hangingChars n, .indent (some 1) none none none]).base.indent.bind fun i => i.hangingChars) = none ∧
    ((paragraphFormatted [.indent (some 1) none none none, .hangingChars n]).base.indent.bind fun i => i.hangingChars) =
      some n := ⟨rfl, rfl, rfl⟩

/-! Non-trivial histories. -/

example : shownLine (formatted [.strike, .bold, .dstrike, .disableStrike]) = some .double := by decide
example : (formatted [.size 10, .bold, .size 24, .disableBold]).szCs = some 24 ∧
    (formatted [.size 10, .bold, .size 24, .disableBold]).boldCs = some false := by decide
example : (paragraphFormatted [.outlineLvl 3, .bidi true, .outlineLvl 12]).base.outlineLvl = some 9 := by decide

end Docx.Props
