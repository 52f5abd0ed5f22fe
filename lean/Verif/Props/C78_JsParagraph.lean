import Verif.Props.C78_JsFormat

/-!
# C78: formatting of paragraphs given by a JavaScript program arrives
-/

namespace Docx.Props

open Docx Docx.Xml Docx.Spec

/-- The frame of a paragraph: none if nothing was set. -/
def frameOf (f : FrameProperty) : Option FrameProperty := if f = {} then none else some f

theorem frameOf_getD (f : FrameProperty) : (frameOf f).getD {} = f := by
  unfold frameOf
  split <;> simp_all

theorem frameOf_some {f : FrameProperty} (h : f ≠ {}) : frameOf f = some f := if_neg h

theorem frame_on (f : FrameProperty) (c : JsFrameCall) : frameOf (c.on f) = some (c.on ((frameOf f).getD {})) := by
  rw [frameOf_getD]
  exact frameOf_some (by cases c <;> (intro e; cases f; simp [JsFrameCall.on] at e))

/-- What a paragraph gets, in closed form. -/
def paragraphBase (j : JsParagraphProperty) : ParagraphBase :=
  { runProperty :=
      { sz := j.runProperty.size.filter (· ≠ 0), szCs := j.runProperty.size.filter (· ≠ 0)
        color := (truthy j.runProperty.color).map .new
        bold := litB j.runProperty.bold, boldCs := litB j.runProperty.bold
        italic := litB j.runProperty.italic, italicCs := litB j.runProperty.italic
        fonts := j.runProperty.fonts.map JsFonts.buildPlain
        del := j.runProperty.del.map fun x => .new x.1 x.2, ins := j.runProperty.ins.map fun x => .new x.1 x.2
        characterSpacing := j.runProperty.characterSpacing }
    style := j.styleId.map escapeOwned
    numberingProperty := j.numbering.map fun x => ⟨some x.1, some x.2⟩
    alignment := (j.align.bind createParagraphAlignment).map AlignmentType.toStr
    indent := j.indent.map fun x => { start := some x.1, end_ := x.2.2.2, special := createSpecialIndent x.2.1 x.2.2.1 }
    lineSpacing := j.lineSpacing
    keepNext := litB (some j.keepNext), keepLines := litB (some j.keepLines)
    pageBreakBefore := litB (some j.pageBreakBefore), widowControl := litB (some j.widowControl)
    outlineLvl := j.outlineLvl.map fun v => if v ≥ 10 then 9 else v
    tabs := j.tabs.map fun t => { t with leader := t.leader.map paragraphTabLeader }
    frameProperty := frameOf j.frame
    textAlignment := j.textAlignment, adjustRightInd := j.adjustRightInd, snapToGrid := j.snapToGrid }

theorem tabs_set (g : Tab → Tab) : ∀ (ts : List Tab) (p : ParagraphProperty),
    ts.foldl (fun p t => p.addTab (g t)) p = p.upd fun b => { b with tabs := b.tabs ++ ts.map g }
  | [], ⟨b, c⟩ => by simp [ParagraphProperty.upd]
  | t :: ts, p => by
    rw [List.foldl_cons, tabs_set g ts]
    simp [ParagraphProperty.upd, ParagraphProperty.addTab]

theorem frame_field {α : Type} (set : FrameProperty → α → FrameProperty) (put : FrameProperty → Option α → FrameProperty)
    (hs : ∀ f x, put f (some x) = set f x) (hn : ∀ f, put f none = f) (hne : ∀ f x, set f x ≠ {}) (x : Option α) (b : ParagraphBase)
    (c : Option ParagraphPropertyChange) (f : FrameProperty) (hb : b.frameProperty = frameOf f) :
    onSome x (ParagraphProperty.frame set) ⟨b, c⟩ = ⟨{ b with frameProperty := frameOf (put f x) }, c⟩ := by
  cases x with
  | none => rw [hn, ← hb]; rfl
  | some x =>
    simp only [onSome, ParagraphProperty.frame, ParagraphProperty.upd, hb, frameOf_getD, hs, frameOf_some (hne f x)]

theorem frame_set (fr : FrameProperty) (b : ParagraphBase) (c : Option ParagraphPropertyChange) (hb : b.frameProperty = none) :
    (ParagraphProperty.mk b c
    |> onSome fr.h (ParagraphProperty.frame fun f x => { f with h := some x })
    |> onSome fr.hRule (ParagraphProperty.frame fun f x => { f with hRule := some x })
    |> onSome fr.hAnchor (ParagraphProperty.frame fun f x => { f with hAnchor := some x })
    |> onSome fr.hSpace (ParagraphProperty.frame fun f x => { f with hSpace := some x })
    |> onSome fr.vAnchor (ParagraphProperty.frame fun f x => { f with vAnchor := some x })
    |> onSome fr.vSpace (ParagraphProperty.frame fun f x => { f with vSpace := some x })
    |> onSome fr.w (ParagraphProperty.frame fun f x => { f with w := some x })
    |> onSome fr.wrap (ParagraphProperty.frame fun f x => { f with wrap := some x })
    |> onSome fr.x (ParagraphProperty.frame fun f x => { f with x := some x })
    |> onSome fr.xAlign (ParagraphProperty.frame fun f x => { f with xAlign := some x })
    |> onSome fr.y (ParagraphProperty.frame fun f x => { f with y := some x })
    |> onSome fr.yAlign (ParagraphProperty.frame fun f x => { f with yAlign := some x }))
    = ⟨{ b with frameProperty := frameOf fr }, c⟩ := by
  rw [frame_field (α := Nat) (fun f x => { f with h := some x }) (fun f x => { f with h := x.or f.h }) (fun _ _ => rfl) (fun _ => rfl)
      (fun f x e => by simp at e) _ _ _ {} hb]
  rw [frame_field (α := Str) (fun f x => { f with hRule := some x }) (fun f x => { f with hRule := x.or f.hRule }) (fun _ _ => rfl) (fun _ => rfl)
      (fun f x e => by simp at e) _ _ _ _ rfl]
  rw [frame_field (α := Str) (fun f x => { f with hAnchor := some x }) (fun f x => { f with hAnchor := x.or f.hAnchor }) (fun _ _ => rfl) (fun _ => rfl)
      (fun f x e => by simp at e) _ _ _ _ rfl]
  rw [frame_field (α := Int) (fun f x => { f with hSpace := some x }) (fun f x => { f with hSpace := x.or f.hSpace }) (fun _ _ => rfl) (fun _ => rfl)
      (fun f x e => by simp at e) _ _ _ _ rfl]
  rw [frame_field (α := Str) (fun f x => { f with vAnchor := some x }) (fun f x => { f with vAnchor := x.or f.vAnchor }) (fun _ _ => rfl) (fun _ => rfl)
      (fun f x e => by simp at e) _ _ _ _ rfl]
  rw [frame_field (α := Int) (fun f x => { f with vSpace := some x }) (fun f x => { f with vSpace := x.or f.vSpace }) (fun _ _ => rfl) (fun _ => rfl)
      (fun f x e => by simp at e) _ _ _ _ rfl]
  rw [frame_field (α := Nat) (fun f x => { f with w := some x }) (fun f x => { f with w := x.or f.w }) (fun _ _ => rfl) (fun _ => rfl)
      (fun f x e => by simp at e) _ _ _ _ rfl]
  rw [frame_field (α := Str) (fun f x => { f with wrap := some x }) (fun f x => { f with wrap := x.or f.wrap }) (fun _ _ => rfl) (fun _ => rfl)
      (fun f x e => by simp at e) _ _ _ _ rfl]
  rw [frame_field (α := Int) (fun f x => { f with x := some x }) (fun f x => { f with x := x.or f.x }) (fun _ _ => rfl) (fun _ => rfl)
      (fun f x e => by simp at e) _ _ _ _ rfl]
  rw [frame_field (α := Str) (fun f x => { f with xAlign := some x }) (fun f x => { f with xAlign := x.or f.xAlign }) (fun _ _ => rfl) (fun _ => rfl)
      (fun f x e => by simp at e) _ _ _ _ rfl]
  rw [frame_field (α := Int) (fun f x => { f with y := some x }) (fun f x => { f with y := x.or f.y }) (fun _ _ => rfl) (fun _ => rfl)
      (fun f x e => by simp at e) _ _ _ _ rfl]
  rw [frame_field (α := Str) (fun f x => { f with yAlign := some x }) (fun f x => { f with yAlign := x.or f.yAlign }) (fun _ _ => rfl) (fun _ => rfl)
      (fun f x e => by simp at e) _ _ _ _ rfl]
  cases fr
  simp

theorem paragraph_set (j : JsParagraphProperty) (h : j.change = none) : finishParagraph {} j = ⟨paragraphBase j, none⟩ := by
  have a1 (x : Option AlignmentType) (b : ParagraphBase) (c) : onSome x ParagraphProperty.setAlign ⟨b, c⟩
      = ⟨{ b with alignment := (x.map AlignmentType.toStr).or b.alignment }, c⟩ := by cases x <;> rfl
  have a2 (x : Option TextAlignmentType) (b : ParagraphBase) (c) : onSome x ParagraphProperty.setTextAlignment ⟨b, c⟩
      = ⟨{ b with textAlignment := x.or b.textAlignment }, c⟩ := by cases x <;> rfl
  have a3 (x : Option Int) (b : ParagraphBase) (c) : onSome x ParagraphProperty.setAdjustRightInd ⟨b, c⟩
      = ⟨{ b with adjustRightInd := x.or b.adjustRightInd }, c⟩ := by cases x <;> rfl
  have a4 (x : Option (Int × Option SpecialIndentKind × Option Int × Option Int)) (b : ParagraphBase) (c) :
      onSome x (fun p x => ParagraphProperty.setIndent p (some x.1) (createSpecialIndent x.2.1 x.2.2.1) x.2.2.2 none) ⟨b, c⟩
      = ⟨{ b with indent := (x.map fun x =>
            { start := some x.1, end_ := x.2.2.2, special := createSpecialIndent x.2.1 x.2.2.1 }).or b.indent }, c⟩ := by cases x <;> rfl
  have a5 (x : Option (Nat × Nat)) (b : ParagraphBase) (c) : onSome x (fun p x => ParagraphProperty.setNumbering p x.1 x.2) ⟨b, c⟩
      = ⟨{ b with numberingProperty := (x.map fun x => (⟨some x.1, some x.2⟩ : NumberingProperty)).or b.numberingProperty }, c⟩ := by
    cases x <;> rfl
  have a6 (x : Option Bool) (b : ParagraphBase) (c) : onTrue x (fun p => ParagraphProperty.mark p RunProperty.setBold) ⟨b, c⟩
      = ⟨{ b with runProperty := { b.runProperty with bold := (litB x).or b.runProperty.bold, boldCs := (litB x).or b.runProperty.boldCs } }, c⟩ := by
    cases x with
    | none => rfl
    | some x => cases x <;> rfl
  have a7 (x : Option Bool) (b : ParagraphBase) (c) : onTrue x (fun p => ParagraphProperty.mark p RunProperty.setItalic) ⟨b, c⟩
      = ⟨{ b with runProperty := { b.runProperty with italic := (litB x).or b.runProperty.italic, italicCs := (litB x).or b.runProperty.italicCs } }, c⟩ := by
    cases x with
    | none => rfl
    | some x => cases x <;> rfl
  have a8 (x : Option Str) (b : ParagraphBase) (c) : onSome x (fun p x => ParagraphProperty.mark p (fun r => r.setColor x)) ⟨b, c⟩
      = ⟨{ b with runProperty := { b.runProperty with color := (x.map .new).or b.runProperty.color } }, c⟩ := by cases x <;> rfl
  have a9 (x : Option LineSpacing) (b : ParagraphBase) (c) : onSome x ParagraphProperty.setLineSpacing ⟨b, c⟩
      = ⟨{ b with lineSpacing := x.or b.lineSpacing }, c⟩ := by cases x <;> rfl
  have b1 (x : Option Nat) (b : ParagraphBase) (c) : onSome x (fun p x => ParagraphProperty.mark p (fun r => r.setSize x)) ⟨b, c⟩
      = ⟨{ b with runProperty := { b.runProperty with sz := x.or b.runProperty.sz, szCs := x.or b.runProperty.szCs } }, c⟩ := by cases x <;> rfl
  have b2 (x : Option JsFonts) (b : ParagraphBase) (c) : onSome x (fun p x => ParagraphProperty.mark p (fun r => r.setFonts x.buildPlain)) ⟨b, c⟩
      = ⟨{ b with runProperty := { b.runProperty with fonts := (x.map JsFonts.buildPlain).or b.runProperty.fonts } }, c⟩ := by cases x <;> rfl
  have b3 (x : Bool) (b : ParagraphBase) (c) : onTrue (some x) (fun p => ParagraphProperty.setKeepLines p true) ⟨b, c⟩
      = ⟨{ b with keepLines := (litB (some x)).or b.keepLines }, c⟩ := by cases x <;> rfl
  have b4 (x : Option Bool) (b : ParagraphBase) (c) : onSome x ParagraphProperty.setSnapToGrid ⟨b, c⟩
      = ⟨{ b with snapToGrid := x.or b.snapToGrid }, c⟩ := by cases x <;> rfl
  have b5 (x : Bool) (b : ParagraphBase) (c) : onTrue (some x) (fun p => ParagraphProperty.setKeepNext p true) ⟨b, c⟩
      = ⟨{ b with keepNext := (litB (some x)).or b.keepNext }, c⟩ := by cases x <;> rfl
  have b6 (x : Bool) (b : ParagraphBase) (c) : onTrue (some x) (fun p => ParagraphProperty.setPageBreakBefore p true) ⟨b, c⟩
      = ⟨{ b with pageBreakBefore := (litB (some x)).or b.pageBreakBefore }, c⟩ := by cases x <;> rfl
  have b7 (x : Bool) (b : ParagraphBase) (c) : onTrue (some x) (fun p => ParagraphProperty.setWidowControl p true) ⟨b, c⟩
      = ⟨{ b with widowControl := (litB (some x)).or b.widowControl }, c⟩ := by cases x <;> rfl
  have b8 (x : Option Nat) (b : ParagraphBase) (c) : onSome x ParagraphProperty.setOutlineLvl ⟨b, c⟩
      = ⟨{ b with outlineLvl := (x.map fun v => if v ≥ 10 then 9 else v).or b.outlineLvl }, c⟩ := by
    cases x with
    | none => rfl
    | some v =>
      simp only [onSome, ParagraphProperty.setOutlineLvl, ParagraphProperty.upd, Option.map_some, Option.some_or]
      split <;> rfl
  have d1 (x : Option Str) (b : ParagraphBase) (c) : onSome x ParagraphProperty.setStyle ⟨b, c⟩
      = ⟨{ b with style := (x.map escapeOwned).or b.style }, c⟩ := by cases x <;> rfl
  have d2 (x : Option (Str × Str)) (b : ParagraphBase) (c) : onSome x (fun p x => ParagraphProperty.mark p (fun r => r.setDelete (.new x.1 x.2))) ⟨b, c⟩
      = ⟨{ b with runProperty := { b.runProperty with del := (x.map fun x => Mark.new x.1 x.2).or b.runProperty.del } }, c⟩ := by cases x <;> rfl
  have d3 (x : Option (Str × Str)) (b : ParagraphBase) (c) : onSome x (fun p x => ParagraphProperty.mark p (fun r => r.setInsert (.new x.1 x.2))) ⟨b, c⟩
      = ⟨{ b with runProperty := { b.runProperty with ins := (x.map fun x => Mark.new x.1 x.2).or b.runProperty.ins } }, c⟩ := by cases x <;> rfl
  have d4 (x : Option Int) (b : ParagraphBase) (c) : onSome x ParagraphProperty.setCharacterSpacing ⟨b, c⟩
      = ⟨{ b with runProperty := { b.runProperty with characterSpacing := x.or b.runProperty.characterSpacing } }, c⟩ := by cases x <;> rfl
  have e : ({} : ParagraphProperty) = ⟨{}, none⟩ := rfl
  unfold finishParagraph setParagraphProperty
  rw [e]
  simp only [a1, a2, a3, a4, a5, a6, a7, a8, a9, b1, b2, b3, b4, b5, b6, b7, b8, Option.or_none, tabs_set, ParagraphProperty.upd]
  rw [frame_set _ _ _ rfl]
  simp only [d1, d2, d3, d4, h, Option.or_none, List.nil_append]
  rfl

theorem paragraph_kept (lib : ImageLib) : ∀ (cs : List JsParagraphChild) (p : Paragraph) (n : Ids),
    (jsChildren lib p cs n).1.property = p.property
  | [], p, n => by rw [jsChildren]
  | c :: cs, p, n => by rw [jsChildren, paragraph_kept lib cs]; rfl

/-- The formatting of the paragraph that is built for one with the given content and formatting methods called on it. -/
def builtParagraph (lib : ImageLib) (content : List JsParagraphChild) (calls : List JsParagraphCall) (n : Ids) : ParagraphProperty :=
  (jsParagraph lib (calls.foldl JsParagraph.call { children := content }) n).1.property

/-- The formatting the same methods of the Rust library give. -/
def wantedParagraph (calls : List JsParagraphCall) : ParagraphProperty := calls.foldl JsParagraphCall.wanted {}

/-- The properties of the JavaScript paragraph after the calls. -/
def givenParagraph (content : List JsParagraphChild) (calls : List JsParagraphCall) : JsParagraph :=
  calls.foldl JsParagraph.call { children := content }

theorem given_change (content : List JsParagraphChild) (calls : List JsParagraphCall) :
    (givenParagraph content calls).property.change = none := by
  unfold givenParagraph
  induction calls using snoc_induction with
  | h0 => rfl
  | h1 l c ih =>
    rw [List.foldl_append, List.foldl_cons, List.foldl_nil]
    generalize l.foldl JsParagraph.call { children := content } = p at ih
    cases p
    cases c <;> exact ih

theorem built_paragraph (lib : ImageLib) (content : List JsParagraphChild) (calls : List JsParagraphCall) (n : Ids) :
    builtParagraph lib content calls n = ⟨paragraphBase (givenParagraph content calls).property, none⟩ := by
  rw [← paragraph_set _ (given_change content calls)]
  show (jsParagraph lib (givenParagraph content calls) n).1.property = _
  generalize givenParagraph content calls = p
  obtain ⟨cs, pr, hn⟩ := p
  rw [jsParagraph]
  simp only [Paragraph.format, paragraph_kept]
  rfl

theorem plain_tabs {ts : List Tab} (h : ∀ t ∈ ts, t.leader ≠ some .underscore) :
    ts.map (fun t => { t with leader := t.leader.map paragraphTabLeader }) = ts := by
  induction ts with
  | nil => rfl
  | cons t ts ih =>
    rw [List.map_cons, ih fun x hx => h x (List.mem_cons_of_mem _ hx)]
    congr 1
    have := h t (by simp)
    obtain ⟨v, l, p⟩ := t
    cases l with
    | none => rfl
    | some l => cases l <;> first | rfl | exact absurd rfl this

theorem plain_fonts {f : JsFonts} (h : f.asciiTheme = none ∧ f.hiAnsiTheme = none ∧ f.csTheme = none ∧ f.eastAsiaTheme = none ∧ f.hint = none) :
    f.buildPlain = f.build := by
  obtain ⟨h1, h2, h3, h4, h5⟩ := h
  rw [fonts_build, fonts_buildPlain, h1, h2, h3, h4, h5]
  rfl

/-- **C78.** Formatting given to a paragraph arrives. Missing: the full statement is for all calls; it does not hold for those
that are excluded (`C78_fails_start`, `C78_fails_leader`, `C78_fails_off`, `C78_fails_size`, `C78_fails_hint`). -/
theorem C78_paragraph_partial (lib : ImageLib) (content : List JsParagraphChild) (calls : List JsParagraphCall) (n : Ids)
    (h : ∀ c ∈ calls, JsParagraphCall.comesThrough c) :
    builtParagraph lib content calls n = wantedParagraph calls := by
  rw [built_paragraph, givenParagraph, wantedParagraph]
  induction calls using snoc_induction with
  | h0 => rfl
  | h1 l c ih =>
    have ih := ih fun x hx => h x (List.mem_append_left _ hx)
    have hc := h c (by simp)
    rw [List.foldl_append, List.foldl_append, ← ih, List.foldl_cons, List.foldl_nil, List.foldl_cons, List.foldl_nil]
    generalize l.foldl JsParagraph.call { children := content } = p
    obtain ⟨cs, j, hn⟩ := p
    cases c with
    | tabs ts =>
      simp [JsParagraph.call, paragraphBase, JsParagraphCall.wanted, ParagraphProperty.upd]
      exact plain_tabs hc
    | align a =>
      have : createParagraphAlignment a = some a := by cases a <;> first | rfl | exact absurd rfl hc
      simp [JsParagraph.call, paragraphBase, JsParagraphCall.wanted, ParagraphProperty.setAlign, ParagraphProperty.upd, this]
    | keepNext v => cases (show v = true from hc); rfl
    | keepLines v => cases (show v = true from hc); rfl
    | pageBreakBefore v => cases (show v = true from hc); rfl
    | widowControl v => cases (show v = true from hc); rfl
    | size m =>
      have hc : m ≠ 0 := hc
      simp [JsParagraph.call, paragraphBase, JsParagraphCall.wanted, ParagraphProperty.setRunProperty, ParagraphProperty.upd,
        RunProperty.setSize, Option.filter, hc]
    | color s =>
      have hc : s ≠ [] := hc
      simp [JsParagraph.call, paragraphBase, JsParagraphCall.wanted, ParagraphProperty.setRunProperty, ParagraphProperty.upd,
        RunProperty.setColor, truthy_some hc]
    | fonts f =>
      simp [JsParagraph.call, paragraphBase, JsParagraphCall.wanted, ParagraphProperty.setRunProperty, ParagraphProperty.upd,
        RunProperty.setFonts, plain_fonts hc]
    | indent l k s r =>
      cases k with
      | none => rfl
      | some k => cases k <;> rfl
    | outlineLevel v =>
      simp only [JsParagraph.call, paragraphBase, JsParagraphCall.wanted, ParagraphProperty.setOutlineLvl, ParagraphProperty.upd, Option.map_some]
      split <;> rfl
    | frame c =>
      simp [JsParagraph.call, paragraphBase, JsParagraphCall.wanted, JsFrameCall.wanted, ParagraphProperty.setFrameProperty,
        ParagraphProperty.upd, frame_on]
    | _ => rfl

example : ∃ calls : List JsParagraphCall, (∀ c ∈ calls, JsParagraphCall.comesThrough c) ∧
    (wantedParagraph calls).base =
      { alignment := some c!"center", keepNext := some true, style := some c!"Heading1", outlineLvl := some 9
        runProperty := { bold := some true, boldCs := some true, ins := some ⟨c!"a&amp;b", c!"2024"⟩ }
        tabs := [⟨some .left, some .dot, some 100⟩]
        frameProperty := some { h := some 3, x := some (-1) } } := by
  refine ⟨[.align .left, .keepNext true, .style c!"Heading1", .frame (.h 3), .bold, .insert c!"a&b" c!"2024",
    .tabs [⟨some .left, some .dot, some 100⟩], .frame (.x (-1)), .outlineLevel 12, .align .center], ?_, ?_⟩
  · intro c hc
    simp only [List.mem_cons, List.not_mem_nil, or_false] at hc
    rcases hc with h | h | h | h | h | h | h | h | h | h <;> subst h <;> simp [JsParagraphCall.comesThrough]
  · decide +kernel

theorem given_snoc (content : List JsParagraphChild) (calls : List JsParagraphCall) (c : JsParagraphCall) :
    givenParagraph content (calls ++ [c]) = (givenParagraph content calls).call c := by
  rw [givenParagraph, List.foldl_append]; rfl

theorem wanted_snoc (calls : List JsParagraphCall) (c : JsParagraphCall) :
    wantedParagraph (calls ++ [c]) = JsParagraphCall.wanted (wantedParagraph calls) c := by
  rw [wantedParagraph, List.foldl_append]; rfl

/-- **C78 fails** for the alignment `start`: none arrives. -/
theorem C78_fails_start (lib : ImageLib) (content : List JsParagraphChild) (calls : List JsParagraphCall) (n : Ids) :
    (builtParagraph lib content (calls ++ [.align .start]) n).base.alignment = none ∧
    (wantedParagraph (calls ++ [.align .start])).base.alignment = some c!"start" := by
  rw [built_paragraph, given_snoc, wanted_snoc]
  generalize givenParagraph content calls = p
  cases p
  exact ⟨rfl, rfl⟩

/-- **C78 fails** for tabs led by underscores: they arrive without a leader. -/
theorem C78_fails_leader (lib : ImageLib) (content : List JsParagraphChild) (calls : List JsParagraphCall) (n : Ids) (v : Option TabValueType)
    (pos : Option Nat) :
    (builtParagraph lib content (calls ++ [.tabs [⟨v, some .underscore, pos⟩]]) n).base.tabs = [⟨v, some .none_, pos⟩] ∧
    (wantedParagraph (calls ++ [.tabs [⟨v, some .underscore, pos⟩]])).base.tabs = [⟨v, some .underscore, pos⟩] := by
  rw [built_paragraph, given_snoc, wanted_snoc]
  generalize givenParagraph content calls = p
  cases p
  exact ⟨rfl, rfl⟩

/-- **C78 fails** for turning off what a style turns on: the same goes for `keepLines`, `pageBreakBefore` and `widowControl`. -/
theorem C78_fails_off (lib : ImageLib) (content : List JsParagraphChild) (calls : List JsParagraphCall) (n : Ids) :
    (builtParagraph lib content (calls ++ [.keepNext false]) n).base.keepNext = none ∧
    (wantedParagraph (calls ++ [.keepNext false])).base.keepNext = some false ∧
    (builtParagraph lib content (calls ++ [.widowControl false]) n).base.widowControl = none ∧
    (wantedParagraph (calls ++ [.widowControl false])).base.widowControl = some false := by
  rw [built_paragraph, built_paragraph, given_snoc, given_snoc, wanted_snoc, wanted_snoc]
  generalize givenParagraph content calls = p
  cases p
  exact ⟨rfl, rfl, rfl, rfl⟩

/-- **C78 fails** for the size 0 of a paragraph mark: none arrives. -/
theorem C78_fails_size (lib : ImageLib) (content : List JsParagraphChild) (calls : List JsParagraphCall) (n : Ids) :
    (builtParagraph lib content (calls ++ [.size 0]) n).base.runProperty.sz = none ∧
    (wantedParagraph (calls ++ [.size 0])).base.runProperty.sz = some 0 := by
  rw [built_paragraph, given_snoc, wanted_snoc]
  generalize givenParagraph content calls = p
  cases p
  exact ⟨rfl, rfl⟩

/-- **C78 fails** for themes and the hint among the fonts of a paragraph mark: none arrives, whatever the fonts are. -/
theorem C78_fails_hint (lib : ImageLib) (content : List JsParagraphChild) (calls : List JsParagraphCall) (n : Ids) (f : JsFonts)
    (h : Str) (hh : h ≠ []) (hf : f.hint = some h) :
    ((builtParagraph lib content (calls ++ [.fonts f]) n).base.runProperty.fonts.bind (·.hint)) = none ∧
    ((wantedParagraph (calls ++ [.fonts f])).base.runProperty.fonts.bind (·.hint)) = some (escapeOwned h) := by
  rw [built_paragraph, given_snoc, wanted_snoc]
  generalize givenParagraph content calls = p
  obtain ⟨cs, j, hn⟩ := p
  refine ⟨?_, ?_⟩
  · show f.buildPlain.hint = none
    rw [fonts_buildPlain]
  · show f.build.hint = _
    rw [fonts_build, hf, truthy_some hh]
    rfl

end Docx.Props
