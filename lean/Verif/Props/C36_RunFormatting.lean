import Verif.Lemmas.ReadRunProps
import Verif.Lemmas.PartReads
import Verif.Lemmas.Entries
import Verif.Lemmas.BuildTotal
import Verif.Props.C07_C08_Strings
import Verif.Props.C40_Setters
import Verif.Spec.Kept

/-!
# C36: run formatting written and read
-/

namespace Docx

open Docx.Xml Docx.Spec

variable {x : ReadEnv}

/-- Run formatting as it is read back. -/
def RunProperty.reread (p : RunProperty) : RunProperty where
  style := p.style.map again
  sz := p.sz.map floatSize
  szCs := p.sz.map floatSize
  color := p.color.map Color.reread
  highlight := p.highlight.map seen
  vertAlign := p.vertAlign
  underline := p.underline.map seen
  bold := p.bold
  boldCs := p.bold
  caps := p.caps
  italic := p.italic
  italicCs := p.italic
  vanish := p.vanish
  specVanish := p.specVanish
  characterSpacing := p.characterSpacing.map floatI32
  fitText := p.fitText
  stretch := none
  fonts := p.fonts.map RunFonts.reread
  textBorder := p.textBorder.map TextBorder.reread
  del := p.del.map Mark.reread
  ins := p.ins.map Mark.reread
  strike := putOut p.dstrike p.strike
  dstrike := p.dstrike
  positionalTab := p.positionalTab.map PositionalTab.reread
  shading := p.shading.map Shading.reread

/-- Strings that can be attribute values, and numbers in the range of their types. -/
def RunProperty.Readable (p : RunProperty) : Prop :=
  (∀ s ∈ p.strings, (decodeAttr s).isSome) ∧ ∀ f, p.fitText = some f → f.Fits

theorem returns_runProperty (p : RunProperty) (h : p.Readable) {g g' : Gen} {f : List Node}
    (e : p.nodes g = some (f, g')) :
    ∃ body, f = [.elem c!"w:rPr" [] body] ∧ Returns x (readRunProperty x) c!"w:rPr" body p.reread := by
  obtain ⟨body, hb, rfl⟩ := elemN_eq e
  refine ⟨body, rfl, ?_⟩
  obtain ⟨hs, hf⟩ := h
  have m : ∀ s, s ∈ p.strings → (decodeAttr s).isSome := hs
  have h1 : OptDecodes p.style := optDecodes_mem m (by simp [RunProperty.strings]; grind)
  have h2 : OptDecodes p.highlight := optDecodes_mem m (by simp [RunProperty.strings]; grind)
  have h3 : OptDecodes p.underline := optDecodes_mem m (by simp [RunProperty.strings]; grind)
  have h4 : ∀ c, p.color = some c → ∀ s ∈ c.strings, (decodeAttr s).isSome := fun c e s hs =>
    m s (by simp [RunProperty.strings, e, optStrings, hs])
  have h5 : ∀ c, p.fonts = some c → ∀ s ∈ c.strings, (decodeAttr s).isSome := fun c e s hs =>
    m s (by simp [RunProperty.strings, e, optStrings, hs])
  have h6 : ∀ c, p.textBorder = some c → (decodeAttr c.color).isSome := fun c e =>
    m _ (by simp [RunProperty.strings, e, optStrings, TextBorder.strings])
  have h7 : ∀ c, p.ins = some c → ∀ s ∈ c.strings, (decodeAttr s).isSome := fun c e s hs =>
    m s (by simp [RunProperty.strings, e, optStrings, hs])
  have h8 : ∀ c, p.del = some c → ∀ s ∈ c.strings, (decodeAttr s).isSome := fun c e s hs =>
    m s (by simp [RunProperty.strings, e, optStrings, hs])
  have h9 : ∀ c, p.shading = some c → ∀ s ∈ c.strings, (decodeAttr s).isSome := fun c e s hs =>
    m s (by simp [RunProperty.strings, e, optStrings, hs])
  have key := (takes_sz (x := x) p.sz).cat_cons <| (takes_szCs p.szCs).cat_cons <| (takes_color p.color h4).cat_cons <|
    (takes_bold p.bold).cat_cons <| (takes_boldCs p.boldCs).cat_cons <| (takes_caps p.caps).cat_cons <|
    (takes_italic p.italic).cat_cons <| (takes_italicCs p.italicCs).cat_cons <| (takes_strike p.strike).cat_cons <|
    (takes_dstrike p.dstrike).cat_cons <| (takes_highlight p.highlight h2).cat_cons <|
    (takes_underline p.underline h3).cat_cons <| (takes_vanish p.vanish).cat_cons <|
    (takes_specVanish p.specVanish).cat_cons <| (takes_fonts p.fonts h5).cat_cons <|
    (takes_textBorder p.textBorder h6).cat_cons <| (takes_ins p.ins h7).cat_cons <| (takes_del p.del h8).cat_cons <|
    (takes_vertAlign p.vertAlign).cat_cons <| (takes_spacing p.characterSpacing).cat_cons <|
    (takes_fitText p.fitText hf).cat_cons <| (takes_stretch p.stretch).cat_cons <| (takes_style p.style h1).cat_cons <|
    (takes_ptab p.positionalTab).cat_cons <| (takes_shading p.shading h9).cat_cons .cat_nil
  have hk := key _ _ _ hb {}
  refine Returns.mono (Returns.loop hk (fun d => by simp [-String.reduceToList, runPropertyLoop, closesAt])) ?_
  simp only [Function.comp_apply, id_eq, Option.or_none, RunProperty.reread]
  congr 1
  simp [putOut]

/-! ## What is kept -/

theorem Spec.PlainValue.seen {s : Str} (h : PlainValue s) : seen s = s := by
  simp [Docx.seen, decodeAttr_plain h]

theorem attrValue_kept {t : Str} (h : KeptText t) : Props.attrValue t = t := by
  have h1 : t.filter (· ≠ '\r') = t := List.filter_eq_self.2 fun c hc => by
    simp only [decide_eq_true_eq]; rintro rfl; exact h.2 hc
  unfold Props.attrValue
  rw [h1]
  conv => rhs; rw [← List.map_id t]
  refine List.map_congr_left fun c hc => ?_
  rw [if_neg]; rfl
  rintro rfl; exact h.1 hc

theorem Spec.EscapedFrom.again {s : Str} (h : EscapedFrom s) : again s = s := by
  obtain ⟨t, ht, rfl⟩ := h
  simp [Docx.again, Docx.seen, Props.escapeOwned_attr, attrValue_kept ht]

theorem Spec.EscapedFrom.stored {s : Str} (h : EscapedFrom s) : Stored s := by
  obtain ⟨t, _, rfl⟩ := h; exact Props.escapeOwned_stored t

theorem map_kept {α : Type} {f : α → α} {o : Option α} (h : ∀ a, o = some a → f a = a) : o.map f = o := by
  cases o with
  | none => rfl
  | some a => simp [h a rfl]

theorem themeColor_plain (k : ThemeColor) : PlainValue k.toStr := by
  have : plainB k.toStr = true := by cases k <;> decide +kernel
  exact plain_lit this

theorem Spec.RunProperty.Kept.reread {p : RunProperty} (h : RunProperty.Kept p) : p.reread = p := by
  have e1 : p.style.map again = p.style := map_kept fun s e => (h.style s e).again
  have e2 : p.sz.map floatSize = p.sz := map_kept fun n e => toUsize_small (h.size n e)
  have e3 : p.color.map Color.reread = p.color := map_kept fun c e => by
    obtain ⟨a, b, c', d⟩ := h.color c e
    obtain ⟨v, tc, ts, tt⟩ := c
    simp only [Color.reread, PlainValue.seen a, Color.mk.injEq, true_and]
    refine ⟨?_, map_kept fun t e => (c' t e).seen, map_kept fun t e => (d t e).seen⟩
    cases tc with
    | none => rfl
    | some t =>
      obtain ⟨k, rfl⟩ := b t rfl
      simp [(themeColor_plain k).seen, Props.C31_ThemeColor]
  have e4 : p.highlight.map seen = p.highlight := map_kept fun s e => (h.highlight s e).seen
  have e5 : p.underline.map seen = p.underline := map_kept fun s e => (h.underline s e).seen
  have e6 : p.characterSpacing.map floatI32 = p.characterSpacing := map_kept fun i e => toI32_small (h.spacing i e)
  have e7 : p.fonts.map RunFonts.reread = p.fonts := map_kept fun f e => by
    have hf := h.fonts f e
    have m : ∀ o : Option Str, (∀ s ∈ optS o, s ∈ f.strings) → o.map again = o := fun o ho =>
      map_kept fun s e => (hf s (ho s (by simp [e, optS]))).again
    obtain ⟨f1, f2, f3, f4, f5, f6, f7, f8, f9⟩ := f
    simp only [RunFonts.reread, RunFonts.mk.injEq]
    refine ⟨m _ ?_, m _ ?_, m _ ?_, m _ ?_, m _ ?_, m _ ?_, m _ ?_, m _ ?_, m _ ?_⟩ <;>
      (simp [RunFonts.strings]; grind)
  have e8 : p.textBorder.map TextBorder.reread = p.textBorder := map_kept fun b e => by
    obtain ⟨h1, h2, h3⟩ := h.textBorder b e
    obtain ⟨t, s, c, sp⟩ := b
    simp only at h1 h2 h3
    simp only [TextBorder.reread, PlainValue.seen h3, floatU32, toU32_small h1, h2]
  have em : ∀ m : Mark, EscapedFrom m.author ∧ PlainValue m.date → m.reread = m := fun m hm => by
    simp [Mark.reread, hm.1.again, hm.2.seen]
  have e9 : p.ins.map Mark.reread = p.ins := map_kept fun m e => em m (h.ins m e)
  have e10 : p.del.map Mark.reread = p.del := map_kept fun m e => em m (h.del m e)
  have e11 : p.positionalTab.map PositionalTab.reread = p.positionalTab := map_kept fun t e => by
    simp [PositionalTab.reread, ← h.positionalTab t e]
  have e12 : p.shading.map Shading.reread = p.shading := map_kept fun s e => by
    simp [Shading.reread, (h.shading s e).1.seen, (h.shading s e).2.seen]
  have e13 : putOut p.dstrike p.strike = p.strike := by
    unfold putOut
    split
    · rename_i hd; exact (h.strike hd).symm
    · rfl
  have f1 := h.sizeCs
  have f2 := h.boldCs
  have f3 := h.italicCs
  have f4 := h.stretch
  clear h em
  unfold RunProperty.reread
  rw [e1, e2, e3, e4, e5, e6, e7, e8, e9, e10, e11, e12, e13]
  clear e1 e2 e3 e4 e5 e6 e7 e8 e9 e10 e11 e12 e13
  cases p
  simp only at f1 f2 f3 f4
  subst f1 f2 f3 f4
  rfl

theorem Spec.RunProperty.Kept.strings {p : RunProperty} (h : RunProperty.Kept p) : AllS p.strings := by
  intro s hs
  simp only [RunProperty.strings, List.mem_append] at hs
  have po : ∀ {o : Option Str} {P : Str → Prop}, s ∈ optS o → (∀ t, o = some t → P t) → P s := fun ho hp => by
    simp only [optS, Option.mem_toList] at ho; exact hp s ho
  have pl : ∀ {t : Str}, PlainValue t → Stored t := fun h => stored_of_plain h
  have so : ∀ {α : Type} {o : Option α} {f : α → List Str}, s ∈ optStrings o f → ∃ a, o = some a ∧ s ∈ f a := fun {α o f} ho => by
    cases o with
    | none => simp [optStrings] at ho
    | some a => exact ⟨a, rfl, ho⟩
  rcases hs with (((((((hs | hs) | hs) | hs) | hs) | hs) | hs) | hs) | hs
  · exact (po hs h.style).stored
  · obtain ⟨c, e, hc⟩ := so hs
    obtain ⟨a, b, c', d⟩ := h.color c e
    simp only [Color.strings, List.mem_append, List.mem_cons, List.not_mem_nil, or_false] at hc
    have pt : ∀ t, c.themeColor = some t → PlainValue t := fun t e => by
      obtain ⟨k, rfl⟩ := b t e; exact themeColor_plain k
    rcases hc with rfl | (hc | hc) | hc
    · exact pl a
    · exact pl (po hc pt)
    · exact pl (po hc c')
    · exact pl (po hc d)
  · exact pl (po hs h.highlight)
  · exact pl (po hs h.underline)
  · obtain ⟨f, e, hf⟩ := so hs
    exact (h.fonts f e s hf).stored
  · obtain ⟨b, e, hb⟩ := so hs
    simp only [TextBorder.strings, List.mem_singleton] at hb
    exact hb ▸ pl (h.textBorder b e).2.2
  · obtain ⟨b, e, hb⟩ := so hs
    simp only [Mark.strings, List.mem_cons, List.not_mem_nil, or_false] at hb
    rcases hb with rfl | rfl
    · exact (h.del b e).1.stored
    · exact pl (h.del b e).2
  · obtain ⟨b, e, hb⟩ := so hs
    simp only [Mark.strings, List.mem_cons, List.not_mem_nil, or_false] at hb
    rcases hb with rfl | rfl
    · exact (h.ins b e).1.stored
    · exact pl (h.ins b e).2
  · obtain ⟨b, e, hb⟩ := so hs
    simp only [Shading.strings, List.mem_cons, List.not_mem_nil, or_false] at hb
    rcases hb with rfl | rfl
    · exact pl (h.shading b e).1
    · exact pl (h.shading b e).2

namespace Props

/-- What a reader of run formatting makes of the text written for `p`: it is `q`, for all large enough
numbers of steps. -/
def ReadsBackAs (x : ReadEnv) (p q : RunProperty) : Prop :=
  ∀ g, ∃ out g' es, buildElement p.build g = some (.ok out, g') ∧
    readEvents out = .start (w c!"rPr") [] :: es ∧
    ∃ k, ∀ d, k ≤ d → readRunProperty x (readers x d) es = .ok q [.endDocument]

/-- **C36.** What is read from the written form of any run formatting whose strings can be written. -/
theorem C36_read_back (x : ReadEnv) (p : RunProperty) (hs : AllS p.strings)
    (hf : ∀ f, p.fitText = some f → f.val < 2 ^ 64 ∧ ∀ i, f.id = some i → i < 2 ^ 32) :
    ReadsBackAs x p p.reread := by
  intro g
  obtain ⟨f, g', e⟩ : ∃ f g', p.nodes g = some (f, g') := by
    obtain ⟨r, hr⟩ := Option.isSome_iff_exists.1 (p.total g)
    exact ⟨r.1, r.2, hr⟩
  obtain ⟨body, rfl, hr⟩ := returns_runProperty (x := x) p ⟨fun s h => (hs s h).2.1, hf⟩ e
  have hb := buildElement_ok e
  obtain ⟨f', h1, h2, h3⟩ := buildElement_reads (RunProperty.ok p hs) hb
  rw [RunProperty_build_flat] at hb
  rw [e] at h1
  simp only [Option.some.injEq, Prod.mk.injEq, and_true] at h1
  subst h1
  refine ⟨_, g', expect [c!"w:rPr"] none (tagsForest body ++ [.cls]), hb, ?_, ?_⟩
  · have := expect_elem [] c!"w:rPr" [] body []
    rw [List.append_nil] at this
    rw [h3, this]; simp only [split_w_rPr, expectAttrs_nil]
  · obtain ⟨k, hk⟩ := hr [] []
    exact ⟨k, fun d hd => hk d hd⟩

/-- **C36.** Run formatting is read back as it was, for every combination of properties within the limits of
`RunProperty.Kept`. Missing from the full property: character scaling, the space of a text border, what a
positional tab is relative to, single strike disabled beside double strike, sizes above `2 ^ 53`, and tabs and
carriage returns in strings, which are not read back (`C36_fails_…`). -/
theorem C36_kept_partial (x : ReadEnv) (p : RunProperty) (h : RunProperty.Kept p) : ReadsBackAs x p p := by
  have := C36_read_back x p h.strings h.fitText
  rwa [h.reread] at this

/-- A formatting call that is kept. -/
def KeptCall : RunCall → Prop
  | .style s => KeptText s
  | .size n => n ≤ 2 ^ 53
  | .spacing n | .characterSpacing n => -(2 ^ 31) ≤ n ∧ n < 2 ^ 31
  | .color s | .themeShade s | .themeTint s | .highlight s | .underline s => PlainValue s
  | .fonts f => ∀ s ∈ f.strings, EscapedFrom s
  | .fitText n id => n < 2 ^ 64 ∧ ∀ i, id = some i → i < 2 ^ 32
  | .textBorder b => b.size < 2 ^ 32 ∧ b.space = 0 ∧ PlainValue b.color
  | .delete a d | .insert a d => KeptText a ∧ PlainValue d
  | .ptab t => t.relativeTo = .margin
  | .shading s => PlainValue s.color ∧ PlainValue s.fill
  | .disableStrike | .stretch _ => False
  | .themeColor _ | .vertAlign _ | .bold | .disableBold | .caps | .italic | .disableItalic | .strike | .dstrike
  | .disableDstrike | .vanish | .specVanish => True

theorem kept_empty : RunProperty.Kept {} := by constructor <;> simp

theorem plain_auto : PlainValue c!"auto" := plain_lit (by decide)

theorem kept_apply {p : RunProperty} (h : RunProperty.Kept p) (c : RunCall) (hc : KeptCall c) :
    RunProperty.Kept (RunCall.apply p c) := by
  have col : ∀ k : Color, p.color = some k ∨ k = { val := c!"auto" } →
      PlainValue k.val ∧ (∀ t, k.themeColor = some t → ∃ k : ThemeColor, t = k.toStr) ∧
      (∀ t, k.themeShade = some t → PlainValue t) ∧ ∀ t, k.themeTint = some t → PlainValue t := by
    rintro k (hk | rfl)
    · exact h.color k hk
    · exact ⟨plain_auto, by simp, by simp, by simp⟩
  have colD : p.color = some (p.color.getD { val := c!"auto" }) ∨ p.color.getD { val := c!"auto" } = { val := c!"auto" } := by
    cases p.color <;> simp
  have colD := col _ colD
  obtain ⟨i1, i2, i3, i4, i5, i6, i7, i8, i9, i10, i11, i12, i13, i14, i15, i16, i17, i18⟩ := h
  cases c <;> simp only [KeptCall] at hc <;>
    (constructor <;> first
      | assumption
      | rfl
      | (simp only [RunCall.apply, RunProperty.setStyle, RunProperty.setSize, RunProperty.setSpacing, RunProperty.setColor,
          RunProperty.setThemeColor, RunProperty.setThemeShade, RunProperty.setThemeTint, RunProperty.setHighlight,
          RunProperty.setVertAlign, RunProperty.setBold, RunProperty.disableBold, RunProperty.setCaps,
          RunProperty.setItalic, RunProperty.disableItalic, RunProperty.setStrike, RunProperty.setDstrike,
          RunProperty.disableDstrike, RunProperty.setUnderline, RunProperty.setVanish, RunProperty.setSpecVanish,
          RunProperty.setFonts, RunProperty.setCharacterSpacing, RunProperty.setFitText, RunProperty.setTextBorder,
          RunProperty.setDelete, RunProperty.setInsert, RunProperty.setPtab, RunProperty.setShading, Option.some.injEq,
          forall_eq', Mark.new, Color.new, Color.setThemeColor, Color.setThemeShade, Color.setThemeTint]
         first
          | assumption
          | exact ⟨_, hc, rfl⟩
          | exact ⟨⟨_, hc.1, rfl⟩, hc.2⟩
          | exact ⟨hc, by simp, by simp, by simp⟩
          | exact ⟨colD.1, fun t e => ⟨_, (Option.some.inj e).symm⟩, colD.2.2⟩
          | exact ⟨colD.1, fun t e => ⟨_, e.symm⟩, colD.2.2⟩
          | exact ⟨colD.1, ⟨_, rfl⟩, colD.2.2⟩
          | exact ⟨colD.1, colD.2.1, hc, colD.2.2.2⟩
          | exact ⟨colD.1, colD.2.1, colD.2.2.1, hc⟩
          | exact ⟨colD.1, colD.2.1, fun t e => e ▸ hc, colD.2.2.2⟩
          | exact ⟨colD.1, colD.2.1, colD.2.2.1, fun t e => e ▸ hc⟩
          | simp
          | simpa using i9))

/-- **C36.** After every history of formatting calls within the limits, what is written is read back as it was. -/
theorem C36_calls_partial (x : ReadEnv) (calls : List RunCall) (h : ∀ c ∈ calls, KeptCall c) :
    ReadsBackAs x (formatted calls) (formatted calls) := by
  refine C36_kept_partial x _ ?_
  have key : ∀ (l : List RunCall) (p : RunProperty), (∀ c ∈ l, KeptCall c) → RunProperty.Kept p →
      RunProperty.Kept (l.foldl RunCall.apply p) := by
    intro l
    induction l with
    | nil => intro p _ h; exact h
    | cons c l ih =>
      intro p hl hp
      exact ih _ (fun d hd => hl d (List.mem_cons_of_mem _ hd)) (kept_apply hp c (hl c (by simp)))
  exact key calls {} h kept_empty

/-- What is read back is one thing only. -/
theorem readsBackAs_unique {x : ReadEnv} {p q q' : RunProperty} (h : ReadsBackAs x p q) (h' : ReadsBackAs x p q') : q = q' := by
  obtain ⟨out, g1, es, h1, h2, k, h3⟩ := h {}
  obtain ⟨out', g1', es', h1', h2', k', h3'⟩ := h' {}
  rw [h1] at h1'
  simp only [Option.some.injEq, Prod.mk.injEq, Except.ok.injEq] at h1'
  obtain ⟨rfl, _⟩ := h1'
  rw [h2] at h2'
  simp only [List.cons.injEq, true_and] at h2'
  subst h2'
  have a := h3 (max k k') (by omega)
  have b := h3' (max k k') (by omega)
  rw [a] at b
  simpa using b

theorem fails_of {x : ReadEnv} {p : RunProperty} (hs : AllS p.strings)
    (hf : ∀ f, p.fitText = some f → f.val < 2 ^ 64 ∧ ∀ i, f.id = some i → i < 2 ^ 32) (h : p.reread ≠ p) :
    ¬ ReadsBackAs x p p := fun hr => h (readsBackAs_unique (C36_read_back x p hs hf) hr)

/-- **C36 fails** for character scaling: whatever else is set, it is never read back. -/
theorem C36_fails_stretch (x : ReadEnv) (p : RunProperty) (hs : AllS p.strings)
    (hf : ∀ f, p.fitText = some f → f.val < 2 ^ 64 ∧ ∀ i, f.id = some i → i < 2 ^ 32) (n : Int) :
    ¬ ReadsBackAs x (p.setStretch n) (p.setStretch n) :=
  fails_of (p := p.setStretch n) hs hf fun h => by
    have := congrArg RunProperty.stretch h
    simp [RunProperty.reread, RunProperty.setStretch] at this

/-- **C36 fails** for the space of a text border. -/
theorem C36_fails_border_space (x : ReadEnv) (n : Nat) (hn : n ≠ 0) :
    ¬ ReadsBackAs x (({} : RunProperty).setTextBorder { space := n }) (({} : RunProperty).setTextBorder { space := n }) :=
  fails_of (fun s hs => by
    simp only [RunProperty.strings, RunProperty.setTextBorder, optS, optStrings, TextBorder.strings, Option.toList,
      List.nil_append, List.append_nil, List.mem_singleton] at hs
    exact hs ▸ stored_of_plain plain_auto) (by simp [RunProperty.setTextBorder]) fun h => by
    have := congrArg RunProperty.textBorder h
    simp [RunProperty.reread, RunProperty.setTextBorder, TextBorder.reread] at this
    exact hn this.2.2.symm

/-- **C36 fails** for what a positional tab is relative to. -/
theorem C36_fails_ptab (x : ReadEnv) (t : PositionalTab) (ht : t.relativeTo ≠ .margin) :
    ¬ ReadsBackAs x (({} : RunProperty).setPtab t) (({} : RunProperty).setPtab t) :=
  fails_of (fun s hs => by simp [RunProperty.strings, RunProperty.setPtab, optS, optStrings] at hs)
    (by simp [RunProperty.setPtab]) fun h => by
    have := congrArg (fun p => p.positionalTab.map PositionalTab.relativeTo) h
    simp [RunProperty.reread, RunProperty.setPtab, PositionalTab.reread] at this
    exact ht this.symm

/-- **C36 fails** when double strike is on and single strike is disabled: that it was disabled is lost. -/
theorem C36_fails_strike (x : ReadEnv) :
    ¬ ReadsBackAs x (({} : RunProperty).setDstrike.disableStrike) (({} : RunProperty).setDstrike.disableStrike) :=
  fails_of (fun s hs => by
      simp [RunProperty.strings, RunProperty.setDstrike, RunProperty.disableStrike, optS, optStrings] at hs)
    (by simp [RunProperty.setDstrike, RunProperty.disableStrike]) fun h => by
    have := congrArg RunProperty.strike h
    simp [RunProperty.reread, RunProperty.setDstrike, RunProperty.disableStrike, putOut] at this

/-- **C36 fails** for sizes that no float holds: the first is `2 ^ 53 + 1`. -/
theorem C36_fails_size (x : ReadEnv) :
    ¬ ReadsBackAs x (({} : RunProperty).setSize (2 ^ 53 + 1)) (({} : RunProperty).setSize (2 ^ 53 + 1)) :=
  fails_of (fun s hs => by simp [RunProperty.strings, RunProperty.setSize, optS, optStrings] at hs)
    (by simp [RunProperty.setSize]) fun h => by
    have := congrArg RunProperty.sz h
    revert this
    decide +kernel

/-- **C36 fails** for a tab in a style id: it is read back as a space. -/
theorem C36_fails_tab (x : ReadEnv) :
    ¬ ReadsBackAs x (({} : RunProperty).setStyle ['\t']) (({} : RunProperty).setStyle ['\t']) :=
  fails_of (fun s hs => by
      simp only [RunProperty.strings, RunProperty.setStyle, optS, optStrings, Option.toList, List.append_nil,
        List.mem_singleton] at hs
      exact hs ▸ escapeOwned_stored _)
    (by simp [RunProperty.setStyle]) fun h => by
    have := congrArg RunProperty.style h
    revert this
    decide +kernel

/-- The hypotheses are met: formatting with many properties, and strings with special characters. -/
example (x : ReadEnv) : ReadsBackAs x
    (formatted [.style c!"A & B \"<1>\"", .size 24, .color c!"FF0000", .themeColor .accent1, .bold, .disableItalic, .dstrike,
      .underline c!"single", .spacing (-20), .insert c!"O'Neil & co" c!"2020-01-01T00:00:00Z", .shading {}, .fitText 840 (some 7)])
    (formatted [.style c!"A & B \"<1>\"", .size 24, .color c!"FF0000", .themeColor .accent1, .bold, .disableItalic, .dstrike,
      .underline c!"single", .spacing (-20), .insert c!"O'Neil & co" c!"2020-01-01T00:00:00Z", .shading {}, .fitText 840 (some 7)]) := by
  refine C36_calls_partial x _ ?_
  simp only [List.mem_cons, List.not_mem_nil, or_false, forall_eq_or_imp, forall_eq, KeptCall, KeptText]
  refine ⟨by decide, by decide, plain_lit (by decide), trivial, trivial, trivial, trivial, plain_lit (by decide), by decide,
    ⟨by decide, plain_lit (by decide)⟩, ⟨plain_lit (by decide), plain_lit (by decide)⟩, by decide, ?_⟩
  rintro i ⟨⟩; decide

end Props

end Docx
