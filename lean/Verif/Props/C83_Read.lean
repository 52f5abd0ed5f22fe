import Verif.Props.C83_JsStyles
import Verif.Props.C55_Toc
import Verif.Spec.JsStyleKept

/-!
# C83: styles made in JavaScript are found in the file
-/

namespace Docx.Props

open Docx.Spec

variable (lib : ImageLib)

/-! ## Formatting of tables in other styles is not written -/

theorem ownFormat_build (s : Style) : (ownFormat s).build = s.build := by
  unfold ownFormat
  split
  · rfl
  · rename_i h
    unfold Style.build
    simp only [h, decide_false]
    rfl

theorem ownFormat_seen (s : Style) : styleSeen (ownFormat s) = styleSeen s := by
  unfold ownFormat
  split
  · rfl
  · rename_i h
    simp only [styleSeen, h, if_false]

theorem ownFormat_styles (l : List Style) : eachB Style.build (l.map ownFormat) = eachB Style.build l := by
  induction l with
  | nil => rfl
  | cons s l ih => simp only [List.map_cons, eachB, ownFormat_build, ih]

theorem read_own (x : ReadEnv) (s : Styles) (h : Styles.Kept { s with styles := s.styles.map ownFormat }) : StylesReadAs x s (stylesSeen s) := by
  have e : Styles.build { s with styles := s.styles.map ownFormat } = s.build := by simp only [Styles.build, ownFormat_styles]
  have := C55_read x _ h
  unfold StylesReadAs at this ⊢
  rw [e] at this
  have e2 : stylesSeen { s with styles := s.styles.map ownFormat } = stylesSeen s := by
    simp only [stylesSeen, List.map_map]
    congr 2
    exact List.map_congr_left fun t _ => ownFormat_seen t
  rwa [e2] at this

/-- The styles of the entry `word/styles.xml` of any packed document begin with the standing style and those of the document. -/
theorem package_own (x : ReadEnv) (d : DocxFile) (env : Env) (w : World) (es : List Entry) (h : Packed env d w es)
    (hk : Styles.Kept { d.styles with styles := d.styles.styles.map ownFormat }) :
    ∃ s, ⟨c!"word/styles.xml", .text s⟩ ∈ es ∧ ∃ r, (∃ k, ∀ n, k ≤ n → readStyles x n s = .ok r [.endDocument]) ∧
      ∃ more, r.styles = standardStyle :: d.styles.styles.map styleSeen ++ more ∧
        ((∀ t, .toc t ∉ d.document.children) → more = []) := by
  obtain ⟨s, g, g', h1, h2⟩ := fits_write (packed_fits h) (step_styles _ _ _)
  unfold DocxFile.stylesPart at h1
  rw [preparePackage_styles] at h1
  cases hn : hasToc d.document.children with
  | false =>
    rw [hn] at h1
    obtain ⟨out, g'', e, hr⟩ := read_own x d.styles hk g
    simp only [Bool.false_eq_true, if_false] at h1
    rw [h1] at e
    simp only [Option.some.injEq, Prod.mk.injEq, Except.ok.injEq] at e
    exact ⟨s, h2, _, by rw [e.1]; exact hr, [], by simp [stylesSeen], fun _ => rfl⟩
  | true =>
    rw [hn, if_pos rfl, addTocStyles_eq] at h1
    have hk' : Styles.Kept { d.styles with styles := (d.styles.styles ++ (Spec.levelsMissing d.styles.styles).map tocStyle).map ownFormat } := by
      obtain ⟨k1, k2, k3⟩ := hk
      refine ⟨k1, k2, fun t ht => ?_⟩
      rw [List.map_append] at ht
      rcases List.mem_append.1 ht with ht | ht
      · exact k3 t ht
      · obtain ⟨u, hu, rfl⟩ := List.mem_map.1 ht
        obtain ⟨n, hn, rfl⟩ := List.mem_map.1 hu
        have hn := (List.mem_filter.1 hn).1
        simp only [List.mem_cons, List.not_mem_nil, or_false] at hn
        have hq := tocStyle_kept n (by omega)
        exact { hq with }
    obtain ⟨out, g'', e, hr⟩ := read_own x { d.styles with styles := d.styles.styles ++ (Spec.levelsMissing d.styles.styles).map tocStyle } hk' g
    rw [h1] at e
    simp only [Option.some.injEq, Prod.mk.injEq, Except.ok.injEq] at e
    refine ⟨s, h2, _, by rw [e.1]; exact hr, ((Spec.levelsMissing d.styles.styles).map tocStyle).map styleSeen, by simp [stylesSeen], fun hq => ?_⟩
    exfalso
    unfold hasToc at hn
    obtain ⟨c, hc, hb⟩ := List.any_eq_true.1 hn
    cases c with
    | toc t => exact hq t hc
    | _ => cases hb

/-! ## The defaults -/

def effDefaults : DocDefaults → BridgeCall → DocDefaults
  | x, .builder (.defaultSize n) => { x with runProperty := x.runProperty.setSize n }
  | x, .builder (.defaultSpacing n) => { x with runProperty := x.runProperty.setSpacing n }
  | x, .builder (.defaultFonts n) => { x with runProperty := x.runProperty.setFonts n }
  | x, .builder (.defaultLineSpacing n) => { x with paragraphProperty := x.paragraphProperty.setLineSpacing n }
  | x, _ => x

theorem view_defaults : View (fun d => d.styles.docDefaults) effDefaults := by view_field

theorem defaults_built (cs : List JsFileCall) (n m : Ids) (d : DocxFile) (hb : (jsFileOf cs).build lib n = some (d, m)) :
    d.styles.docDefaults =
      ⟨{ sz := (lastSet givesDefaultSize cs).filter (· ≠ 0), szCs := (lastSet givesDefaultSize cs).filter (· ≠ 0)
         characterSpacing := (lastSet givesDefaultSpacing cs).filter (· ≠ 0), fonts := (lastSet givesDefaultFonts cs).map JsFonts.buildPlain },
       ⟨{ lineSpacing := lastSet givesDefaultLine cs }, none⟩⟩ := by
  have h := view_defaults.built lib hb
  run_field h [effDefaults]
  have e1 : (jsFileOf cs).defaultSize = lastSet givesDefaultSize cs := by set_last givesDefaultSize
  have e2 : (jsFileOf cs).defaultSpacing = lastSet givesDefaultSpacing cs := by set_last givesDefaultSpacing
  have e3 : (jsFileOf cs).defaultFonts = lastSet givesDefaultFonts cs := by set_last givesDefaultFonts
  have e4 : (jsFileOf cs).defaultLineSpacing = lastSet givesDefaultLine cs := by set_last givesDefaultLine
  rw [e1, e2, e3, e4] at h
  rw [h]
  cases (lastSet givesDefaultSize cs).filter (· ≠ 0) <;> cases (lastSet givesDefaultSpacing cs).filter (· ≠ 0) <;>
    cases lastSet givesDefaultFonts cs <;> cases lastSet givesDefaultLine cs <;> rfl

theorem lastSet_mem {α : Type} {g : JsFileCall → Option α} {cs : List JsFileCall} {a : α} (h : lastSet g cs = some a) : ∃ c ∈ cs, g c = some a :=
  List.mem_filterMap.1 (List.mem_of_getLast? h)

theorem fonts_kept {f : JsFonts} (h : ∀ s ∈ fontNames f, KeptText s) : ∀ s ∈ f.buildPlain.strings, EscapedFrom s := by
  obtain ⟨a, b, e, c, t1, t2, t3, t4, i⟩ := f
  have key : ∀ o : Option Str, (∀ s ∈ o.toList, KeptText s) → ∀ s, (truthy o).map escapeOwned = some s → EscapedFrom s := by
    intro o ho s hs
    cases o with
    | none => cases hs
    | some t =>
      by_cases ht : t = []
      · subst ht; cases hs
      · rw [truthy_some ht] at hs
        exact ⟨t, ho t (by simp), (Option.some.inj hs).symm⟩
  have e0 : JsFonts.buildPlain ⟨a, b, e, c, t1, t2, t3, t4, i⟩ =
      { ascii := (truthy a).map escapeOwned, hiAnsi := (truthy b).map escapeOwned, cs := (truthy c).map escapeOwned
        eastAsia := (truthy e).map escapeOwned } := by
    simp only [JsFonts.buildPlain]
    cases truthy a <;> cases truthy b <;> cases truthy c <;> cases truthy e <;> rfl
  simp only [fontNames, List.mem_append] at h
  intro s hs
  rw [e0] at hs
  simp only [RunFonts.strings, List.mem_append] at hs
  rcases hs with (((((((hs | hs) | hs) | hs) | hs) | hs) | hs) | hs) | hs
  · exact key a (fun t ht => h t (.inl (.inl (.inl ht)))) s (mem_optS hs)
  · exact key b (fun t ht => h t (.inl (.inl (.inr ht)))) s (mem_optS hs)
  · exact key e (fun t ht => h t (.inr ht)) s (mem_optS hs)
  · exact key c (fun t ht => h t (.inl (.inr ht))) s (mem_optS hs)
  all_goals cases hs

theorem defaults_kept (cs : List JsFileCall) (n m : Ids) (d : DocxFile) (hb : (jsFileOf cs).build lib n = some (d, m)) (h : DefaultsKept cs) :
    RunProperty.Kept d.styles.docDefaults.runProperty ∧ ParagraphProperty.Kept (withSides d.styles.docDefaults.paragraphProperty) := by
  rw [defaults_built lib cs n m d hb]
  have k := kept_empty
  refine ⟨{ k with size := fun n e => ?_, spacing := fun i e => ?_, fonts := fun f e => ?_, sizeCs := rfl }, ?_⟩
  · obtain ⟨c, hc, he⟩ := lastSet_mem (Option.filter_eq_some_iff.1 e).1
    cases c <;> simp only [givesDefaultSize, reduceCtorEq, Option.some.injEq] at he
    subst he
    exact h.size _ hc
  · obtain ⟨c, hc, he⟩ := lastSet_mem (Option.filter_eq_some_iff.1 e).1
    cases c <;> simp only [givesDefaultSpacing, reduceCtorEq, Option.some.injEq] at he
    subst he
    exact h.spacing _ hc
  · obtain ⟨j, e', rfl⟩ := Option.map_eq_some_iff.1 e
    obtain ⟨c, hc, he⟩ := lastSet_mem e'
    cases c <;> simp only [givesDefaultFonts, reduceCtorEq, Option.some.injEq] at he
    subst he
    exact fonts_kept (h.fonts _ hc)
  · simp only [withSides]
    rw [ParagraphProperty.Kept]
    have hb := base_default_kept
    refine ⟨{ hb with lineSpacing := fun l e => ?_ }, trivial⟩
    obtain ⟨c, hc, he⟩ := lastSet_mem e
    cases c <;> simp only [givesDefaultLine, reduceCtorEq, Option.some.injEq] at he
    subst he
    exact h.line _ hc

/-! ## The styles -/

/-- The style a program makes of an id and a kind with the given methods. -/
def madeStyle (x : Str × StyleType × List JsStyleCall) : JsStyle := x.2.2.foldl JsStyle.call { styleId := x.1, styleType := x.2.1 }

/-- **C83**, from the program to the reader of the file: if a program adds the styles `made` (and puts anything else into the document),
the entry `word/styles.xml` of the saved file begins with the standing style, followed by the styles that were asked for, in order; nothing
follows unless there is a table of contents. Missing: the calls that are lost on the way (`JsStyleCall.comesThrough`, C83_fails_...) and what
no style brings through a file (`Style.Kept` and `styleSeen`, C55_fails_...). -/
theorem C83_read_partial (x : ReadEnv) (cs : List JsFileCall) (made : List (Str × StyleType × List JsStyleCall)) (n m : Ids) (d : DocxFile)
    (env : Env) (w : World) (es : List Entry) (hb : (jsFileOf cs).build lib n = some (d, m)) (h : Packed env d w es)
    (hg : cs.filterMap givesStyle = made.map madeStyle)
    (hc : ∀ s ∈ made, (∀ c ∈ s.2.2, JsStyleCall.comesThrough c) ∧ ∀ a b, s.2.2.flatMap runsOf = a ++ .strike :: b → .dstrike ∉ a)
    (hk : ∀ s ∈ made, Style.Kept (ownFormat (wantedStyle s.1 s.2.1 s.2.2))) (hd : DefaultsKept cs) :
    ∃ t, ⟨c!"word/styles.xml", .text t⟩ ∈ es ∧ ∃ r, (∃ k, ∀ n, k ≤ n → readStyles x n t = .ok r [.endDocument]) ∧
      ∃ more, r.styles = standardStyle :: made.map (fun s => styleSeen (wantedStyle s.1 s.2.1 s.2.2)) ++ more ∧
        ((∀ t, .toc t ∉ d.document.children) → more = []) := by
  have e : d.styles.styles = made.map fun s => wantedStyle s.1 s.2.1 s.2.2 := by
    rw [C83_styles lib cs n m d hb, hg, List.map_map]
    refine List.map_congr_left fun s hs => ?_
    exact C83_style_partial s.1 s.2.1 s.2.2 (hc s hs).1 (hc s hs).2
  have := package_own x d env w es h ⟨(defaults_kept lib cs n m d hb hd).1, (defaults_kept lib cs n m d hb hd).2, fun t ht => by
    simp only [e, List.map_map] at ht
    obtain ⟨s, hs, rfl⟩ := List.mem_map.1 ht
    exact hk s hs⟩
  rw [e, List.map_map] at this
  exact this

/-- The hypotheses are met: a heading with an indent and a style for text, defaults for the document, and a paragraph. -/
def jsTwoStyles : List (Str × StyleType × List JsStyleCall) :=
  [ (c!"H<1>", .paragraph, [.name c!"Heading & 1", .basedOn c!"Normal", .run .bold, .run (.size 32), .indent 200 none none, .keepNext true,
      .outlineLevel 1]),
    (c!"T", .character, [.runProperty [.italic, .dstrike]]) ]

def jsStyled : List JsFileCall :=
  [.defaultSize 24, .addStyle (madeStyle jsTwoStyles[0]), .add (.paragraph {}), .addStyle (madeStyle jsTwoStyles[1])]

example : ∃ d m es, (jsFileOf jsStyled).build sampleLib ⟨1, 1, 1⟩ = some (d, m) ∧ Packed anEnv d {} es ∧
    jsStyled.filterMap givesStyle = jsTwoStyles.map madeStyle ∧
    (∀ s ∈ jsTwoStyles, (∀ c ∈ s.2.2, JsStyleCall.comesThrough c) ∧ ∀ a b, s.2.2.flatMap runsOf = a ++ .strike :: b → .dstrike ∉ a) ∧
    (∀ s ∈ jsTwoStyles, Style.Kept (ownFormat (wantedStyle s.1 s.2.1 s.2.2))) ∧ DefaultsKept jsStyled := by
  obtain ⟨x, h, hx⟩ := of_ready (p := fun x : DocxFile × Ids => writableB x.1 && decide (x.1.customItems.length = 0))
    (o := (jsFileOf jsStyled).build sampleLib ⟨1, 1, 1⟩) (by decide +kernel)
  obtain ⟨es, hp⟩ := packs_plainly hx
  refine ⟨x.1, x.2, es, h, hp, rfl, fun s hs => ?_, fun s hs => ?_, ?_⟩
  · simp only [jsTwoStyles, List.mem_cons, List.not_mem_nil, or_false] at hs
    rcases hs with rfl | rfl
    · refine ⟨fun c hc => ?_, fun a b e => ?_⟩
      · simp only [List.mem_cons, List.not_mem_nil, or_false] at hc
        rcases hc with rfl | rfl | rfl | rfl | rfl | rfl | rfl <;> simp [JsStyleCall.comesThrough, runInStyle, JsRunCall.comesThrough]
      · have : JsRunCall.strike ∈ [JsRunCall.bold, .size 32] := by
          have e : [JsRunCall.bold, .size 32] = a ++ .strike :: b := e
          rw [e]; simp
        simp at this
    · refine ⟨fun c hc => ?_, fun a b e => ?_⟩
      · simp only [List.mem_cons, List.not_mem_nil, or_false] at hc
        subst hc
        simp [JsStyleCall.comesThrough, runInStyle, JsRunCall.comesThrough]
      · have : JsRunCall.strike ∈ [JsRunCall.italic, .dstrike] := by
          have e : [JsRunCall.italic, .dstrike] = a ++ .strike :: b := e
          rw [e]; simp
        simp at this
  · simp only [jsTwoStyles, List.mem_cons, List.not_mem_nil, or_false] at hs
    have hb := base_default_kept
    have hr := hb.runProperty
    rcases hs with rfl | rfl
    · exact
        { id := ⟨c!"H<1>", ⟨by decide, by decide⟩, rfl⟩
          name := ⟨c!"Heading & 1", ⟨by decide, by decide⟩, rfl⟩
          basedOn := fun t e => ⟨c!"Normal", ⟨by decide, by decide⟩, (Option.some.inj e).symm⟩
          link := fun _ e => (by cases e)
          next := fun _ e => (by cases e)
          run := { hr with size := fun n e => (by cases e; decide), boldCs := rfl, sizeCs := rfl }
          paragraph := by
            refine show ParagraphProperty.Kept ⟨_, none⟩ from ?_
            rw [ParagraphProperty.Kept]
            exact ⟨{ hb with
              indent := fun i e => by
                cases e
                exact ⟨⟨200, rfl, by unfold InI32; omega⟩, ⟨0, rfl, by unfold InI32; omega⟩, fun _ e => (by cases e), fun _ e => (by cases e),
                  fun _ e => (by cases e), rfl, rfl⟩
              keepNext := by intro e; cases e
              outlineLvl := fun n e => by cases e; decide }, trivial⟩
          table := tableProperty_default_kept
          cell := cellProperty_default_kept }
    · exact
        { id := ⟨c!"T", ⟨by decide, by decide⟩, rfl⟩
          name := ⟨[], ⟨by decide, by decide⟩, rfl⟩
          basedOn := fun _ e => (by cases e)
          link := fun _ e => (by cases e)
          next := fun _ e => (by cases e)
          run := { hr with italicCs := rfl, strike := fun _ => rfl }
          paragraph := paragraphProperty_default_kept
          table := tableProperty_default_kept
          cell := cellProperty_default_kept }
  · constructor <;> intro a ha <;>
      simp only [jsStyled, List.mem_cons, List.not_mem_nil, or_false, reduceCtorEq, JsFileCall.defaultSize.injEq] at ha
    subst ha
    decide

end Docx.Props
