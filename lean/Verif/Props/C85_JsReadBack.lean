import Verif.Props.C83_Read
import Verif.Props.C58_Settings
import Verif.Props.C54_Numbering
import Verif.Props.C60_CustomProperties
import Verif.Spec.JsReadBack

/-!
# C85: the set-up of a document made in JavaScript is found in the file
-/

namespace Docx.Props

open Docx.Spec

variable (lib : ImageLib)

/-- **C85.** The settings found in the file are those asked for. Missing: texts that need escaping, which are written as they are (C58), and
tab stops of more than 2^24. -/
theorem C85_settings_partial (x : ReadEnv) (cs : List JsFileCall) (n m : Ids) (d : DocxFile) (env : Env) (w : World) (es : List Entry)
    (hb : (jsFileOf cs).build lib n = some (d, m)) (h : Packed env d w es) (hk : SettingsKept cs) : SettingsReadAs x es (settingsAsked cs) := by
  obtain ⟨h1, h2, h3, h4, h5⟩ := C82_settings lib cs n m d hb
  have h6 := (C82_kinds lib cs n m d hb).2
  have key : Settings.Kept d.settings := by
    constructor
    · rw [h1]
      cases e : lastSet givesTabStop cs with
      | none => decide
      | some v =>
        obtain ⟨c, hc, he⟩ := lastSet_mem e
        cases c <;> simp only [givesTabStop, reduceCtorEq, Option.some.injEq] at he
        subst he
        exact hk.tab _ hc
    · intro i hi
      rw [h2] at hi
      obtain ⟨c, hc, he⟩ := lastSet_mem (Option.filter_eq_some_iff.1 hi).1
      cases c <;> simp only [givesDocId, reduceCtorEq, Option.some.injEq] at he
      subst he
      exact hk.id _ hc
    · intro v hv
      rw [h3] at hv
      obtain ⟨c, hc, he⟩ := List.mem_filterMap.1 hv
      cases c <;> simp only [givesDocVar, reduceCtorEq, Option.some.injEq] at he
      subst he
      exact hk.vars _ _ hc
  have := C58_settings x d env w es h key
  have e : afterSettings d.settings = settingsAsked cs := by
    rw [afterSettings, settingsAsked, h1, h2, h3, h4, h5, h6]
    congr 1
    cases lastSet givesSpacingControl cs with
    | none => rfl
    | some v => cases v <;> rfl
  rwa [e] at this

theorem view_zoom : View (fun d => d.settings.zoom) (fun x _ => x) := by view_field

theorem same_zoom : ∀ (l : List BridgeCall) (z : Nat), l.foldl (fun x _ => x) z = z
  | [], _ => rfl
  | _ :: l, z => same_zoom l z

/-- **C85 fails** for a variable whose text needs escaping: the settings of the file cannot be read at all. -/
theorem C85_fails_variable (x : ReadEnv) (n m : Ids) (d : DocxFile) (env : Env) (w : World) (es : List Entry)
    (hb : (jsFileOf [.addDocVar c!"title" c!"Q & A", .add (.paragraph {})]).build lib n = some (d, m)) (h : Packed env d w es) :
    ∃ text, ⟨c!"word/settings.xml", .text text⟩ ∈ es ∧ ∃ k, ∀ n, k ≤ n → ∃ rest, readSettings x n text = .err rest := by
  refine C58_fails_variable x d env w es h ?_
  obtain ⟨h1, h2, h3, h4, h5⟩ := C82_settings lib _ n m d hb
  have h6 := (C82_kinds lib _ n m d hb).2
  have h7 := view_zoom.built lib hb
  rw [same_zoom] at h7
  cases hs : d.settings with
  | mk a b c e f g i =>
    rw [hs] at h1 h2 h3 h4 h5 h6 h7
    dsimp only at h1 h2 h3 h4 h5 h6 h7
    rw [h1, h2, h3, h4, h5, h6, h7]
    rfl

/-- **C85.** A custom property is found in the file exactly if it was given, with the value given last. Missing: texts that need escaping
and blank values (C60). -/
theorem C85_properties_partial (x : ReadEnv) (cs : List JsFileCall) (n m : Ids) (d : DocxFile) (env : Env) (w : World) (es : List Entry)
    (hb : (jsFileOf cs).build lib n = some (d, m)) (he : ∀ l, (env.props l).Perm l) (h : Packed env d w es)
    (hp : ∀ name value, .customProperty name value ∈ cs → PlainValue name ∧ PlainValue value) :
    PropertiesReadAs x es fun r => ∀ name value, (name, value) ∈ r ↔ lastSet (givesProperty name) cs = some value ∧ blankText value = false := by
  obtain ⟨_, _, hd, hm⟩ := C82_properties lib cs n m d hb
  have hpl : ∀ v ∈ d.custom, PlainValue v.1 ∧ PlainValue v.2 := by
    intro v hv
    obtain ⟨c, hc, e⟩ := lastSet_mem ((hm v.1 v.2).1 hv)
    cases c with
    | customProperty a b =>
      simp only [givesProperty] at e
      split at e
      · rename_i ha
        rw [← ha, ← Option.some.inj e]
        exact hp _ _ hc
      · cases e
    | _ => cases e
  obtain ⟨s, g, g', h1, h2⟩ := fits_write (packed_fits h) (step_custom _ _ _)
  have e : s = constText (some true) (customPropsN (env.props d.custom)) := by
    have := custom_const env (d.preparePackage env w).1 g
    rw [h1] at this
    rw [(preparePackage_same env d w).2.2.1] at this
    simp only [Option.some.injEq, Prod.mk.injEq, Except.ok.injEq] at this
    exact this.1
  have hperm := he d.custom
  obtain ⟨k, hk⟩ := reads_props (x := x) (env.props d.custom) fun t ht => by
    obtain ⟨v, hv, ht⟩ := List.mem_flatMap.1 ht
    simp only [List.mem_cons, List.not_mem_nil, or_false] at ht
    rcases ht with rfl | rfl
    · exact stored_of_plain (hpl v (hperm.mem_iff.1 hv)).1
    · exact stored_of_plain (hpl v (hperm.mem_iff.1 hv)).2
  refine ⟨s, h2, k, fun n hn => ⟨_, by rw [e]; exact hk n hn, fun name value => ?_⟩⟩
  have hkeys : ((env.props d.custom).map Prod.fst).Nodup := by
    rw [(hperm.map Prod.fst).nodup_iff]
    exact hd
  rw [mem_reread _ hkeys (fun v hv => hpl v (hperm.mem_iff.1 hv)), hperm.mem_iff, hm]

/-! ## Lists -/

theorem level_kept {l : JsLevel} (h : LevelKept l) : Level.Kept l.build where
  level := h.id
  start := h.start
  restart := fun _ e => (by cases e)
  format := h.format
  text := h.text
  jc := h.jc
  paragraph := by
    obtain ⟨_, _, _, _, _, ind, _, _⟩ := l
    have hi := h.indent
    cases ind with
    | none => exact paragraphProperty_default_kept
    | some i =>
      obtain ⟨a, k, n⟩ := i
      obtain ⟨h1, h2⟩ := hi a k n rfl
      have h0 : InI32 (n.getD 0) := by
        cases n with
        | none => show InI32 0; unfold InI32; omega
        | some i => exact h2 i rfl
      refine show ParagraphProperty.Kept ⟨_, none⟩ from ?_
      rw [ParagraphProperty.Kept]
      have hb := base_default_kept
      refine ⟨{ hb with indent := fun i e => ?_ }, trivial⟩
      obtain rfl := Option.some.inj e
      refine ⟨⟨a, rfl, h1⟩, ⟨0, rfl, by unfold InI32; omega⟩, fun b e => ?_, fun b e => ?_, fun _ e => (by cases e), rfl, rfl⟩
      · cases k with
        | none => cases e
        | some k => cases k <;> cases e; exact h0
      · cases k with
        | none => cases e
        | some k => cases k <;> cases e; exact h0
  run := by
    rw [level_run]
    have k := kept_empty
    exact { k with
      size := fun n e => h.size n (Option.filter_eq_some_iff.1 e).1
      sizeCs := rfl
      boldCs := rfl
      italicCs := rfl
      strike := fun e => (by cases e)
      color := fun c e => by
        obtain ⟨s, e', rfl⟩ := Option.map_eq_some_iff.1 e
        exact ⟨h.color s (Option.filter_eq_some_iff.1 e').1, fun _ e => (by cases e), fun _ e => (by cases e), fun _ e => (by cases e)⟩
      spacing := h.spacing
      fonts := fun f e => by
        obtain ⟨j, e', rfl⟩ := Option.map_eq_some_iff.1 e
        exact fonts_kept (h.fonts j e') }
  style := fun _ e => (by cases e)

theorem level_found {l : JsLevel} (h : LevelPlain l) : LevelFound l (Level.sides l.build) := by
  have a := level_plain l h
  exact
    { level := a.level, start := a.start, format := a.format, text := a.text, jc := a.jc, suffix := a.suffix, bold := a.bold, italic := a.italic
      strike := a.strike, size := a.size, color := a.color, spacing := a.spacing, fonts := a.fonts
      indent := by
        have hi := a.indent
        obtain ⟨_, _, _, _, _, ind, _, _⟩ := l
        cases ind <;> rfl }

/-- **C85.** The lists found in the file are the standing one and those that were added, in order, with their levels as given; and so are the
numberings that use them. Missing: formatting that is lost on the way (C82_fails_level, C82_fails_override) and texts that need escaping (C54). -/
theorem C85_lists_partial (x : ReadEnv) (cs : List JsFileCall) (n m : Ids) (d : DocxFile) (env : Env) (w : World) (es : List Entry)
    (hb : (jsFileOf cs).build lib n = some (d, m)) (h : Packed env d w es) (hk : ListsKept cs) :
    ∃ s, ⟨c!"word/numbering.xml", .text s⟩ ∈ es ∧ ∃ r, (∃ k, ∀ n, k ≤ n → readNumberings x n s = .ok r [.endDocument]) ∧
      (∃ found, r.abstractNums = standardDefinition :: found ∧
        List.Forall₂ (fun (a : JsAbstractNumbering) (y : AbstractNumbering) => y.id = a.id ∧ List.Forall₂ LevelFound a.levels y.levels)
          (cs.filterMap givesAbstract) found) ∧
      r.numberings = { id := 1, abstractNumId := 1 } :: (cs.filterMap givesNumbering).map Numbering.sides := by
  have e1 := abstract_arrived lib cs hb
  have e2 := C82_numberings_partial lib cs n m d hb fun x hx => (hk.numberings x hx).2
  have hd : ∀ a ∈ cs.filterMap givesAbstract, .addAbstractNumbering a ∈ cs := fun a ha => by
    obtain ⟨c, hc, e⟩ := List.mem_filterMap.1 ha
    cases c <;> cases e
    exact hc
  obtain ⟨s, h1, k, h2⟩ := C54_package x d env w es h ⟨fun a ha => by
      rw [e1] at ha
      obtain ⟨b, hb, rfl⟩ := List.mem_map.1 ha
      have := hk.definitions b (hd b hb)
      exact ⟨this.1, fun _ e => (by cases e), fun l hl => by
        obtain ⟨l, hl', rfl⟩ := List.mem_map.1 hl
        exact level_kept (this.2 l hl').1⟩,
    fun y hy => by
      rw [e2] at hy
      obtain ⟨c, hc, e⟩ := List.mem_filterMap.1 hy
      cases c <;> cases e
      exact (hk.numberings _ hc).1⟩
  refine ⟨s, h1, _, ⟨k, h2⟩, ⟨_, rfl, ?_⟩, by rw [numberingSeen, e2]⟩
  rw [e1, List.map_map]
  refine forall₂_map_self fun a ha => ⟨rfl, ?_⟩
  show List.Forall₂ LevelFound a.levels ((a.levels.map JsLevel.build).map Level.sides)
  rw [List.map_map]
  exact forall₂_map_self fun l hl => level_found ((hk.definitions a (hd a ha)).2 l hl).2

/-! ## The hypotheses are met -/

def jsALevel : JsLevel :=
  { id := 0, start := 3, format := c!"decimal", text := c!"%1)", jc := c!"left", indent := some (720, some .hanging, some 360)
    runProperty := { bold := some false, size := some 20, color := some c!"FF0000" }, suffix := .space }

def jsWholeSetUp : List JsFileCall :=
  [ .defaultTabStop 500, .addDocVar c!"a" c!"1", .add (.paragraph {}), .docId c!"{1-2}", .addDocVar c!"b" c!"2", .defaultTabStop 700,
    .customProperty c!"who" c!"me", .customProperty c!"who" c!"you", .adjustLineHeightInTable,
    .addAbstractNumbering { id := 5, levels := [jsALevel] }, .addNumbering { id := 7, abstractNumId := 5 } ]

example : ∃ d m es, (jsFileOf jsWholeSetUp).build sampleLib ⟨1, 1, 1⟩ = some (d, m) ∧ Packed anEnv d {} es ∧ SettingsKept jsWholeSetUp ∧
    (∀ name value, .customProperty name value ∈ jsWholeSetUp → PlainValue name ∧ PlainValue value) ∧ ListsKept jsWholeSetUp := by
  obtain ⟨x, h, hx⟩ := of_ready (p := fun x : DocxFile × Ids => writableB x.1 && decide (x.1.customItems.length = 0))
    (o := (jsFileOf jsWholeSetUp).build sampleLib ⟨1, 1, 1⟩) (by decide +kernel)
  obtain ⟨es, hp⟩ := packs_plainly hx
  refine ⟨x.1, x.2, es, h, hp, ⟨?_, ?_, ?_⟩, ?_, ⟨?_, ?_⟩⟩
  · intro a ha
    simp only [jsWholeSetUp, List.mem_cons, List.not_mem_nil, or_false, false_or, reduceCtorEq, JsFileCall.defaultTabStop.injEq] at ha
    rcases ha with rfl | rfl <;> decide
  · intro a ha
    simp only [jsWholeSetUp, List.mem_cons, List.not_mem_nil, or_false, false_or, reduceCtorEq, JsFileCall.docId.injEq] at ha
    subst ha
    exact plain_lit (by decide)
  · intro a b ha
    simp only [jsWholeSetUp, List.mem_cons, List.not_mem_nil, or_false, false_or, reduceCtorEq, JsFileCall.addDocVar.injEq] at ha
    rcases ha with ⟨rfl, rfl⟩ | ⟨rfl, rfl⟩ <;> exact ⟨plain_lit (by decide), plain_lit (by decide)⟩
  · intro a b ha
    simp only [jsWholeSetUp, List.mem_cons, List.not_mem_nil, or_false, false_or, reduceCtorEq, JsFileCall.customProperty.injEq] at ha
    rcases ha with ⟨rfl, rfl⟩ | ⟨rfl, rfl⟩ <;> exact ⟨plain_lit (by decide), plain_lit (by decide)⟩
  · intro a ha
    simp only [jsWholeSetUp, List.mem_cons, List.not_mem_nil, or_false, false_or, reduceCtorEq, JsFileCall.addAbstractNumbering.injEq] at ha
    subst ha
    refine ⟨show 5 < 2 ^ 64 by omega, fun l hl => ?_⟩
    rw [List.mem_singleton.1 hl]
    refine ⟨⟨show 0 < 2 ^ 64 by omega, show 3 < 2 ^ 64 by omega, plain_lit (by decide), plain_lit (by decide), plain_lit (by decide),
      fun n e => ?_, fun c e => ?_, fun _ e => (by cases e), fun _ e => (by cases e), fun a k n e => ?_⟩,
      ⟨by decide, by decide, fun _ e => (by cases e), rfl, rfl, by decide⟩⟩
    · cases e; decide
    · cases e; exact plain_lit (by decide)
    · cases e
      exact ⟨by unfold InI32; omega, fun i e => by cases e; unfold InI32; omega⟩
  · intro a ha
    simp only [jsWholeSetUp, List.mem_cons, List.not_mem_nil, or_false, false_or, reduceCtorEq, JsFileCall.addNumbering.injEq] at ha
    subst ha
    exact ⟨⟨show 7 < 2 ^ 64 by omega, show 5 < 2 ^ 64 by omega, fun _ h => (by cases h)⟩, fun _ h => (by cases h)⟩

example : settingsAsked jsWholeSetUp =
    { defaultTabStop := 700
      docId := some c!"1-2"
      docVars := [(c!"a", c!"1"), (c!"b", c!"2")]
      adjustLineHeightInTable := true } := by
  rfl

end Docx.Props
