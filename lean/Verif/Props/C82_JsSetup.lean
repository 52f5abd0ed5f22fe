import Verif.Lemmas.JsSetup
import Verif.Props.C81_JsParts

/-!
# C82: the set-up of a document given in JavaScript
-/

namespace Docx.Props

open Docx Docx.Xml Docx.Spec

variable (lib : ImageLib)

/-- The field after the calls is what was given last. -/
macro "set_last" g:ident : tactic => `(tactic|
  exact (last_calls (g := $g) (fun f c => by cases c <;> rfl) _ {}).trans (Option.or_none))

theorem elim_some {α : Type} (x : Option α) : x.elim none some = x := by cases x <;> rfl

/-! ## Settings -/

def effTabStop : Nat → BridgeCall → Nat
  | _, .builder (.defaultTabStop n) => n
  | x, _ => x

theorem view_tabStop : View (fun d => d.settings.defaultTabStop) effTabStop := by view_field

def effDocId : Option Str → BridgeCall → Option Str
  | _, .builder (.docId s) => some s
  | x, _ => x

theorem view_docId : View (fun d => d.settings.docId) effDocId := by view_field

def effDocVars : List (Str × Str) → BridgeCall → List (Str × Str)
  | l, .builder (.addDocVar a b) => l ++ [(a, b)]
  | x, _ => x

theorem view_docVars : View (fun d => d.settings.docVars) effDocVars := by view_field

def effControl : Option CharacterSpacingValues → BridgeCall → Option CharacterSpacingValues
  | _, .characterSpacing v => some v
  | x, _ => x

theorem view_control : View (fun d => d.settings.characterSpacingControl) effControl := by view_field

def effAdjust : Bool → BridgeCall → Bool
  | _, .adjustLineHeight => true
  | x, _ => x

theorem view_adjust : View (fun d => d.settings.adjustLineHeightInTable) effAdjust := by view_field

/-- **C82.** The settings are those given last, and document variables are all there, in order. An empty id of the document is none. -/
theorem C82_settings (cs : List JsFileCall) (n m : Ids) (d : DocxFile) (hb : (jsFileOf cs).build lib n = some (d, m)) :
    d.settings.defaultTabStop = (lastSet givesTabStop cs).getD 840 ∧
    d.settings.docId = (lastSet givesDocId cs).filter (fun s => decide (s ≠ [])) ∧
    d.settings.docVars = cs.filterMap givesDocVar ∧
    d.settings.characterSpacingControl = lastSet givesSpacingControl cs ∧
    d.settings.adjustLineHeightInTable = cs.any asksAdjust := by
  refine ⟨?_, ?_, ?_, ?_, ?_⟩
  · have h := view_tabStop.built lib hb
    run_field h [effTabStop]
    rw [h]
    exact last_values (g := givesTabStop) (π := JsFile.defaultTabStop) (fun f c => by cases c <;> rfl) cs {}
  · have h := view_docId.built lib hb
    run_field h [effDocId]
    have e : (jsFileOf cs).docId = lastSet givesDocId cs := by set_last givesDocId
    rw [h, ← e]
    exact elim_some _
  · have h := view_docVars.built lib hb
    run_field h [effDocVars]
    rw [foldl_push (fun v : Str × Str => (v.1, v.2))] at h
    rw [h]
    have e := all_calls (g := givesDocVar) (π := JsFile.docVars) (fun f c => by cases c <;> first | rfl | exact (List.append_nil _).symm) cs {}
    rw [List.map_id']
    exact e
  · have h := view_control.built lib hb
    run_field h [effControl]
    have e : (jsFileOf cs).characterSpacingControl = lastSet givesSpacingControl cs := by set_last givesSpacingControl
    rw [h, ← e]
    exact elim_some _
  · have h := view_adjust.built lib hb
    run_field h [effAdjust]
    have e : (jsFileOf cs).adjustLineHeightInTable = cs.any asksAdjust :=
      (any_calls (g := asksAdjust) (π := JsFile.adjustLineHeightInTable)
        (fun f c => by cases c <;> first | exact (Bool.or_false _).symm | exact (Bool.or_true _).symm) cs {}).trans (Bool.false_or _)
    rw [h, ← e]
    cases (jsFileOf cs).adjustLineHeightInTable <;> rfl

/-! ## The page -/

def effSize : PageSize → BridgeCall → PageSize
  | _, .builder (.pageSize w h) => { w := w, h := h }
  | p, .builder (.pageOrient o) => { p with orient := some o }
  | x, _ => x

theorem view_size : View (fun d => d.document.sectionProperty.base.pageSize) effSize := by view_field

def effMargin : PageMargin → BridgeCall → PageMargin
  | _, .builder (.pageMargin m) => m
  | x, _ => x

theorem view_margin : View (fun d => d.document.sectionProperty.base.pageMargin) effMargin := by view_field

def effTitle : Bool → BridgeCall → Bool
  | _, .builder .titlePg => true
  | x, _ => x

def effGrid : Option DocGrid → BridgeCall → Option DocGrid
  | _, .docGrid g => some g
  | x, _ => x

theorem view_grid : View (fun d => d.document.sectionProperty.base.docGrid) effGrid := by view_field

/-- **C82.** The size of the page, its orientation, its margins and its grid are those given last. -/
theorem C82_page (cs : List JsFileCall) (n m : Ids) (d : DocxFile) (hb : (jsFileOf cs).build lib n = some (d, m)) :
    (d.document.sectionProperty.base.pageSize.w, d.document.sectionProperty.base.pageSize.h) = (lastSet givesSize cs).getD (11906, 16838) ∧
    d.document.sectionProperty.base.pageSize.orient = lastSet givesOrient cs ∧
    d.document.sectionProperty.base.pageMargin = (lastSet givesMargin cs).getD {} ∧
    d.document.sectionProperty.base.docGrid = lastSet givesGrid cs := by
  have hs := view_size.built lib hb
  run_field hs [effSize]
  have ho : (jsFileOf cs).pageSize.orient = lastSet givesOrient cs :=
    (last_calls (g := givesOrient) (π := fun f => f.pageSize.orient) (fun f c => by cases c <;> rfl) cs {}).trans Option.or_none
  refine ⟨?_, ?_, ?_, ?_⟩
  · have e := last_values (g := givesSize) (π := fun f => (f.pageSize.w, f.pageSize.h)) (fun f c => by cases c <;> rfl) cs {}
    rw [hs]
    refine Eq.trans ?_ e
    unfold jsFileOf
    cases (cs.foldl JsFile.call {}).pageSize.orient <;> rfl
  · rw [hs, ← ho]
    cases (jsFileOf cs).pageSize.orient <;> rfl
  · have h := view_margin.built lib hb
    run_field h [effMargin]
    have e : (jsFileOf cs).pageMargin = lastSet givesMargin cs := by set_last givesMargin
    rw [h, ← e]
    cases (jsFileOf cs).pageMargin <;> rfl
  · have h := view_grid.built lib hb
    run_field h [effGrid]
    have e : ∀ (cs : List JsFileCall) (f : JsFile), (cs.foldl JsFile.call f).docGrid.map (fun g => (⟨g.1, g.2.1, g.2.2⟩ : DocGrid)) =
        (lastSet givesGrid cs).or (f.docGrid.map fun g => ⟨g.1, g.2.1, g.2.2⟩) :=
      last_calls (g := givesGrid) (π := fun f => f.docGrid.map fun g => ⟨g.1, g.2.1, g.2.2⟩) (fun f c => by cases c <;> rfl)
    have e := (e cs {}).trans Option.or_none
    rw [h, ← e]
    unfold jsFileOf
    cases (cs.foldl JsFile.call {}).docGrid <;> rfl

theorem view_title : FlagView (fun d => d.document.sectionProperty.base.titlePg) true false effTitle := by view_field

def effNone : Bool → BridgeCall → Bool
  | x, _ => x

theorem view_even : FlagView (fun d => d.settings.evenAndOddHeaders) false true effNone := by view_field

theorem some_calls {α : Type} {π : JsFile → Option α} {g : JsFileCall → Option α} (h : ∀ f c, π (JsFile.call f c) = (g c).or (π f))
    (cs : List JsFileCall) (h0 : π {} = none) : (π (jsFileOf cs)).isSome = cs.any fun c => (g c).isSome := by
  rw [jsFileOf, last_calls h cs, h0, Option.or_none, lastSet, Bool.eq_iff_iff]
  simp only [List.any_eq_true, ne_eq, List.getLast?_eq_none_iff, List.filterMap_eq_nil_iff, not_forall, Option.isSome_iff_ne_none, exists_prop]

theorem or_any {α : Type} (l : List α) (p q : α → Bool) : (l.any p || l.any q) = l.any fun x => p x || q x := by
  induction l with
  | nil => rfl
  | cons a l ih =>
    rw [List.any_cons, List.any_cons, List.any_cons, ← ih]
    cases p a <;> cases q a <;> cases l.any p <;> rfl

theorem first_even (cs : List JsFileCall) :
    ((jsFileOf cs).firstHeader.isSome || (jsFileOf cs).firstFooter.isSome) = cs.any givesFirst ∧
    ((jsFileOf cs).evenHeader.isSome || (jsFileOf cs).evenFooter.isSome) = cs.any givesEven := by
  rw [some_calls (π := JsFile.firstHeader) (g := Side.header.gives 1) (fun f c => by cases c <;> rfl) cs rfl,
    some_calls (π := JsFile.firstFooter) (g := Side.footer.gives 1) (fun f c => by cases c <;> rfl) cs rfl,
    some_calls (π := JsFile.evenHeader) (g := Side.header.gives 2) (fun f c => by cases c <;> rfl) cs rfl,
    some_calls (π := JsFile.evenFooter) (g := Side.footer.gives 2) (fun f c => by cases c <;> rfl) cs rfl, or_any, or_any]
  constructor <;> (congr 1; funext c; cases c <;> rfl)

/-- **C82.** A page of its own for the title is asked for exactly when it was, or when a header or footer for first pages was given; different
even pages exactly when a header or footer for them was given. -/
theorem C82_kinds (cs : List JsFileCall) (n m : Ids) (d : DocxFile) (hb : (jsFileOf cs).build lib n = some (d, m)) :
    d.document.sectionProperty.base.titlePg = (cs.any asksTitlePage || cs.any givesFirst) ∧
    d.settings.evenAndOddHeaders = cs.any givesEven := by
  obtain ⟨h1, h2⟩ := first_even cs
  constructor
  · have h := view_title.built lib hb
    run_field h [effTitle]
    have e : (jsFileOf cs).titlePg = cs.any asksTitlePage :=
      (any_calls (g := asksTitlePage) (π := JsFile.titlePg)
        (fun f c => by cases c <;> first | exact (Bool.or_false _).symm | exact (Bool.or_true _).symm) cs {}).trans (Bool.false_or _)
    rw [h, ← e, ← h1, show DocxFile.new.document.sectionProperty.base.titlePg = false from rfl]
    cases (jsFileOf cs).titlePg <;> cases (jsFileOf cs).firstHeader <;> cases (jsFileOf cs).firstFooter <;> rfl
  · have h := view_even.built lib hb
    run_field h [effNone]
    rw [h, ← h2, show DocxFile.new.settings.evenAndOddHeaders = false from rfl]
    cases (jsFileOf cs).evenHeader <;> cases (jsFileOf cs).evenFooter <;> rfl

/-! ## Defaults -/

def effDefaultSize : Option Nat → BridgeCall → Option Nat
  | _, .builder (.defaultSize n) => some n
  | x, _ => x

theorem view_defaultSize : View (fun d => d.styles.docDefaults.runProperty.sz) effDefaultSize := by view_field

def effDefaultSpacing : Option Int → BridgeCall → Option Int
  | _, .builder (.defaultSpacing n) => some n
  | x, _ => x

theorem view_defaultSpacing : View (fun d => d.styles.docDefaults.runProperty.characterSpacing) effDefaultSpacing := by view_field

def effDefaultFonts : Option RunFonts → BridgeCall → Option RunFonts
  | _, .builder (.defaultFonts n) => some n
  | x, _ => x

theorem view_defaultFonts : View (fun d => d.styles.docDefaults.runProperty.fonts) effDefaultFonts := by view_field

def effDefaultLine : Option LineSpacing → BridgeCall → Option LineSpacing
  | _, .builder (.defaultLineSpacing n) => some n
  | x, _ => x

theorem view_defaultLine : View (fun d => d.styles.docDefaults.paragraphProperty.base.lineSpacing) effDefaultLine := by view_field

theorem plain_fonts {f : JsFonts}
    (h : f.asciiTheme = none ∧ f.hiAnsiTheme = none ∧ f.csTheme = none ∧ f.eastAsiaTheme = none ∧ f.hint = none) : f.buildPlain = f.build := by
  obtain ⟨a, b, c, e, t1, t2, t3, t4, i⟩ := f
  obtain ⟨h1, h2, h3, h4, h5⟩ := h
  cases h1; cases h2; cases h3; cases h4; cases h5
  rfl

theorem filter_zero {α : Type} [DecidableEq α] {x : Option α} {z : α} (h : x ≠ some z) : x.filter (fun y => decide (y ≠ z)) = x := by
  cases x with
  | none => rfl
  | some a => simp only [Option.filter_some, show a ≠ z from fun e => h (by rw [e]), ne_eq, not_false_eq_true, decide_true, if_true]

/-- **C82.** The defaults for text are those given last. Missing: a size or a spacing of 0, and themes and hint of fonts. -/
theorem C82_defaults_partial (cs : List JsFileCall) (n m : Ids) (d : DocxFile) (hb : (jsFileOf cs).build lib n = some (d, m))
    (h0 : lastSet givesDefaultSize cs ≠ some 0) (h1 : lastSet givesDefaultSpacing cs ≠ some 0)
    (h2 : ∀ f, lastSet givesDefaultFonts cs = some f →
      f.asciiTheme = none ∧ f.hiAnsiTheme = none ∧ f.csTheme = none ∧ f.eastAsiaTheme = none ∧ f.hint = none) :
    d.styles.docDefaults.runProperty.sz = lastSet givesDefaultSize cs ∧
    d.styles.docDefaults.runProperty.characterSpacing = lastSet givesDefaultSpacing cs ∧
    d.styles.docDefaults.runProperty.fonts = (lastSet givesDefaultFonts cs).map JsFonts.build ∧
    d.styles.docDefaults.paragraphProperty.base.lineSpacing = lastSet givesDefaultLine cs := by
  refine ⟨?_, ?_, ?_, ?_⟩
  · have h := view_defaultSize.built lib hb
    run_field h [effDefaultSize]
    have e : (jsFileOf cs).defaultSize = lastSet givesDefaultSize cs := by set_last givesDefaultSize
    rw [e, filter_zero h0] at h
    rw [h]
    exact elim_some _
  · have h := view_defaultSpacing.built lib hb
    run_field h [effDefaultSpacing]
    have e : (jsFileOf cs).defaultSpacing = lastSet givesDefaultSpacing cs := by set_last givesDefaultSpacing
    rw [e, filter_zero h1] at h
    rw [h]
    exact elim_some _
  · have h := view_defaultFonts.built lib hb
    run_field h [effDefaultFonts]
    have e : (jsFileOf cs).defaultFonts = lastSet givesDefaultFonts cs := by set_last givesDefaultFonts
    rw [e] at h
    rw [h]
    cases hl : lastSet givesDefaultFonts cs with
    | none => rfl
    | some f => exact congrArg some (plain_fonts (h2 f hl))
  · have h := view_defaultLine.built lib hb
    run_field h [effDefaultLine]
    have e : (jsFileOf cs).defaultLineSpacing = lastSet givesDefaultLine cs := by set_last givesDefaultLine
    rw [h, ← e]
    exact elim_some _

/-! ## Properties of the document -/

def effCore : Option Str × Option Str → BridgeCall → Option Str × Option Str
  | x, .builder (.createdAt s) => (some s, x.2)
  | x, .builder (.updatedAt s) => (x.1, some s)
  | x, _ => x

theorem view_core : View (fun d => (d.core.created, d.core.modified)) effCore := by view_field

def effCustom : List (Str × Str) → BridgeCall → List (Str × Str)
  | l, .builder (.customProperty a b) => hashInsert a b l
  | x, _ => x

theorem view_custom : View (fun d => d.custom) effCustom := by view_field

theorem insert_new {k v : Str} {m : List (Str × Str)} (h : k ∉ m.map Prod.fst) : hashInsert k v m = m ++ [(k, v)] := by
  unfold hashInsert
  rw [List.filter_eq_self.2]
  intro x hx
  exact decide_eq_true fun e => h (e ▸ List.mem_map_of_mem hx)

theorem insert_all : ∀ (l m : List (Str × Str)), ((m ++ l).map Prod.fst).Nodup → l.foldl (fun m p => hashInsert p.1 p.2 m) m = m ++ l
  | [], m, _ => by simp
  | p :: l, m, h => by
    have hk : p.1 ∉ m.map Prod.fst := by
      intro hp
      rw [List.map_append, List.nodup_append] at h
      exact h.2.2 _ hp _ (List.mem_map_of_mem (.head _)) rfl
    rw [List.foldl_cons, insert_new hk, insert_all l]
    · simp
    · rw [List.append_assoc]; exact h

theorem properties_nodup : ∀ (cs : List JsFileCall) (f : JsFile), (f.customProperties.map Prod.fst).Nodup →
    ((cs.foldl JsFile.call f).customProperties.map Prod.fst).Nodup
  | [], _, h => h
  | c :: cs, f, h => by
    refine properties_nodup cs _ ?_
    cases c <;> first | exact h | exact hashInsert_nodup _ _ _ h

theorem properties_last (name v : Str) : ∀ (cs : List JsFileCall) (f : JsFile), (name, v) ∈ (cs.foldl JsFile.call f).customProperties ↔
    lastSet (givesProperty name) cs = some v ∨ (lastSet (givesProperty name) cs = none ∧ (name, v) ∈ f.customProperties)
  | [], f => by simp [lastSet]
  | c :: cs, f => by
    rw [List.foldl_cons, properties_last name v cs]
    have hl : lastSet (givesProperty name) (c :: cs) = (lastSet (givesProperty name) cs).or (givesProperty name c) := by
      rw [lastSet, lastSet]
      cases hg : givesProperty name c with
      | none => rw [List.filterMap_cons_none hg, Option.or_none]
      | some x => rw [List.filterMap_cons_some hg, List.getLast?_cons]; cases (cs.filterMap (givesProperty name)).getLast? <;> rfl
    rw [hl]
    cases lastSet (givesProperty name) cs with
    | some x => simp
    | none =>
      simp only [Option.none_or, reduceCtorEq, false_or, true_and]
      cases c with
      | customProperty a b =>
        simp only [JsFile.call, hashInsert_mem, givesProperty, Prod.mk.injEq]
        by_cases e : a = name
        · subst e
          simp [eq_comm]
        · simp [e, eq_comm (a := name)]
      | _ => simp [JsFile.call, givesProperty]

/-- **C82.** Dates and custom properties are those given last for their name. An empty date is none. -/
theorem C82_properties (cs : List JsFileCall) (n m : Ids) (d : DocxFile) (hb : (jsFileOf cs).build lib n = some (d, m)) :
    d.core.created = (lastSet givesCreated cs).filter (fun s => decide (s ≠ [])) ∧
    d.core.modified = (lastSet givesUpdated cs).filter (fun s => decide (s ≠ [])) ∧
    (d.custom.map Prod.fst).Nodup ∧ ∀ name v, (name, v) ∈ d.custom ↔ lastSet (givesProperty name) cs = some v := by
  have h := view_core.built lib hb
  run_field h [effCore]
  have e1 : (jsFileOf cs).createdAt = lastSet givesCreated cs := by set_last givesCreated
  have e2 : (jsFileOf cs).updatedAt = lastSet givesUpdated cs := by set_last givesUpdated
  have ha := congrArg Prod.fst h
  have hm := congrArg Prod.snd h
  refine ⟨?_, ?_, ?_⟩
  · rw [← e1]
    refine ha.trans ?_
    change _ = truthy (jsFileOf cs).createdAt
    cases truthy (jsFileOf cs).createdAt <;> cases truthy (jsFileOf cs).updatedAt <;> rfl
  · rw [← e2]
    refine hm.trans ?_
    change _ = truthy (jsFileOf cs).updatedAt
    cases truthy (jsFileOf cs).createdAt <;> cases truthy (jsFileOf cs).updatedAt <;> rfl
  · have h := view_custom.built lib hb
    run_field h [effCustom]
    rw [h, show DocxFile.new.custom = [] from rfl, insert_all (jsFileOf cs).customProperties [] (properties_nodup cs {} List.nodup_nil),
      List.nil_append]
    refine ⟨properties_nodup cs {} List.nodup_nil, fun name v => ?_⟩
    rw [jsFileOf, properties_last]
    simp

/-! ## Extensions and custom items -/

def effWeb : List WebExtension → BridgeCall → List WebExtension
  | l, .builder (.webExtension e) => l ++ [e]
  | x, _ => x

theorem view_web : View (fun d => d.webExtensions) effWeb := by view_field

def effPanes : Bool → BridgeCall → Bool
  | _, .builder .taskpanes => true
  | x, _ => x

theorem view_panes : View (fun d => d.taskpanes) effPanes := by view_field

theorem panes_asked (cs : List JsFileCall) : (jsFileOf cs).taskpanes = cs.any asksTaskpanes :=
  (any_calls (g := asksTaskpanes) (π := JsFile.taskpanes)
    (fun f c => by cases c <;> first | exact (Bool.or_false _).symm | exact (Bool.or_true _).symm) cs {}).trans (Bool.false_or _)

theorem web_given (cs : List JsFileCall) : (jsFileOf cs).webExtensions = cs.filterMap givesExtension :=
  all_calls (g := givesExtension) (π := JsFile.webExtensions) (fun f c => by cases c <;> first | rfl | exact (List.append_nil _).symm) cs {}

theorem web_arrived {f : JsFile} {n m : Ids} {d : DocxFile} (hb : f.build lib n = some (d, m)) :
    d.webExtensions = if f.taskpanes = true then f.webExtensions else [] := by
  have h := view_web.built lib hb
  run_field h [effWeb]
  rw [h, foldl_push (fun e : WebExtension => e), List.map_id']
  rfl

/-- **C82.** Web extensions are all there, in order. Missing: only if the pane for them was asked for. -/
theorem C82_extensions_partial (cs : List JsFileCall) (n m : Ids) (d : DocxFile) (hb : (jsFileOf cs).build lib n = some (d, m))
    (hp : cs.any asksTaskpanes = true) : d.taskpanes = true ∧ d.webExtensions = cs.filterMap givesExtension := by
  rw [web_arrived lib hb, panes_asked, if_pos hp, web_given]
  have h := view_panes.built lib hb
  run_field h [effPanes]
  rw [panes_asked, if_pos hp] at h
  exact ⟨h, rfl⟩

/-- **C82 fails** otherwise: without the pane every web extension is lost. -/
theorem C82_fails_extensions (cs : List JsFileCall) (n m : Ids) (d : DocxFile) (hb : (jsFileOf cs).build lib n = some (d, m))
    (hp : cs.any asksTaskpanes = false) : d.webExtensions = [] := by
  rw [web_arrived lib hb, panes_asked, hp]
  rfl

def pushRead (l : List (List XmlData)) (xml : Str) : List (List XmlData) := match xmlDocumentFromStr xml with
  | some (.ok x) => l ++ [x]
  | _ => l

def effItems : List (List XmlData) → BridgeCall → List (List XmlData)
  | l, .builder (.addCustomItem _ xml) => pushRead l xml
  | x, _ => x

theorem view_items_list : View (fun d => d.customItems) effItems := by
  have h : ∀ d d' c, quietBridge c = true → BridgeCall.run d c = some d' → d'.customItems = effItems d.customItems c := by
    intro d d' c hq h
    cases c with
    | builder c =>
      cases c with
      | addCustomItem id xml =>
        simp only [BridgeCall.run, DocxFile.call] at h
        simp only [effItems, pushRead]
        split at h
        · rename_i e
          cases h
          rw [e]
          rfl
        · cases h
      | _ =>
        first
        | (exfalso; simp only [quietBridge, quietCall, Bool.false_eq_true] at hq; done)
        | (cases h; rfl)
    | _ => cases h; rfl
  exact ⟨h, fun _ _ => rfl, fun _ c _ _ => by cases c <;> rfl, fun _ _ => rfl, fun _ _ => rfl, fun _ _ => rfl, fun _ _ => rfl, fun _ _ => rfl,
    fun _ _ => rfl⟩

def effProps : List Str → BridgeCall → List Str
  | l, .builder (.addCustomItem id _) => l ++ [id]
  | x, _ => x

theorem view_props : View (fun d => d.customItemProps) effProps := by view_field

theorem items_given (cs : List JsFileCall) : (jsFileOf cs).customItems = cs.filterMap givesItem :=
  all_calls (g := givesItem) (π := JsFile.customItems) (fun f c => by cases c <;> first | rfl | exact (List.append_nil _).symm) cs {}

theorem bridge_some {d : DocxFile} {c : BridgeCall} (h : ∀ id xml, c = .builder (.addCustomItem id xml) → ∃ x, ItemReads xml x) :
    ∃ d', c.run d = some d' := by
  cases c with
  | builder c =>
    cases c with
    | addCustomItem id xml =>
      obtain ⟨x, hx⟩ := h id xml rfl
      exact ⟨d.addCustomItem id x, by rw [BridgeCall.run, DocxFile.call, hx]⟩
    | _ => exact ⟨_, rfl⟩
  | _ => exact ⟨_, rfl⟩

theorem bridges_some : ∀ (cs : List BridgeCall) (d : DocxFile),
    (∀ c ∈ cs, ∀ id xml, c = .builder (.addCustomItem id xml) → ∃ x, ItemReads xml x) → ∃ d', bridgeCalls d cs = some d'
  | [], d, _ => ⟨d, rfl⟩
  | c :: cs, d, h => by
    obtain ⟨x, hx⟩ := bridge_some (d := d) (h c (.head _))
    obtain ⟨y, hy⟩ := bridges_some cs x fun c hc => h c (.tail _ hc)
    exact ⟨y, by rw [bridgeCalls, hx]; exact hy⟩

theorem bridges_read : ∀ (cs : List BridgeCall) {d d' : DocxFile}, bridgeCalls d cs = some d' →
    ∀ id xml, BridgeCall.builder (.addCustomItem id xml) ∈ cs → ∃ x, ItemReads xml x
  | [], _, _, _, _, _, h => by cases h
  | c :: cs, d, d', h, id, xml, hm => by
    rw [bridgeCalls] at h
    cases e : c.run d with
    | none => rw [e] at h; cases h
    | some y =>
      rw [e] at h
      cases hm with
      | head =>
        simp only [BridgeCall.run, DocxFile.call] at e
        split at e
        · rename_i x hx
          exact ⟨x, hx⟩
        · cases e
      | tail _ hm => exact bridges_read cs h id xml hm

theorem items_before (f : JsFile) (id xml : Str) : BridgeCall.builder (.addCustomItem id xml) ∉ f.before := by
  intro h
  simp [JsFile.before, callOn, Option.mem_toList] at h

theorem items_after (f : JsFile) (id xml : Str) : BridgeCall.builder (.addCustomItem id xml) ∈ f.after ↔ (id, xml) ∈ f.customItems := by
  simp [JsFile.after, callOn, Option.mem_toList]

/-- **C82.** The document is built exactly if every custom item is XML that can be read. -/
theorem C82_builds (cs : List JsFileCall) (n : Ids) :
    (∃ d m, (jsFileOf cs).build lib n = some (d, m)) ↔ ∀ id xml, .addCustomItem id xml ∈ cs → ∃ x, ItemReads xml x := by
  have hmem : ∀ id xml, JsFileCall.addCustomItem id xml ∈ cs ↔ (id, xml) ∈ (jsFileOf cs).customItems := by
    intro id xml
    rw [items_given, List.mem_filterMap]
    constructor
    · exact fun h => ⟨_, h, rfl⟩
    · rintro ⟨c, hc, e⟩
      cases c <;> cases e
      exact hc
  constructor
  · rintro ⟨d, m, h⟩ id xml hi
    unfold JsFile.build at h
    dsimp only at h
    obtain ⟨d1, h1, h⟩ := Option.bind_eq_some_iff.1 h
    obtain ⟨d2, h2, -⟩ := Option.map_eq_some_iff.1 h
    exact bridges_read _ h2 id xml ((items_after _ id xml).2 ((hmem id xml).1 hi))
  · intro h
    obtain ⟨d1, h1⟩ := bridges_some (jsFileOf cs).before (jsItems lib DocxFile.new (jsFileOf cs).docx.children n).1
      (fun c hc id xml e => absurd (e ▸ hc) (items_before _ id xml))
    obtain ⟨d2, h2⟩ := bridges_some (jsFileOf cs).after
      ((jsFileOf cs).parts lib d1 (jsItems lib DocxFile.new (jsFileOf cs).docx.children n).2).1
      (fun c hc id xml e => h id xml ((hmem id xml).2 ((items_after _ id xml).1 (e ▸ hc))))
    refine ⟨d2.noteNumbering (jsFileOf cs).docx.hasNumberings,
      ((jsFileOf cs).parts lib d1 (jsItems lib DocxFile.new (jsFileOf cs).docx.children n).2).2, ?_⟩
    unfold JsFile.build
    dsimp only
    rw [h1, Option.bind_some, h2]
    rfl

theorem fold_items : ∀ (l : List (Str × Str)) (a : List (List XmlData)), (∀ p ∈ l, ∃ x, ItemReads p.2 x) →
    ∃ xs, l.foldl (fun a p => pushRead a p.2) a = a ++ xs ∧ List.Forall₂ (fun p x => ItemReads p.2 x) l xs
  | [], a, _ => ⟨[], by simp, .nil⟩
  | p :: l, a, h => by
    obtain ⟨x, hx⟩ := h p (.head _)
    have e : pushRead a p.2 = a ++ [x] := by
      rw [pushRead]
      rw [show xmlDocumentFromStr p.2 = some (.ok x) from hx]
    obtain ⟨xs, h1, h2⟩ := fold_items l (a ++ [x]) fun q hq => h q (.tail _ hq)
    exact ⟨x :: xs, by rw [List.foldl_cons, e, h1, List.append_assoc]; rfl, .cons hx h2⟩

/-- **C82.** Custom items are all there, in order, with their ids and with what their XML says. -/
theorem C82_items (cs : List JsFileCall) (n m : Ids) (d : DocxFile) (hb : (jsFileOf cs).build lib n = some (d, m)) :
    d.customItemProps = (cs.filterMap givesItem).map Prod.fst ∧
    List.Forall₂ (fun p x => ItemReads p.2 x) (cs.filterMap givesItem) d.customItems := by
  constructor
  · have h := view_props.built lib hb
    run_field h [effProps]
    rw [h, items_given, foldl_push (fun p : Str × Str => p.1)]
    rfl
  · have h := view_items_list.built lib hb
    have hr : ∀ p ∈ (jsFileOf cs).customItems, ∃ x, ItemReads p.2 x := by
      unfold JsFile.build at hb
      dsimp only at hb
      obtain ⟨d1, h1, h⟩ := Option.bind_eq_some_iff.1 hb
      obtain ⟨d2, h2, -⟩ := Option.map_eq_some_iff.1 h
      exact fun p hp => bridges_read _ h2 p.1 p.2 ((items_after _ _ _).2 hp)
    obtain ⟨xs, h1, h2⟩ := fold_items (jsFileOf cs).customItems [] hr
    run_field h [effItems]
    rw [← items_given, h]
    have e : DocxFile.new.customItems = [] := rfl
    rw [e, h1]
    exact h2

/-! ## Numberings -/

def effAbstract : List AbstractNumbering → BridgeCall → List AbstractNumbering
  | l, .builder (.addAbstractNumbering a) => l ++ [a]
  | x, _ => x

theorem view_abstract : View (fun d => d.numberings.abstractNums) effAbstract := by view_field

def effNumbering : List Numbering → BridgeCall → List Numbering
  | l, .builder (.addNumbering a) => l ++ [a]
  | x, _ => x

theorem view_numbering : View (fun d => d.numberings.numberings) effNumbering := by view_field

theorem abstract_arrived (cs : List JsFileCall) {n m : Ids} {d : DocxFile} (hb : (jsFileOf cs).build lib n = some (d, m)) :
    d.numberings.abstractNums = (cs.filterMap givesAbstract).map JsAbstractNumbering.build := by
  have h := view_abstract.built lib hb
  run_field h [effAbstract]
  have e : (jsFileOf cs).abstractNumberings = cs.filterMap givesAbstract :=
    all_calls (g := givesAbstract) (π := JsFile.abstractNumberings) (fun f c => by cases c <;> first | rfl | exact (List.append_nil _).symm) cs {}
  rw [h, foldl_push JsAbstractNumbering.build, e]
  rfl

theorem numbering_arrived (cs : List JsFileCall) {n m : Ids} {d : DocxFile} (hb : (jsFileOf cs).build lib n = some (d, m)) :
    d.numberings.numberings = (cs.filterMap givesNumbering).map jsNumbering := by
  have h := view_numbering.built lib hb
  run_field h [effNumbering]
  have e : (jsFileOf cs).numberings = cs.filterMap givesNumbering :=
    all_calls (g := givesNumbering) (π := JsFile.numberings) (fun f c => by cases c <;> first | rfl | exact (List.append_nil _).symm) cs {}
  rw [h, foldl_push jsNumbering, e]
  rfl

theorem level_flags (b i s : Option Bool) : (({} : RunProperty) |> onTrue b RunProperty.setBold |> onTrue i RunProperty.setItalic
    |> onFlag b RunProperty.setBold RunProperty.disableBold |> onFlag i RunProperty.setItalic RunProperty.disableItalic
    |> onFlag s RunProperty.setStrike RunProperty.disableStrike) = { bold := b, boldCs := b, italic := i, italicCs := i, strike := s } := by
  rcases b with _ | _ | _ <;> rcases i with _ | _ | _ <;> rcases s with _ | _ | _ <;> rfl

theorem level_values (p : RunProperty) (n : Option Nat) (c : Option Str) (f : Option JsFonts) (k : Option Int) : (p |> onSome n RunProperty.setSize
    |> onSome c RunProperty.setColor |> onSome f (fun p x => p.setFonts x.buildPlain) |> onSome k RunProperty.setSpacing) =
    { p with sz := n.or p.sz, szCs := n.or p.szCs, color := (c.map Color.new).or p.color, fonts := (f.map JsFonts.buildPlain).or p.fonts
             characterSpacing := k.or p.characterSpacing } := by
  cases n <;> cases c <;> cases f <;> cases k <;> rfl

theorem level_run (l : JsLevel) : l.build.runProperty =
    { bold := l.runProperty.bold, boldCs := l.runProperty.bold, italic := l.runProperty.italic, italicCs := l.runProperty.italic
      strike := l.runProperty.strike, sz := l.runProperty.size.filter (· ≠ 0), szCs := l.runProperty.size.filter (· ≠ 0)
      color := (truthy l.runProperty.color).map Color.new, fonts := l.runProperty.fonts.map JsFonts.buildPlain
      characterSpacing := l.runProperty.characterSpacing } := by
  refine (level_values _ _ _ _ _).trans ?_
  rw [level_flags]
  simp only [Option.or_none]

theorem level_plain (l : JsLevel) (h : LevelPlain l) : LevelArrived l l.build := by
  have h4 := filter_zero h.size
  have h5 : truthy l.runProperty.color = l.runProperty.color := filter_zero h.color
  have h7 : l.runProperty.fonts.map JsFonts.buildPlain = l.runProperty.fonts.map JsFonts.build := by
    cases hf : l.runProperty.fonts with
    | none => rfl
    | some f => exact congrArg some (plain_fonts (h.fonts f hf))
  constructor
  iterate 6 rfl
  all_goals try rw [level_run]
  · exact h4
  · exact congrArg (Option.map Color.new) h5
  · exact h7
  · exact h.highlight.symm
  · exact h.underline.symm
  · have := h.vanish
    cases hv : l.runProperty.vanish with
    | none => rfl
    | some b => cases b with
      | false => rfl
      | true => exact absurd hv this
  · obtain ⟨_, _, _, _, _, ind, _, _⟩ := l
    cases ind <;> rfl

theorem forall₂_map_self {α β : Type} {R : α → β → Prop} {g : α → β} : ∀ {l : List α}, (∀ a ∈ l, R a (g a)) → List.Forall₂ R l (l.map g)
  | [], _ => .nil
  | a :: _, h => .cons (h a (.head _)) (forall₂_map_self fun b hb => h b (.tail _ hb))

/-- **C82.** The definitions of lists are all there, in order, with their ids and with each of their levels as given. Missing: formatting
`LevelPlain` leaves out. -/
theorem C82_lists_partial (cs : List JsFileCall) (n m : Ids) (d : DocxFile) (hb : (jsFileOf cs).build lib n = some (d, m))
    (hp : ∀ a, .addAbstractNumbering a ∈ cs → ∀ l ∈ a.levels, LevelPlain l) :
    List.Forall₂ (fun (a : JsAbstractNumbering) (x : AbstractNumbering) => x.id = a.id ∧ List.Forall₂ LevelArrived a.levels x.levels)
      (cs.filterMap givesAbstract) d.numberings.abstractNums := by
  rw [abstract_arrived lib cs hb]
  refine forall₂_map_self fun a ha => ⟨rfl, forall₂_map_self fun l hl => level_plain l ?_⟩
  obtain ⟨c, hc, e⟩ := List.mem_filterMap.1 ha
  cases c <;> cases e
  exact hp _ hc l hl

/-- **C82 fails** for highlighting, underlining and hiding the number of a list: no level of the document has any. -/
theorem C82_fails_level (cs : List JsFileCall) (n m : Ids) (d : DocxFile) (hb : (jsFileOf cs).build lib n = some (d, m)) :
    ∀ a ∈ d.numberings.abstractNums, ∀ l ∈ a.levels,
      l.runProperty.highlight = none ∧ l.runProperty.underline = none ∧ l.runProperty.vanish = none := by
  rw [abstract_arrived lib cs hb]
  intro a ha l hl
  obtain ⟨x, _, rfl⟩ := List.mem_map.1 ha
  obtain ⟨y, _, rfl⟩ := List.mem_map.1 hl
  rw [level_run]
  exact ⟨rfl, rfl, rfl⟩

/-- **C82.** The lists are all there, in order. Missing: properties of a level put in place of another beyond number, first number, format,
text and place. -/
theorem C82_numberings_partial (cs : List JsFileCall) (n m : Ids) (d : DocxFile) (hb : (jsFileOf cs).build lib n = some (d, m))
    (hp : ∀ x, .addNumbering x ∈ cs → ∀ o ∈ x.overrides, OverridePlain o) : d.numberings.numberings = cs.filterMap givesNumbering := by
  rw [numbering_arrived lib cs hb]
  refine List.map_congr_left (g := id) (fun x hx => ?_) |>.trans (List.map_id _)
  obtain ⟨c, hc, e⟩ := List.mem_filterMap.1 hx
  cases c <;> cases e
  have ho : x.overrides.map jsOverride = x.overrides := by
    refine List.map_congr_left (g := id) (fun o hm => ?_) |>.trans (List.map_id _)
    have := hp x hc o hm
    obtain ⟨a, b, l⟩ := o
    cases l with
    | none => rfl
    | some l => exact congrArg (fun l => (⟨a, b, some l⟩ : LevelOverride)) (this l rfl).symm
  exact congrArg (fun l => (⟨x.id, x.abstractNumId, l⟩ : Numbering)) ho

/-- **C82 fails** for a level put in place of another: its indent, its formatting and what follows the number are lost. -/
theorem C82_fails_override (cs : List JsFileCall) (n m : Ids) (d : DocxFile) (hb : (jsFileOf cs).build lib n = some (d, m)) :
    ∀ x ∈ d.numberings.numberings, ∀ o ∈ x.overrides, ∀ l, o.overrideLevel = some l →
      l.paragraphProperty = {} ∧ l.runProperty = {} ∧ l.suffix = .tab := by
  rw [numbering_arrived lib cs hb]
  intro x hx o ho l hl
  obtain ⟨y, _, rfl⟩ := List.mem_map.1 hx
  obtain ⟨z, _, rfl⟩ := List.mem_map.1 ho
  obtain ⟨w, _, rfl⟩ := Option.map_eq_some_iff.1 hl
  exact ⟨rfl, rfl, rfl⟩

/-- **C82 fails** for a default size of 0 given after another: neither is there. -/
theorem C82_fails_size (cs : List JsFileCall) (n m : Ids) (d : DocxFile) (hb : (jsFileOf (cs ++ [.defaultSize 0])).build lib n = some (d, m)) :
    d.styles.docDefaults.runProperty.sz = none := by
  have h := view_defaultSize.built lib hb
  run_field h [effDefaultSize]
  have e : (jsFileOf (cs ++ [.defaultSize 0])).defaultSize = some 0 := by
    rw [jsFileOf, List.foldl_append]
    rfl
  rw [e] at h
  exact h

/-! ## A case -/

def aJsLevel : JsLevel :=
  { id := 0, start := 1, format := c!"decimal", text := c!"%1", jc := c!"left"
    runProperty := { bold := some true, size := some 12 }, indent := some (200, some .hanging, some 10) }

def jsSetUp : List JsFileCall :=
  [.defaultTabStop 100, .pageSize 500 600, .addDocVar c!"a" c!"b", .pageOrientation .landscape, .customProperty c!"k" c!"1", .createdAt c!"x",
    .webExtension ⟨c!"i", c!"r", c!"v", c!"s", c!"t", []⟩, .taskpanes, .customProperty c!"k" c!"2", .defaultTabStop 200, .pageSize 700 800,
    .defaultFonts { ascii := some c!"Arial" }, .defaultSize 20, .evenFooter (jsTitle c!"even"),
    .addAbstractNumbering ⟨7, [aJsLevel]⟩,
    .addNumbering ⟨3, 7, [{ level := 0, overrideStart := some 2 }]⟩, .add (.paragraph {})]

example : (∃ d m, (jsFileOf jsSetUp).build sampleLib ⟨1, 1, 1⟩ = some (d, m)) ∧ jsSetUp.any asksTaskpanes = true ∧
    (∀ a, .addAbstractNumbering a ∈ jsSetUp → ∀ l ∈ a.levels, LevelPlain l) ∧ (∀ x, .addNumbering x ∈ jsSetUp → ∀ o ∈ x.overrides, OverridePlain o) ∧
    lastSet givesSize jsSetUp = some (700, 800) ∧ lastSet givesTabStop jsSetUp = some 200 ∧
    lastSet (givesProperty c!"k") jsSetUp = some c!"2" := by
  refine ⟨(C82_builds _ _ _).2 (fun id xml h => by simp [jsSetUp] at h), rfl, ?_, ?_, rfl, rfl, by decide +kernel⟩
  · intro a ha l hl
    simp [jsSetUp] at ha
    subst ha
    rw [List.mem_singleton.1 hl]
    exact ⟨by decide, by decide, fun f hf => (by cases hf), rfl, rfl, by decide⟩
  · intro x hx o ho l hl
    simp [jsSetUp] at hx
    subst hx
    rw [List.mem_singleton.1 ho] at hl
    cases hl

end Docx.Props
