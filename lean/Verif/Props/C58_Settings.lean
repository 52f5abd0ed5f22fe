import Verif.Lemmas.ReadMore
import Verif.Lemmas.ReadRelsDoc
import Verif.Lemmas.KeptBody
import Verif.Lemmas.Witness
import Verif.Spec.PartsRead

/-!
# C58: settings that are written and read
-/

namespace Docx.Props

open Docx Docx.Xml Docx.Spec

set_option linter.unusedSimpArgs false

/-- The file has settings, and they are read as `s`. -/
def SettingsReadAs (x : ReadEnv) (es : List Entry) (s : Settings) : Prop :=
  ∃ text, ⟨c!"word/settings.xml", .text text⟩ ∈ es ∧ ∃ k, ∀ n, k ≤ n → readSettings x n text = .ok s [.endDocument]

theorem settingsReadAs_unique {x : ReadEnv} {env : Env} {d : DocxFile} {w : World} {es : List Entry} (h : Packed env d w es) {a b : Settings}
    (ha : SettingsReadAs x es a) (hb : SettingsReadAs x es b) : a = b := by
  obtain ⟨t, h1, k, hk⟩ := ha
  obtain ⟨t', h1', k', hk'⟩ := hb
  have := entry_unique (packed_nodup h) h1 h1'
  cases this
  have e := hk (max k k') (Nat.le_max_left _ _)
  rw [hk' (max k k') (Nat.le_max_right _ _)] at e
  simpa using e.symm

theorem settings_strings {s : Settings} (h : Settings.Kept s) : AllS s.strings := by
  intro t ht
  simp only [Settings.strings, optS, List.mem_append, Option.mem_toList, List.mem_flatMap, List.mem_cons, List.not_mem_nil, or_false] at ht
  rcases ht with ht | ⟨v, hv, rfl | rfl⟩
  · exact stored_of_plain (h.id t ht)
  · exact stored_of_plain (h.vars v hv).1
  · exact stored_of_plain (h.vars v hv).2

theorem settings_reread {s : Settings} (h : Settings.Kept s) : s.reread = afterSettings s := by
  obtain ⟨tab, zoom, id, vars, even, adjust, spacing⟩ := s
  obtain ⟨h1, h2, h3⟩ := h
  have e1 : float32Size tab = tab := by
    rw [float32Size, roundInt_small (by decide) (by simpa using h1)]
    have : tab ≤ 2 ^ 24 := h1
    simp only [toUsize, saturate]; omega
  have e2 : ∀ i, id = some i → rereadDocId i = unbraced i := fun i e => by
    have hp : Plain (c!"{" ++ i ++ c!"}") := ((plain_lit (by decide)).append (h2 i e)).append (plain_lit (by decide))
    rw [rereadDocId, seen, hp.decode, unbraced]
    simp
  have e3 : (vars.map fun v => (seen v.1, seen v.2)) = vars := by
    conv => rhs; rw [← List.map_id vars]
    refine List.map_congr_left fun v hv => ?_
    rw [(h3 v hv).1.seen, (h3 v hv).2.seen]; rfl
  simp only [Settings.reread, afterSettings, Settings.mk.injEq, true_and, e1, e3]
  refine ⟨?_, ?_⟩
  · cases id with
    | none => rfl
    | some i => exact congrArg some (e2 i rfl)
  · cases spacing with
    | none => rfl
    | some v => cases v <;> decide

/-- **C58.** The settings of a packed file are read as they were set, but for the zoom, braces in the id, and a spacing control that is
`unsupported`. -/
theorem C58_settings (x : ReadEnv) (d : DocxFile) (env : Env) (w : World) (es : List Entry) (h : Packed env d w es)
    (hk : Settings.Kept d.settings) : SettingsReadAs x es (afterSettings d.settings) := by
  obtain ⟨s, g, g', h1, h2⟩ := fits_write (packed_fits h) (step_settings _ _ _)
  have hc := settings_const (d.preparePackage env w).1
  obtain ⟨k, hk'⟩ := reads_settings (x := x) d.settings (settings_strings hk)
  rw [settings_reread hk] at hk'
  refine ⟨s, h2, k, fun n hn => ?_⟩
  have e : s = constText (some true) d.settings.nodes := by
    have := hc g
    rw [h1] at this
    rw [(preparePackage_same env d w).2.1] at this
    exact (by simpa using this : _ ∧ _).1
  rw [e]
  exact hk' n hn

/-- **C58, in part.** The settings of a packed file come back the same exactly if the zoom is 100, the id has no braces and the spacing
control is not `unsupported`. Full statement: always; it is false, see `C58_fails_zoom`, `C58_fails_tab` and `C58_fails_variable`. -/
theorem C58_same_partial (x : ReadEnv) (d : DocxFile) (env : Env) (w : World) (es : List Entry) (h : Packed env d w es)
    (hk : Settings.Kept d.settings) :
    SettingsReadAs x es d.settings ↔
      d.settings.zoom = 100 ∧ (∀ i, d.settings.docId = some i → '{' ∉ i ∧ '}' ∉ i) ∧ d.settings.characterSpacingControl ≠ some .unsupported := by
  have key : afterSettings d.settings = d.settings ↔
      d.settings.zoom = 100 ∧ (∀ i, d.settings.docId = some i → '{' ∉ i ∧ '}' ∉ i) ∧ d.settings.characterSpacingControl ≠ some .unsupported := by
    obtain ⟨tab, zoom, id, vars, even, adjust, spacing⟩ := d.settings
    simp only [afterSettings, Settings.mk.injEq, true_and]
    refine and_congr eq_comm (and_congr ?_ ?_)
    · cases id with
      | none => simp
      | some i =>
        simp only [Option.map_some, Option.some.injEq, forall_eq', unbraced, List.filter_eq_self]
        constructor
        · exact fun h => ⟨fun hm => by simpa using h _ hm, fun hm => by simpa using h _ hm⟩
        · rintro ⟨h1, h2⟩ c hc
          simp only [ne_eq, decide_eq_true_eq]
          exact ⟨fun e => h1 (e ▸ hc), fun e => h2 (e ▸ hc)⟩
    · split
      · rename_i e; simp [e]
      · rename_i e; simp [e]
  rw [← key]
  constructor
  · exact fun hi => settingsReadAs_unique h (C58_settings x d env w es h hk) hi
  · intro e
    have := C58_settings x d env w es h hk
    rwa [e] at this

/-- **C58 fails** for the zoom: whatever it is, it is written and read as 100. -/
theorem C58_fails_zoom (x : ReadEnv) (d : DocxFile) (env : Env) (w : World) (es : List Entry) (h : Packed env d w es)
    (hk : Settings.Kept d.settings) (hz : d.settings.zoom ≠ 100) : ¬ SettingsReadAs x es d.settings :=
  fun hi => hz ((C58_same_partial x d env w es h hk).1 hi).1

/-- **C58 fails** for a default tab stop of `2 ^ 24 + 1`, which is read as `2 ^ 24`. -/
theorem C58_fails_tab (x : ReadEnv) (d : DocxFile) (env : Env) (w : World) (es : List Entry) (h : Packed env d w es)
    (hd : d.settings = { defaultTabStop := 2 ^ 24 + 1 }) : SettingsReadAs x es { defaultTabStop := 2 ^ 24 } := by
  obtain ⟨s, g, g', h1, h2⟩ := fits_write (packed_fits h) (step_settings _ _ _)
  have hc := settings_const (d.preparePackage env w).1
  obtain ⟨k, hk'⟩ := reads_settings (x := x) d.settings (by rw [hd]; exact fun _ h => by cases h)
  have hr : d.settings.reread = { defaultTabStop := 2 ^ 24 } := by
    rw [hd]
    have : float32Size (2 ^ 24 + 1) = 2 ^ 24 := by decide +kernel
    simp only [Settings.reread, this]
    rfl
  rw [hr] at hk'
  refine ⟨s, h2, k, fun n hn => ?_⟩
  have e : s = constText (some true) d.settings.nodes := by
    have := hc g
    rw [h1] at this
    rw [(preparePackage_same env d w).2.1] at this
    exact (by simpa using this : _ ∧ _).1
  rw [e]
  exact hk' n hn

/-! ## A text that is not escaped -/

/-- An error of the parser before the end of the settings is an error of the reader. -/
theorem settings_error (x : ReadEnv) : ∀ (pre : List REvent) (post : List REvent) (s : Settings) (n : Nat), pre.length < n →
    (∀ e ∈ pre, e ≠ .error ∧ e ≠ .endDocument ∧ ∀ q, e = .«end» q → elementOf q.loc ≠ .settings) →
    (settingsLoop x).run n s (pre ++ .error :: post) = .err post
  | [], post, s, n + 1, _, _ => by simp [Loop.run, nextEvent, settingsLoop]
  | e :: pre, post, s, n + 1, hn, h => by
    have hp := h e (.head _)
    have ih := fun s => settings_error x pre post s n (by simpa using hn) fun e he => h e (.tail _ he)
    have hst : ∀ q as es, ∃ s', (settingsLoop x).start s q as es = .ok s' es := by
      intro q as es
      simp only [settingsLoop]
      split
      · exact ⟨_, rfl⟩
      · split <;> exact ⟨_, rfl⟩
      · split <;> exact ⟨_, rfl⟩
      · exact ⟨_, rfl⟩
      · exact ⟨_, rfl⟩
      · split <;> exact ⟨_, rfl⟩
      · exact ⟨_, rfl⟩
    cases e with
    | start q as =>
      obtain ⟨s', hs⟩ := hst q as (pre ++ .error :: post)
      simp only [List.cons_append, Loop.run, nextEvent, hs, Read.bind]
      exact ih s'
    | «end» q =>
      have : (settingsLoop x).close s q = some s := by simp only [settingsLoop, closesAt, if_neg (hp.2.2 q rfl)]
      simp only [List.cons_append, Loop.run, nextEvent, this]
      exact ih s
    | chars t => simp only [List.cons_append, Loop.run, nextEvent]; exact ih _
    | whitespace t => simp only [List.cons_append, Loop.run, nextEvent]; exact ih _
    | endDocument => exact absurd rfl hp.2.1
    | error => exact absurd rfl hp.1

/-- Whether the parser fails before the end of the settings. -/
def failsEarly : List REvent → Bool
  | [] => false
  | .error :: _ => true
  | .endDocument :: _ => false
  | .«end» q :: l => decide (elementOf q.loc ≠ .settings) && failsEarly l
  | _ :: l => failsEarly l

theorem failsEarly_split : ∀ l : List REvent, failsEarly l = true → ∃ pre post, l = pre ++ .error :: post ∧
    ∀ e ∈ pre, e ≠ .error ∧ e ≠ .endDocument ∧ ∀ q, e = .«end» q → elementOf q.loc ≠ .settings
  | [], h => by cases h
  | .error :: l, _ => ⟨[], l, rfl, fun _ h => by cases h⟩
  | .endDocument :: l, h => by cases h
  | .«end» q :: l, h => by
    simp only [failsEarly, Bool.and_eq_true, decide_eq_true_eq] at h
    obtain ⟨pre, post, rfl, hp⟩ := failsEarly_split l h.2
    refine ⟨.«end» q :: pre, post, rfl, fun e he => ?_⟩
    rcases List.mem_cons.1 he with rfl | he
    · exact ⟨nofun, nofun, fun q' e => by cases e; exact h.1⟩
    · exact hp e he
  | .start q as :: l, h => by
    obtain ⟨pre, post, rfl, hp⟩ := failsEarly_split l h
    refine ⟨.start q as :: pre, post, rfl, fun e he => ?_⟩
    rcases List.mem_cons.1 he with rfl | he
    · exact ⟨nofun, nofun, nofun⟩
    · exact hp e he
  | .chars t :: l, h => by
    obtain ⟨pre, post, rfl, hp⟩ := failsEarly_split l h
    refine ⟨.chars t :: pre, post, rfl, fun e he => ?_⟩
    rcases List.mem_cons.1 he with rfl | he
    · exact ⟨nofun, nofun, nofun⟩
    · exact hp e he
  | .whitespace t :: l, h => by
    obtain ⟨pre, post, rfl, hp⟩ := failsEarly_split l h
    refine ⟨.whitespace t :: pre, post, rfl, fun e he => ?_⟩
    rcases List.mem_cons.1 he with rfl | he
    · exact ⟨nofun, nofun, nofun⟩
    · exact hp e he

/-- **C58 fails** for a variable whose value has an ampersand: it is written as it is, and then the settings cannot be read at all, nor
can the file (reader/read_docx.rs:389-391 passes the error on). -/
theorem C58_fails_variable (x : ReadEnv) (d : DocxFile) (env : Env) (w : World) (es : List Entry) (h : Packed env d w es)
    (hd : d.settings = { docVars := [(c!"title", c!"Q & A")] }) :
    ∃ text, ⟨c!"word/settings.xml", .text text⟩ ∈ es ∧ ∃ k, ∀ n, k ≤ n → ∃ rest, readSettings x n text = .err rest := by
  obtain ⟨s, g, g', h1, h2⟩ := fits_write (packed_fits h) (step_settings _ _ _)
  have hc := settings_const (d.preparePackage env w).1
  have e : s = constText (some true) (Settings.nodes { docVars := [(c!"title", c!"Q & A")] }) := by
    have := hc g
    rw [h1] at this
    rw [(preparePackage_same env d w).2.1, hd] at this
    simp only [Option.some.injEq, Prod.mk.injEq, Except.ok.injEq] at this
    exact this.1
  have hf : failsEarly (readEvents (constText (some true) (Settings.nodes { docVars := [(c!"title", c!"Q & A")] }))) = true := by decide +kernel
  obtain ⟨pre, post, he, hp⟩ := failsEarly_split _ hf
  refine ⟨s, h2, pre.length + 1, fun n hn => ⟨post, ?_⟩⟩
  rw [readSettings, e, he]
  exact settings_error x pre post _ n (by omega) hp

private def settingsCalls : List Call :=
  [.docId c!"50D1564C-CF0A-44B0-A7C6-DF4A41C2C4B5", .defaultTabStop 720, .addDocVar c!"author" c!"Ann", .addDocVar c!"year" c!"2024"]

private theorem settings_pack : packs (fun d _ => decide (d.settings.zoom = 100 ∧ d.settings.defaultTabStop = 720 ∧
    d.settings.docId = some c!"50D1564C-CF0A-44B0-A7C6-DF4A41C2C4B5" ∧ d.settings.docVars = [(c!"author", c!"Ann"), (c!"year", c!"2024")] ∧
    d.settings.characterSpacingControl = none)) settingsCalls = true := by decide +kernel

/-- A packed file with an id, a tab stop and variables meets the hypotheses of `C58_settings`, and its settings are read back as they are. -/
example (x : ReadEnv) : ∃ d es, DocxFile.new.calls settingsCalls = some d ∧ Packed anEnv d {} es ∧ Settings.Kept d.settings ∧
    d.settings.docVars ≠ [] ∧ SettingsReadAs x es d.settings := by
  obtain ⟨d, es, h1, h2, h3⟩ := packs_spec settings_pack
  rw [decide_eq_true_eq] at h3
  obtain ⟨a, b, c, e, f⟩ := h3
  have hk : Settings.Kept d.settings := by
    refine ⟨by rw [b]; omega, fun i hi => ?_, fun v hv => ?_⟩
    · rw [c] at hi
      cases hi
      exact plain_lit (by decide)
    · rw [e] at hv
      simp only [List.mem_cons, List.not_mem_nil, or_false] at hv
      rcases hv with rfl | rfl
      · exact ⟨plain_lit (by decide), plain_lit (by decide)⟩
      · exact ⟨plain_lit (by decide), plain_lit (by decide)⟩
  refine ⟨d, es, h1, h2, hk, by rw [e]; simp, (C58_same_partial x d anEnv {} es h2 hk).2 ⟨a, fun i hi => ?_, by rw [f]; simp⟩⟩
  rw [c] at hi
  cases hi
  decide

private theorem variable_pack : packs (fun d _ => decide (d.settings.docVars = [(c!"title", c!"Q & A")] ∧ d.settings.zoom = 100 ∧
    d.settings.defaultTabStop = 840 ∧ d.settings.docId = none ∧ d.settings.evenAndOddHeaders = false ∧
    d.settings.adjustLineHeightInTable = false ∧ d.settings.characterSpacingControl = none)) [.addDocVar c!"title" c!"Q & A"] = true := by
  decide +kernel

/-- A packed file meets the hypothesis of `C58_fails_variable`. -/
example : ∃ d es, DocxFile.new.calls [.addDocVar c!"title" c!"Q & A"] = some d ∧ Packed anEnv d {} es ∧
    d.settings = { docVars := [(c!"title", c!"Q & A")] } := by
  obtain ⟨d, es, h1, h2, h3⟩ := packs_spec variable_pack
  rw [decide_eq_true_eq] at h3
  obtain ⟨a, b, c, e, f, g, i⟩ := h3
  refine ⟨d, es, h1, h2, ?_⟩
  generalize d.settings = s at *
  obtain ⟨_, _, _, _, _, _, _⟩ := s
  simp only at a b c e f g i
  subst a b c e f g i
  rfl

end Docx.Props
