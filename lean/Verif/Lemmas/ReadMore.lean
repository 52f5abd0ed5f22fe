import Verif.Model.ReadMore
import Verif.Lemmas.ReadComments
import Verif.Props.C31_Enums

/-!
# Reading back settings, headers, footers and custom properties
-/

namespace Docx

open Docx.Xml Docx.Spec

set_option linter.unusedSimpArgs false

variable {x : ReadEnv}

/-! ## Settings -/

/-- An id of a document, read back: written in braces, read without any. -/
def rereadDocId (i : Str) : Str := (seen (c!"{" ++ i ++ c!"}")).filter fun c => c ≠ '{' ∧ c ≠ '}'

/-- Settings read back: the zoom is not read. -/
def Settings.reread (s : Settings) : Settings where
  defaultTabStop := float32Size s.defaultTabStop
  docId := s.docId.map rereadDocId
  docVars := s.docVars.map fun v => (seen v.1, seen v.2)
  evenAndOddHeaders := s.evenAndOddHeaders
  adjustLineHeightInTable := s.adjustLineHeightInTable
  characterSpacingControl := s.characterSpacingControl.bind fun v => CharacterSpacingValues.fromStr v.toStr

theorem settings_passes {s : Settings} {q : QName} {as : Attrs} {es : List REvent}
    (h : elementOf q.loc ∉ [El.docId, .docVar, .defaultTabStop, .evenAndOddHeaders, .adjustLineHeightInTable,
      .characterSpacingControl, .settings]) : (settingsLoop x).start s q as es = .ok s es ∧ (settingsLoop x).close s q = some s := by
  simp only [List.mem_cons, List.not_mem_nil, not_or] at h
  constructor
  · simp only [settingsLoop]
    split <;> simp_all
  · simp only [settingsLoop, closesAt]
    rw [if_neg h.2.2.2.2.2.2.1]

theorem settings_skip {s : Settings} {n : Str} {as : List (Str × Str)}
    (h : elementOf (splitQName n).loc ∉ [El.docId, .docVar, .defaultTabStop, .evenAndOddHeaders, .adjustLineHeightInTable,
      .characterSpacingControl, .settings]) : TakesF x (fun _ => settingsLoop x) s (leafN n as) s := by
  exact TakesF.leaf' (fun d es _ => (settings_passes (es := es) h).1) (fun d => (settings_passes (as := []) (es := []) h).2)

theorem takes_docVars (l : List (Str × Str)) (h : ∀ v ∈ l, (decodeAttr v.1).isSome ∧ (decodeAttr v.2).isSome) : ∀ s : Settings,
    TakesF x (fun _ => settingsLoop x) s (l.flatMap fun v => leafN c!"w:docVar" [(c!"w:name", v.1), (c!"w:val", v.2)])
      { s with docVars := s.docVars ++ l.map fun v => (seen v.1, seen v.2) } := by
  induction l with
  | nil => intro s; simpa using TakesF.nil s
  | cons v l ih =>
    intro s
    rw [List.flatMap_cons]
    have h1 : TakesF x (fun _ => settingsLoop x) s (leafN c!"w:docVar" [(c!"w:name", v.1), (c!"w:val", v.2)])
        { s with docVars := s.docVars ++ [(seen v.1, seen v.2)] } := by
      have hv := h v (.head _)
      have s1 : (splitQName c!"w:name").loc = c!"name" := by decide
      have s2 : (splitQName c!"w:val").loc = c!"val" := by decide
      have s3 : elementOf (splitQName c!"w:docVar").loc = .docVar := by decide +kernel
      refine TakesF.leaf' (fun d es _ => ?_) (fun d => ?_)
      · simp [-String.reduceToList, String.toList_inj, settingsLoop, expectAttrs_cons hv.1, expectAttrs_cons hv.2, expectAttrs_nil, attrNamed_cons, s1, s2, s3]
      · simp [-String.reduceToList, settingsLoop, closesAt, s3]
    have := h1.append (ih (fun v hv => h v (.tail _ hv)) _)
    simpa using this

set_option maxHeartbeats 2000000 in
theorem takes_settings (s : Settings) (hs : AllS s.strings) (s₀ : Settings) (h0 : s₀ = {}) :
    TakesF x (fun _ => settingsLoop x) s₀
      (valN c!"w:defaultTabStop" (dec s.defaultTabStop)
    ++ leafN c!"w:zoom" [(c!"w:percent", dec s.zoom)]
    ++ s.compatNodes
    ++ optN s.docId (fun i => leafN c!"w15:docId" [(c!"w15:val", c!"{" ++ i ++ c!"}")])
    ++ (if s.docVars.isEmpty then [] else
        [.elem c!"w:docVars" [] (s.docVars.flatMap fun v => leafN c!"w:docVar" [(c!"w:name", v.1), (c!"w:val", v.2)])])
    ++ (if s.evenAndOddHeaders then leafN c!"w:evenAndOddHeaders" else [])) s.reread := by
  subst h0
  obtain ⟨tab, zoom, id, vars, even, adjust, spacing⟩ := s
  have hid : ∀ i, id = some i → Stored i := fun i e => hs i (by simp [Settings.strings, optS, e])
  have hv : ∀ v ∈ vars, (decodeAttr v.1).isSome ∧ (decodeAttr v.2).isSome := fun v hm =>
    ⟨(hs v.1 (by simp [Settings.strings]; exact .inr ⟨_, _, hm, .inl rfl⟩)).2.1, (hs v.2 (by simp [Settings.strings]; exact .inr ⟨_, _, hm, .inr rfl⟩)).2.1⟩
  have s2 : (splitQName c!"w:val").loc = c!"val" := by decide
  have k1 : TakesF x (fun _ => settingsLoop x) {} (valN c!"w:defaultTabStop" (dec tab)) { defaultTabStop := float32Size tab } := by
    have s3 : elementOf (splitQName c!"w:defaultTabStop").loc = .defaultTabStop := by decide +kernel
    refine TakesF.leaf' (fun d es _ => ?_) (fun d => ?_)
    · simp [-String.reduceToList, String.toList_inj, settingsLoop, expectAttrs_dec, expectAttrs_nil, attrNamed_cons, s2, s3, parseFloat32_dec, float32Size]
    · simp [-String.reduceToList, settingsLoop, closesAt, s3]
  have k2 : ∀ s, TakesF x (fun _ => settingsLoop x) s (leafN c!"w:zoom" [(c!"w:percent", dec zoom)]) s :=
    fun s => settings_skip (by decide +kernel)
  have k3 : ∀ s : Settings, s.characterSpacingControl = none → s.adjustLineHeightInTable = false →
      TakesF x (fun _ => settingsLoop x) s (Settings.compatNodes ⟨tab, zoom, id, vars, even, adjust, spacing⟩)
      { s with adjustLineHeightInTable := adjust, characterSpacingControl := spacing.bind fun v => CharacterSpacingValues.fromStr v.toStr } := by
    intro s e1 e2
    have c : elementOf (splitQName c!"w:compat").loc ∉ [El.docId, .docVar, .defaultTabStop, .evenAndOddHeaders, .adjustLineHeightInTable,
      .characterSpacingControl, .settings] := by decide +kernel
    have c1 : ∀ s, TakesF x (fun _ => settingsLoop x) s (optN spacing fun v => valN c!"w:characterSpacingControl" v.toStr)
        { s with characterSpacingControl := (spacing.bind fun v => CharacterSpacingValues.fromStr v.toStr).or s.characterSpacingControl } := by
      intro s
      cases spacing with
      | none => exact .nil _
      | some v =>
        have s3 : elementOf (splitQName c!"w:characterSpacingControl").loc = .characterSpacingControl := by decide +kernel
        have s4 : seen v.toStr = v.toStr := by cases v <;> decide +kernel
        refine TakesF.leaf' (fun d es _ => ?_) (fun d => ?_)
        · simp only [settingsLoop, s3, expectAttrs_cons (CharacterSpacingValues.attr v).2.1, expectAttrs_nil, attrNamed_cons, s2, if_true, s4, Option.bind_some]
          cases CharacterSpacingValues.fromStr v.toStr <;> rfl
        · simp [-String.reduceToList, settingsLoop, closesAt, s3]
    have c2 : ∀ s : Settings, s.adjustLineHeightInTable = false →
        TakesF x (fun _ => settingsLoop x) s (if adjust then leafN c!"w:adjustLineHeightInTable" else []) { s with adjustLineHeightInTable := adjust } := by
      intro s e
      cases adjust with
      | false => obtain ⟨_, _, _, _, _, _, _⟩ := s; cases e; exact .nil _
      | true =>
        have s3 : elementOf (splitQName c!"w:adjustLineHeightInTable").loc = .adjustLineHeightInTable := by decide +kernel
        refine TakesF.leaf' (fun d es _ => ?_) (fun d => ?_)
        · simp [-String.reduceToList, settingsLoop, s3]
        · simp [-String.reduceToList, settingsLoop, closesAt, s3]
    have sk : ∀ s n as, elementOf (splitQName n).loc ∉ [El.docId, .docVar, .defaultTabStop, .evenAndOddHeaders, .adjustLineHeightInTable,
        .characterSpacingControl, .settings] → TakesF x (fun _ => settingsLoop x) s (leafN n as) s := fun s n as h => settings_skip h
    have cs : ∀ s n v, TakesF x (fun _ => settingsLoop x) s (compatSettingN n v) s := fun s n v => settings_skip (by decide +kernel)
    unfold Settings.compatNodes
    refine TakesF.wrap (s₁ := s) (s₂ := { s with adjustLineHeightInTable := adjust, characterSpacingControl := spacing.bind fun v => CharacterSpacingValues.fromStr v.toStr })
      (fun d es _ => (settings_passes (es := es) c).1) ?_ (fun d => (settings_passes (as := []) (es := []) c).2)
    · refine ((((((((((((((sk _ _ _ (by decide +kernel)).append (sk _ _ _ (by decide +kernel))).append (sk _ _ _ (by decide +kernel))).append
        (sk _ _ _ (by decide +kernel))).append (sk _ _ _ (by decide +kernel))).append (c1 _)).append (c2 _ ?_)).append
        (sk _ _ _ (by decide +kernel))).append (cs _ _ _)).append (cs _ _ _)).append (cs _ _ _)).append (cs _ _ _)).append (cs _ _ _)).append ?_)
      · exact e2
      · have := cs { s with adjustLineHeightInTable := adjust, characterSpacingControl := spacing.bind fun v => CharacterSpacingValues.fromStr v.toStr }
          c!"useWord2013TrackBottomHyphenation" c!"0"
        simpa [e1] using this
  have k4 : ∀ s : Settings, s.docId = none → TakesF x (fun _ => settingsLoop x) s
      (optN id fun i => leafN c!"w15:docId" [(c!"w15:val", c!"{" ++ i ++ c!"}")]) { s with docId := id.map rereadDocId } := by
    intro s e
    cases id with
    | none => obtain ⟨_, _, _, _, _, _, _⟩ := s; cases e; exact .nil _
    | some i =>
      have s1 : splitQName c!"w15:val" = ⟨some c!"w15", c!"val"⟩ := by decide
      have s3 : elementOf (splitQName c!"w15:docId").loc = .docId := by decide +kernel
      refine TakesF.leaf' (fun d es _ => ?_) (fun d => ?_)
      · simp only [settingsLoop, s3, expectAttrs_cons (braces_ok (hid i rfl)).2.1, expectAttrs_nil, s1, readDocId, List.foldl_cons, List.foldl_nil,
          and_self, if_true, Option.map_some, rereadDocId]
      · simp [-String.reduceToList, settingsLoop, closesAt, s3]
  have k5 : ∀ s : Settings, s.docVars = [] → TakesF x (fun _ => settingsLoop x) s
      (if vars.isEmpty then [] else
        [.elem c!"w:docVars" [] (vars.flatMap fun v => leafN c!"w:docVar" [(c!"w:name", v.1), (c!"w:val", v.2)])])
      { s with docVars := vars.map fun v => (seen v.1, seen v.2) } := by
    intro s e
    have c : elementOf (splitQName c!"w:docVars").loc = .docVars := by decide +kernel
    obtain ⟨a1, a2, a3, a4, a5, a6, a7⟩ := s
    cases e
    cases vars with
    | nil => exact .nil _
    | cons v l =>
      refine TakesF.wrap (fun d es _ => ?_) (takes_docVars (v :: l) hv ⟨a1, a2, a3, [], a5, a6, a7⟩) (fun d => ?_)
      · simp only [settingsLoop, c]
      · simp [-String.reduceToList, settingsLoop, closesAt, c]
  have k6 : ∀ s : Settings, s.evenAndOddHeaders = false → TakesF x (fun _ => settingsLoop x) s
      (if even then leafN c!"w:evenAndOddHeaders" else []) { s with evenAndOddHeaders := even } := by
    intro s e
    cases even with
    | false => obtain ⟨_, _, _, _, _, _, _⟩ := s; cases e; exact .nil _
    | true =>
      have s3 : elementOf (splitQName c!"w:evenAndOddHeaders").loc = .evenAndOddHeaders := by decide +kernel
      refine TakesF.leaf' (fun d es _ => ?_) (fun d => ?_)
      · simp [-String.reduceToList, settingsLoop, s3, readBool, expectAttrs_nil, attrNamed, attrFirst]
      · simp [-String.reduceToList, settingsLoop, closesAt, s3]
  exact (((((k1.append (k2 _)).append (k3 _ rfl rfl)).append (k4 _ rfl)).append (k5 _ rfl)).append (k6 _ rfl))

/-- The settings part, written, reads as the settings read back. -/
theorem reads_settings (s : Settings) (hs : AllS s.strings) :
    ∃ k, ∀ d, k ≤ d → readSettings x d (constText (some true) s.nodes) = .ok s.reread [.endDocument] := by
  have s3 : elementOf (splitQName c!"w:settings").loc = .settings := by decide +kernel
  obtain ⟨k, hk⟩ := runs_root (x := x) (L := fun _ => settingsLoop x) (n := c!"w:settings") (as := settingsAttrs)
    (fun d es => by simp [-String.reduceToList, settingsLoop, s3]) (takes_settings s hs _ rfl)
    (fun d => by simp [-String.reduceToList, settingsLoop, closesAt, s3])
  refine ⟨k, fun d hd => ?_⟩
  rw [readSettings, constText_reads (some true) (s.ok hs)]
  exact hk d hd d hd

/-! ## Headers and footers -/

/-- A child of a header that can be read back. -/
def HeaderChild.Readable : HeaderChild → Prop
  | .paragraph p => p.Readable
  | .table t => t.Readable
  | .sdt s => s.Readable

/-- A child of a header read back. -/
def HeaderChild.reread (x : ReadEnv) : HeaderChild → HeaderChild
  | .paragraph p => .paragraph p.reread
  | .table t => .table (t.reread x)
  | .sdt s => .sdt (s.reread x)

/-- Whether a child has a numbered paragraph. -/
def HeaderChild.flagged : HeaderChild → Bool
  | .paragraph p => p.hasNumbering
  | .table t => t.hasNumbering
  | .sdt s => s.hasNumbering

/-- A header that can be read back. -/
def Header.Readable (h : Header) : Prop := ∀ c ∈ h.children, c.Readable

/-- More children for a header. -/
def Header.addAll (h : Header) (l : List HeaderChild) : Header :=
  { hasNumbering := h.hasNumbering || l.any HeaderChild.flagged, children := h.children ++ l }

/-- A header or footer read back. -/
def Header.reread (x : ReadEnv) (h : Header) : Header := ({} : Header).addAll (h.children.map (HeaderChild.reread x))

theorem takes_headerChild (c : HeaderChild) (h : c.Readable) :
    TakesN x (headerLoop x) c.nodes (fun d => d.addAll [c.reread x]) := by
  intro g f g' e d
  cases c with
  | paragraph p =>
    obtain ⟨as, body, rfl, hr⟩ := returns_paragraph (x := x) p h e
    refine TakesF.child ((hr.caught (g := fun p es => match p with
        | some p => .ok (d.addParagraph p) es
        | none => .ok d es) (fun es => rfl)).congr (fun _ es hd => ?_) |>.mono ?_)
    · simp [-String.reduceToList, headerLoop]; rfl
    · simp [Header.addAll, Header.addParagraph, HeaderChild.reread, HeaderChild.flagged]
  | table t =>
    obtain ⟨body, rfl, hr⟩ := returns_table (x := x) t h e
    refine TakesF.child ((hr.caught (g := fun p es => match p with
        | some p => .ok (d.addTable p) es
        | none => .ok d es) (fun es => rfl)).congr (fun _ es hd => ?_) |>.mono ?_)
    · simp [-String.reduceToList, headerLoop]; rfl
    · simp [Header.addAll, Header.addTable, HeaderChild.reread, HeaderChild.flagged]
  | sdt s =>
    obtain ⟨body, rfl, hr⟩ := returns_sdt (x := x) s h e
    refine TakesF.child ((hr.caught (g := fun s es => match s with
        | some s => .ok (d.addSdt s) es
        | none => .ok d es) (fun es => rfl)).congr (fun _ es hd => ?_) |>.mono ?_)
    · simp [-String.reduceToList, headerLoop]; rfl
    · simp [Header.addAll, Header.addSdt, HeaderChild.reread, HeaderChild.flagged]

theorem headerFold (l : List HeaderChild) : ∀ h : Header, l.foldl (fun h c => h.addAll [c.reread x]) h = h.addAll (l.map (HeaderChild.reread x)) := by
  induction l with
  | nil => intro h; cases h; simp [Header.addAll]
  | cons c l ih => intro h; rw [List.foldl_cons, ih]; simp [Header.addAll, Bool.or_assoc]

/-- A header part, written, reads as the header read back; so does a footer part. -/
theorem reads_header (name : Str) (hn : elementOf (splitQName name).loc = .unsupported) (hn' : NameOk name) (h : Header) (hs : AllS h.strings)
    (hr : h.Readable) {g g' : Gen} {out : Str} (e : writePart (some true) (h.build name) g = some (.ok out, g')) :
    ∃ k, ∀ d, k ≤ d → readHeader x d out = .ok (h.reread x) [] := by
  rw [← Header_build_flat] at e
  obtain ⟨f, hf, _, hev⟩ := writePart_reads (h.ok hn' hs) e
  obtain ⟨body, hb, rfl⟩ := elemN_eq hf
  have k1 : TakesN x (headerLoop x) (eachN HeaderChild.nodes h.children) (fun p => h.children.foldl (fun h c => h.addAll [c.reread x]) p) :=
    .each (add := fun (h : Header) c => h.addAll [c.reread x]) fun a ha => takes_headerChild a (hr a ha)
  have hk := k1 _ _ _ hb {}
  dsimp only at hk
  rw [headerFold] at hk
  have hw : TakesF x (headerLoop x) {} [.elem name headerAttrs body] (h.reread x) :=
    TakesF.wrap (fun d es _ => by simp only [headerLoop, hn]) hk (fun d => rfl)
  have hend : Runs x (headerLoop x) (h.reread x) (expect [] none []) (.ok (h.reread x) []) := by
    refine ⟨1, fun _ _ n hn => ?_⟩
    obtain ⟨n, rfl⟩ : ∃ m, n = m + 1 := ⟨n - 1, by omega⟩
    rfl
  obtain ⟨k, hk⟩ := hw [] [] _ hend
  rw [List.append_nil] at hk
  exact ⟨k, fun d hd => by rw [readHeader, hev]; exact hk d hd d hd⟩

/-! ## Custom properties -/

/-- The properties after one more was read: an empty or blank text is no character data. -/
def putProperty (l : List (Str × Str)) (name value : Str) : List (Str × Str) :=
  if ∀ c ∈ value, c = ' ' ∨ c = '\t' ∨ c = '\n' ∨ c = '\r' then l else hashInsert name value l

theorem takes_value {key v u : Str} (hu : decodeText v = some u) (l : List (Str × Str)) :
    TakesF x (fun _ => customPropertyLoop key) l (textEl c!"vt:lpwstr" [] v) (putProperty l key u) := by
  intro stk r res hr
  have s1 : (splitQName c!"vt:lpwstr").loc = c!"lpwstr" := by decide
  have s2 : elementOf (splitQName c!"vt:lpwstr").loc ≠ .property := by decide +kernel
  rw [textEl, expect_elem]
  have e : expect (c!"vt:lpwstr" :: stk) none (tagsForest [.text v] ++ .cls :: r) =
      expectText (if u = [] then none else some u) ++ .«end» (splitQName c!"vt:lpwstr") :: expect stk none r := by
    cases u with
    | nil => simp [-String.reduceToList, tagsForest, Node.tags, expect, hu, expectText]
    | cons c u => simp [-String.reduceToList, tagsForest, Node.tags, expect, hu]
  rw [e]
  by_cases h0 : u = []
  · subst h0
    refine runs_start ⟨0, fun d _ => ?_⟩ hr
    simp [-String.reduceToList, customPropertyLoop, s1, expectText, nextEvent, putProperty]
  · rw [if_neg h0]
    by_cases hw : ∀ c ∈ u, c = ' ' ∨ c = '\t' ∨ c = '\n' ∨ c = '\r'
    · refine runs_start (s' := putProperty l key u) (es' := .«end» (splitQName c!"vt:lpwstr") :: expect stk none r) ⟨0, fun d _ => ?_⟩
        (runs_end (fun d => ?_) hr)
      · simp only [customPropertyLoop, s1, if_true, expectText, if_pos hw, List.cons_append, List.nil_append, nextEvent, putProperty]
      · simp only [customPropertyLoop, closesAt, if_neg s2]
    · refine runs_start (s' := putProperty l key u) (es' := .«end» (splitQName c!"vt:lpwstr") :: expect stk none r) ⟨0, fun d _ => ?_⟩
        (runs_end (fun d => ?_) hr)
      · simp only [customPropertyLoop, s1, if_true, expectText, if_neg hw, List.cons_append, List.nil_append, nextEvent, putProperty]
      · simp only [customPropertyLoop, closesAt, if_neg s2]

/-- Custom properties read back. -/
def rereadProps (l : List (Str × Str)) : List (Str × Str) :=
  l.foldl (fun m v => putProperty m (seen v.1) ((decodeText v.2).getD [])) []

theorem takes_props (l : List (Str × Str)) (h : AllS (l.flatMap fun v => [v.1, v.2])) : ∀ (n : Nat) m,
    TakesF x customPropsLoop m ((l.zipIdx n).flatMap fun v =>
      [.elem c!"property" [(c!"fmtid", c!"{D5CDD505-2E9C-101B-9397-08002B2CF9AE}"), (c!"pid", dec (v.2 + 2)), (c!"name", v.1.1)]
        (textEl c!"vt:lpwstr" [] v.1.2)])
      (l.foldl (fun m v => putProperty m (seen v.1) ((decodeText v.2).getD [])) m) := by
  induction l with
  | nil => exact fun _ m => .nil m
  | cons v l ih =>
    intro n m
    rw [List.zipIdx_cons, List.flatMap_cons, List.foldl_cons]
    refine TakesF.append ?_ (ih (fun s hs => h s (by rw [List.flatMap_cons]; exact List.mem_append_right _ hs)) _ _)
    have h1 : Stored v.1 := h _ (by simp)
    have h2 : Stored v.2 := h _ (by simp)
    obtain ⟨u, hu⟩ := Option.isSome_iff_exists.1 h2.1
    have s1 : elementOf (splitQName c!"property").loc = .property := by decide +kernel
    have s2 : splitQName c!"fmtid" = ⟨none, c!"fmtid"⟩ := by decide
    have s3 : splitQName c!"pid" = ⟨none, c!"pid"⟩ := by decide
    have s4 : splitQName c!"name" = ⟨none, c!"name"⟩ := by decide
    have s5 : (decodeAttr c!"{D5CDD505-2E9C-101B-9397-08002B2CF9AE}").isSome := by decide +kernel
    refine TakesF.child (((Returns.loop (takes_value (x := x) (key := seen v.1) hu m) fun d => ?_).mono ?_).congr fun d es _ => ?_)
    · simp only [customPropertyLoop, closesAt, s1, if_true]
    · rw [hu]; rfl
    · simp [-String.reduceToList, String.toList_inj, customPropsLoop, expectAttrs_cons s5, expectAttrs_dec, expectAttrs_cons h1.2.1, expectAttrs_nil,
        attrNamed_cons, s1, s2, s3, s4]

/-- The custom properties, written, read as the properties read back. -/
theorem reads_props (l : List (Str × Str)) (h : AllS (l.flatMap fun v => [v.1, v.2])) :
    ∃ k, ∀ d, k ≤ d → readCustomProps x d (constText (some true) (customPropsN l)) = .ok (rereadProps l) [] := by
  have s1 : elementOf (splitQName c!"Properties").loc = .unsupported := by decide +kernel
  have hw : TakesF x customPropsLoop [] (customPropsN l) (rereadProps l) := by
    refine TakesF.wrap (fun d es _ => ?_) (takes_props l h 0 []) (fun d => rfl)
    simp only [customPropsLoop]
    rw [s1]
  have hend : Runs x customPropsLoop (rereadProps l) (expect [] none []) (.ok (rereadProps l) []) := by
    refine ⟨1, fun _ _ n hn => ?_⟩
    obtain ⟨n, rfl⟩ : ∃ m, n = m + 1 := ⟨n - 1, by omega⟩
    rfl
  obtain ⟨k, hk⟩ := hw [] [] _ hend
  rw [List.append_nil] at hk
  exact ⟨k, fun d hd => by rw [readCustomProps, constText_reads (some true) (customProps_ok l h)]; exact hk d hd d hd⟩

end Docx
