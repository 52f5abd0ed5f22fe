import Verif.Model.ReadParts
import Verif.Lemmas.ReadDocument
import Verif.Lemmas.PackageXml
import Verif.Lemmas.KeptBody

/-!
# Reading `word/numbering.xml`
-/

namespace Docx

open Docx.Xml Docx.Spec

variable {x : ReadEnv}

@[simp] theorem el_multiLevelType : elementOf c!"multiLevelType" = .unsupported := by decide +kernel

theorem readNumber_dec {name k : Str} {n : Nat} (hk : (splitQName k).loc = name) (h : n < 2 ^ 64) (es : List REvent) :
    readNumber name (expectAttrs [(k, dec n)]) es = .ok n es := by
  simp [readNumber, expectAttrs_dec, expectAttrs_nil, foldAttrs, hk, usizeFromStr_dec h, orErr, Read.bind]

/-! ## Levels -/

/-- What the reader needs of a level to read it whole. -/
def Level.Readable (l : Level) : Prop :=
  l.level < 2 ^ 64 ∧ l.start < 2 ^ 64 ∧ (∀ n, l.levelRestart = some n → n < 2 ^ 32) ∧
    (∀ s ∈ l.strings, (decodeAttr s).isSome) ∧ l.paragraphProperty.Readable ∧ l.runProperty.Readable

/-- A level read back. -/
def Level.reread (l : Level) : Level :=
  { l with format := seen l.format, text := seen l.text, jc := seen l.jc, paragraphProperty := l.paragraphProperty.reread,
           runProperty := l.runProperty.reread, pstyle := l.pstyle.map again }

/-- An empty element in the loop over a level. -/
macro "lvl_leaf" "[" ls:Lean.Parser.Tactic.simpLemma,* "]" : tactic => `(tactic|
  (refine TakesF.leaf' (fun d es hd => ?_) (fun d => ?_)
   · simp [-String.reduceToList, String.toList_inj, levelLoop, Read.bind, Read.map, expectAttrs_nil, firstValue, attrFirst,
       attrNamed_cons, attrNamed_nil, orErr, expectAttrs_dec, $ls,*]
   · simp [-String.reduceToList, String.toList_inj, levelLoop, closesAt]))

theorem suffix_lit (t : LevelSuffixType) : decodeAttr t.toStr = some t.toStr := by cases t <;> decide +kernel

theorem suffix_again (t : LevelSuffixType) : LevelSuffixType.fromStr t.toStr = some t := by cases t <;> decide

set_option maxHeartbeats 2000000 in
theorem returns_level (l : Level) (h : l.Readable) {g g' : Gen} {f : List Node} (e : l.nodes g = some (f, g')) :
    ∃ body, f = [.elem c!"w:lvl" [(c!"w:ilvl", dec l.level)] body] ∧
      Returns x (fun R => readLevel x R (expectAttrs [(c!"w:ilvl", dec l.level)])) c!"w:lvl" body l.reread := by
  obtain ⟨body, hb, rfl⟩ := elemN_eq e
  refine ⟨body, rfl, ?_⟩
  obtain ⟨h1, h2, h3, hs, hp, hr⟩ := h
  have h4 : (decodeAttr l.format).isSome := hs _ (by simp [Level.strings])
  have h5 : (decodeAttr l.text).isSome := hs _ (by simp [Level.strings])
  have h6 : (decodeAttr l.jc).isSome := hs _ (by simp [Level.strings])
  have h7 : OptDecodes l.pstyle := optDecodes_mem hs (by simp [Level.strings]; grind)
  have k1 : TakesN x (levelLoop x) (emitN (valN c!"w:start" (dec l.start))) (fun s => { s with start := l.start }) :=
    .emit fun s => by lvl_leaf [usizeFromStr_dec h2]
  have k2 : TakesN x (levelLoop x) (emitN (valN c!"w:numFmt" l.format)) (fun s => { s with format := seen l.format }) :=
    .emit fun s => by lvl_leaf [expectAttrs_cons h4]
  have k3 : TakesN x (levelLoop x) (emitN (valN c!"w:lvlText" l.text)) (fun s => { s with text := seen l.text }) :=
    .emit fun s => by lvl_leaf [expectAttrs_cons h5]
  have k4 : TakesN x (levelLoop x) (emitN (valN c!"w:lvlJc" l.jc)) (fun s => { s with jc := seen l.jc }) :=
    .emit fun s => by lvl_leaf [expectAttrs_cons h6]
  have k5 : TakesN x (levelLoop x) l.paragraphProperty.nodes (fun s => { s with paragraphProperty := l.paragraphProperty.reread }) := by
    intro g f g' e s
    obtain ⟨body, rfl, hq⟩ := returns_paragraphProperty (x := x) _ hp e
    refine TakesF.child ?_
    refine (hq.caught (g := fun p es => match p with
      | some p => .ok { s with paragraphProperty := p } es
      | none => .ok s es) (fun es => rfl)).congr (fun d es hd => ?_)
    simp [-String.reduceToList, levelLoop]; rfl
  have k6 : TakesN x (levelLoop x) l.runProperty.nodes (fun s => { s with runProperty := l.runProperty.reread }) := by
    intro g f g' e s
    obtain ⟨body, rfl, hq⟩ := returns_runProperty (x := x) _ hr e
    refine TakesF.child ?_
    refine (hq.caught (g := fun p es => match p with
      | some p => .ok { s with runProperty := p } es
      | none => .ok s es) (fun es => rfl)).congr (fun d es hd => ?_)
    simp [-String.reduceToList, levelLoop]; rfl
  have k7 : TakesN x (levelLoop x) (emitN (optN l.pstyle (valN c!"w:pStyle"))) (fun s => { s with pstyle := (l.pstyle.map seen).or s.pstyle }) := by
    refine .opt (fun v e s => ?_) (fun e s => by simp [e])
    replace h7 := h7 v e
    rw [e]
    lvl_leaf [expectAttrs_cons h7]
  have k8 : TakesN x (levelLoop x) (emitN (optN l.levelRestart (fun n => valN c!"w:lvlRestart" (dec n))))
      (fun s => { s with levelRestart := l.levelRestart.or s.levelRestart }) := by
    refine .opt (fun v e s => ?_) (fun e s => by simp [e])
    replace h3 := h3 v e
    rw [e]
    lvl_leaf [u32FromStr_dec h3]
  have k9 : TakesN x (levelLoop x) (emitN (if l.isLgl then leafN c!"w:isLgl" else [])) (fun s => { s with isLgl := l.isLgl || s.isLgl }) := by
    refine .emit fun s => ?_
    cases l.isLgl
    · exact .nil s
    · lvl_leaf []
  have k10 : TakesN x (levelLoop x) (emitN (if l.suffix = .tab then [] else valN c!"w:suff" l.suffix.toStr))
      (fun s => { s with suffix := if l.suffix = .tab then s.suffix else l.suffix }) := by
    refine .emit fun s => ?_
    by_cases ht : l.suffix = .tab
    · simp only [ht, if_true]; exact .nil s
    · simp only [ht, if_false]
      lvl_leaf [expectAttrs_lit _ _ (suffix_lit l.suffix), suffix_again]
  have key := k1.cat_cons <| k2.cat_cons <| k3.cat_cons <| k4.cat_cons <| k5.cat_cons <| k6.cat_cons <| k7.cat_cons <|
    k8.cat_cons <| k9.cat_cons <| k10.cat_cons .cat_nil
  have hk := key _ _ _ hb { level := l.level, start := 0, format := c!"decimal", text := [], jc := c!"left" }
  have := (Returns.loop (n := c!"w:lvl") hk (fun d => by simp [-String.reduceToList, levelLoop, closesAt])).map Level.withStyle
  refine (this.mono ?_).congr fun d es hd => ?_
  · simp only [Function.comp_apply, id_eq, Option.or_none, Level.withStyle, Level.reread, Bool.or_false, Option.map_map]
    obtain ⟨_, _, _, _, _, _, _, sf, _, _, _⟩ := l
    cases sf <;> rfl
  · simp only [readLevel, readNumber_dec (k := c!"w:ilvl") (name := c!"ilvl") (by decide) h1, Read.bind]

theorem Returns.bind_ok {α β : Type} {F : Readers → List REvent → Read α} {n : Str} {f : List Node} {a : α} (h : Returns x F n f a)
    {b : β} {pre : List REvent → Read β} {G : β → Readers → List REvent → Read α} (hp : ∀ es, pre es = .ok b es) (hg : G b = F) :
    Returns x (fun R es => (pre es).bind fun b es => G b R es) n f a := by
  subst hg
  exact h.congr fun d es _ => by simp only [hp, Read.bind]

/-! ## Overrides -/

/-- What the reader needs of an override to read it whole. -/
def LevelOverride.Readable (o : LevelOverride) : Prop :=
  o.level < 2 ^ 64 ∧ (∀ n, o.overrideStart = some n → n < 2 ^ 64) ∧ ∀ l, o.overrideLevel = some l → l.Readable

/-- An override read back. -/
def LevelOverride.reread (o : LevelOverride) : LevelOverride := { o with overrideLevel := o.overrideLevel.map Level.reread }

theorem returns_levelOverride (o : LevelOverride) (h : o.Readable) {g g' : Gen} {f : List Node} (e : o.nodes g = some (f, g')) :
    ∃ body, f = [.elem c!"w:lvlOverride" [(c!"w:ilvl", dec o.level)] body] ∧
      Returns x (fun R => readLevelOverride x R (expectAttrs [(c!"w:ilvl", dec o.level)])) c!"w:lvlOverride" body o.reread := by
  obtain ⟨body, hb, rfl⟩ := elemN_eq e
  refine ⟨body, rfl, ?_⟩
  obtain ⟨h1, h2, h3⟩ := h
  have k1 : TakesN x (levelOverrideLoop x) (optNB o.overrideLevel Level.nodes)
      (fun s => { s with overrideLevel := (o.overrideLevel.map Level.reread).or s.overrideLevel }) := by
    refine .optB (fun l e => ?_) (fun e s => by simp [e])
    intro g f g' e' s
    obtain ⟨body, rfl, hq⟩ := returns_level (x := x) _ (h3 l e) e'
    refine TakesF.child ?_
    refine (hq.caught (g := fun p es => match p with
      | some p => .ok { s with overrideLevel := some p } es
      | none => .ok s es) (fun es => rfl)).congr (fun d es hd => ?_) |>.mono (by simp [e])
    simp [-String.reduceToList, levelOverrideLoop]; rfl
  have k2 : TakesN x (levelOverrideLoop x) (emitN (optN o.overrideStart (fun n => valN c!"w:startOverride" (dec n))))
      (fun s => { s with overrideStart := o.overrideStart.or s.overrideStart }) := by
    refine .opt (fun v e s => ?_) (fun e s => by simp [e])
    replace h2 := h2 v e
    rw [e]
    refine TakesF.leaf' (fun d es hd => ?_) (fun d => ?_)
    · simp [-String.reduceToList, levelOverrideLoop, Read.bind, Read.map, expectAttrs_nil, firstValue, attrFirst, expectAttrs_dec,
        usizeFromStr_dec h2]
    · simp [-String.reduceToList, levelOverrideLoop, closesAt]
  have hk := (k1.cat_cons <| k2.cat_cons .cat_nil) _ _ _ hb { level := o.level }
  have := Returns.loop (n := c!"w:lvlOverride") hk (fun d => by simp [-String.reduceToList, levelOverrideLoop, closesAt])
  refine (this.mono ?_).congr fun d es hd => ?_
  · simp [LevelOverride.reread]
  · simp only [readLevelOverride, expectAttrs_dec, expectAttrs_nil, firstValue, attrFirst, List.head?_cons, Option.map_some, Read.bind,
      usizeFromStr_dec h1, orErr]

/-! ## Definitions -/

/-- What the reader needs of a definition to read it whole. -/
def AbstractNumbering.Readable (a : AbstractNumbering) : Prop := a.id < 2 ^ 64 ∧ ∀ l ∈ a.levels, l.Readable

/-- A definition read back: the links are not written, the kind is not read. -/
def AbstractNumbering.reread (a : AbstractNumbering) : AbstractNumbering := { id := a.id, levels := a.levels.map Level.reread }

theorem foldl_levels (l : List Level) (a : AbstractNumbering) :
    l.foldl (fun a b => { a with levels := a.levels ++ [b.reread] }) a = { a with levels := a.levels ++ l.map Level.reread } := by
  induction l generalizing a with
  | nil => simp
  | cons b l ih => simp [ih]

theorem takes_abstractNum (a : AbstractNumbering) (h : a.Readable) :
    TakesN x (numberingsLoop x) a.nodes (fun s => { s with abstractNums := s.abstractNums ++ [a.reread] }) := by
  intro g f g' e s
  obtain ⟨body, hb, rfl⟩ := elemN_eq e
  obtain ⟨h1, h2⟩ := h
  have k1 : TakesN x (abstractNumLoop x) (emitN (optN a.multiLevelType (valN c!"w:multiLevelType"))) id := by
    refine .opt (fun v e s => ?_) (fun e s => rfl)
    refine TakesF.leaf' (fun d es hd => ?_) (fun d => ?_)
    · simp [-String.reduceToList, abstractNumLoop]
    · simp [-String.reduceToList, abstractNumLoop, closesAt]
  have k2 : TakesN x (abstractNumLoop x) (eachN Level.nodes a.levels)
      (fun s => a.levels.foldl (fun s l => { s with levels := s.levels ++ [l.reread] }) s) := by
    refine .each (add := fun (s : AbstractNumbering) l => { s with levels := s.levels ++ [Level.reread l] }) fun l hl => ?_
    intro g f g' e' s
    obtain ⟨body, rfl, hq⟩ := returns_level (x := x) _ (h2 l hl) e'
    refine TakesF.child ((hq.map fun l => ({ s with levels := s.levels ++ [l] } : AbstractNumbering)).congr fun d es hd => ?_)
    simp [-String.reduceToList, abstractNumLoop]
  have hk := (k1.cat_cons <| k2.cat_cons .cat_nil) _ _ _ hb { id := a.id }
  have := (Returns.loop (n := c!"w:abstractNum") hk (fun d => by simp [-String.reduceToList, abstractNumLoop, closesAt])).map
    fun a => ({ s with abstractNums := s.abstractNums ++ [a] } : Numberings)
  refine TakesF.child ((this.mono ?_).congr fun d es hd => ?_)
  · simp [foldl_levels, AbstractNumbering.reread]
  · simp [-String.reduceToList, numberingsLoop, readNumber_dec (k := c!"w:abstractNumId") (name := c!"abstractNumId") (by decide) h1,
      Read.bind]

/-! ## Numberings -/

/-- What the reader needs of a numbering to read it whole. -/
def Numbering.Readable (n : Numbering) : Prop := n.id < 2 ^ 64 ∧ n.abstractNumId < 2 ^ 64 ∧ ∀ o ∈ n.overrides, o.Readable

/-- A numbering read back. -/
def Numbering.reread (n : Numbering) : Numbering := { n with overrides := n.overrides.map LevelOverride.reread }

theorem foldl_overrides (l : List LevelOverride) (a : Numbering) :
    l.foldl (fun a b => { a with overrides := a.overrides ++ [b.reread] }) a =
      { a with overrides := a.overrides ++ l.map LevelOverride.reread } := by
  induction l generalizing a with
  | nil => simp
  | cons b l ih => simp [ih]

theorem takes_num (n : Numbering) (h : n.Readable) :
    TakesN x (numberingsLoop x) n.nodes (fun s => { s with numberings := s.numberings ++ [n.reread] }) := by
  intro g f g' e s
  obtain ⟨body, hb, rfl⟩ := elemN_eq e
  obtain ⟨h1, h2, h3⟩ := h
  have k1 : TakesN x (numLoop x) (emitN (valN c!"w:abstractNumId" (dec n.abstractNumId)))
      (fun s => { s with abstractNumId := n.abstractNumId }) := by
    refine .emit fun s => TakesF.leaf' (fun d es hd => ?_) (fun d => ?_)
    · simp [-String.reduceToList, numLoop, Read.bind, Read.map, expectAttrs_nil, firstValue, attrFirst, expectAttrs_dec,
        usizeFromStr_dec h2, orErr]
    · simp [-String.reduceToList, numLoop, closesAt]
  have k2 : TakesN x (numLoop x) (eachN LevelOverride.nodes n.overrides)
      (fun s => n.overrides.foldl (fun s l => { s with overrides := s.overrides ++ [l.reread] }) s) := by
    refine .each (add := fun (s : Numbering) l => { s with overrides := s.overrides ++ [LevelOverride.reread l] }) fun l hl => ?_
    intro g f g' e' s
    obtain ⟨body, rfl, hq⟩ := returns_levelOverride (x := x) _ (h3 l hl) e'
    refine TakesF.child ((hq.caught (g := fun o es => match o with
      | some o => .ok ({ s with overrides := s.overrides ++ [o] } : Numbering) es
      | none => .ok s es) (fun es => rfl)).congr fun d es hd => ?_)
    simp [-String.reduceToList, numLoop]; rfl
  have hk := (k1.cat_cons <| k2.cat_cons .cat_nil) _ _ _ hb { id := n.id, abstractNumId := 0 }
  have := (Returns.loop (n := c!"w:num") hk (fun d => by simp [-String.reduceToList, numLoop, closesAt])).map
    fun a => ({ s with numberings := s.numberings ++ [a] } : Numberings)
  refine TakesF.child ((this.mono ?_).congr fun d es hd => ?_)
  · simp [foldl_overrides, Numbering.reread]
  · simp [-String.reduceToList, numberingsLoop, readNumber_dec (k := c!"w:numId") (name := c!"numId") (by decide) h1, Read.bind]

/-! ## The part -/

/-- What the reader needs of the numbering part to read it whole. -/
def Numberings.Readable (n : Numberings) : Prop := (∀ a ∈ n.abstractNums, a.Readable) ∧ ∀ m ∈ n.numberings, m.Readable

/-- The numbering part read back: the definition and the numbering that are always written come first. -/
def Numberings.reread (n : Numberings) : Numberings where
  abstractNums := defaultNumbering.reread :: n.abstractNums.map AbstractNumbering.reread
  numberings := { id := 1, abstractNumId := 1 } :: n.numberings.map Numbering.reread

theorem foldl_abstractNums (l : List AbstractNumbering) (a : Numberings) :
    l.foldl (fun a b => { a with abstractNums := a.abstractNums ++ [b.reread] }) a =
      { a with abstractNums := a.abstractNums ++ l.map AbstractNumbering.reread } := by
  induction l generalizing a with
  | nil => simp
  | cons b l ih => simp [ih]

theorem foldl_numberings (l : List Numbering) (a : Numberings) :
    l.foldl (fun a b => { a with numberings := a.numberings ++ [b.reread] }) a =
      { a with numberings := a.numberings ++ l.map Numbering.reread } := by
  induction l generalizing a with
  | nil => simp
  | cons b l ih => simp [ih]

/-- A loop that takes the content of the root element and stops at its end. -/
theorem runs_root {σ : Type} {L : Readers → Loop σ} {s s' : σ} {n : Str} {as : List (Str × Str)} {f : List Node}
    (h₁ : ∀ d es, (L (readers x d)).start s (splitQName n) (expectAttrs as) es = .ok s es) (h₂ : TakesF x L s f s')
    (h₃ : ∀ d, (L (readers x d)).close s' (splitQName n) = none) :
    Runs x L s (expect [] none (tagsForest [.elem n as f])) (.ok s' [.endDocument]) := by
  have := expect_elem [] n as f []
  rw [List.append_nil] at this
  rw [this]
  refine runs_start ⟨0, fun d _ => h₁ d _⟩ (h₂ _ _ _ ?_)
  rw [expect_cls]
  exact runs_close h₃

theorem defaultLevel_readable (n : Nat) (format text : Str) (hn : n < 2 ^ 64) (h1 : PlainValue format) (h2 : PlainValue text) :
    (defaultLevel n format text).Readable := by
  refine ⟨hn, show 1 < 2 ^ 64 by decide, nofun, fun s hs => ?_, ?_, ?_⟩
  · have : s = format ∨ s = text ∨ s = c!"left" := by
      simpa [-String.reduceToList, Level.strings, defaultLevel, ParagraphProperty.setIndent, ParagraphProperty.upd, ParagraphProperty.strings,
        ParagraphBase.strings, RunProperty.strings, optS, optStrings, changeStrings] using hs
    rcases this with rfl | rfl | rfl
    · simp [decodeAttr_plain h1]
    · simp [decodeAttr_plain h2]
    · decide +kernel
  · have := Props.base_default_kept.readable
    simp only [ParagraphBase.Readable, ParagraphBase.strings] at this
    simp only [defaultLevel, ParagraphProperty.setIndent, ParagraphProperty.upd, ParagraphProperty.Readable, changeReadable, and_true,
      ParagraphBase.Readable, ParagraphBase.strings]
    exact this
  · exact Props.base_default_kept.runProperty.readable

theorem defaultNumbering_readable : defaultNumbering.Readable := by
  refine ⟨by decide, fun l hl => ?_⟩
  simp only [defaultNumbering, List.mem_cons, List.not_mem_nil, or_false] at hl
  rcases hl with rfl | rfl | rfl | rfl | rfl | rfl | rfl | rfl | rfl <;>
    exact defaultLevel_readable _ _ _ (by decide) (plain_lit (by decide)) (plain_lit (by decide))

theorem takes_numberings (n : Numberings) (h : n.Readable) {g g' : Gen} {body : List Node}
    (e : catN
      [ defaultNumbering.nodes, eachN AbstractNumbering.nodes n.abstractNums, ({ id := 1, abstractNumId := 1 } : Numbering).nodes,
        eachN Numbering.nodes n.numberings ] g = some (body, g')) :
    TakesF x (numberingsLoop x) {} body n.reread := by
  obtain ⟨h1, h2⟩ := h
  have k1 : TakesN x (numberingsLoop x) (eachN AbstractNumbering.nodes n.abstractNums)
      (fun s => n.abstractNums.foldl (fun s a => { s with abstractNums := s.abstractNums ++ [a.reread] }) s) :=
    .each (add := fun (s : Numberings) a => { s with abstractNums := s.abstractNums ++ [AbstractNumbering.reread a] })
      fun a ha => takes_abstractNum a (h1 a ha)
  have k2 : TakesN x (numberingsLoop x) (eachN Numbering.nodes n.numberings)
      (fun s => n.numberings.foldl (fun s a => { s with numberings := s.numberings ++ [a.reread] }) s) :=
    .each (add := fun (s : Numberings) a => { s with numberings := s.numberings ++ [Numbering.reread a] })
      fun a ha => takes_num a (h2 a ha)
  have hk := ((takes_abstractNum (x := x) _ defaultNumbering_readable).cat_cons <| k1.cat_cons <|
    (takes_num (x := x) { id := 1, abstractNumId := 1 } ⟨by decide, by decide, by simp⟩).cat_cons <| k2.cat_cons .cat_nil) _ _ _ e {}
  simp only [Function.comp_apply, id_eq, foldl_abstractNums, foldl_numberings, List.nil_append, List.cons_append] at hk
  exact hk

/-- The numbering part, written, reads as `n.reread`. -/
theorem reads_numberings (n : Numberings) (hs : AllS n.strings) (h : n.Readable) {sa : Option Bool} {g g' : Gen} {out : Str}
    (e : writePart sa n.build g = some (.ok out, g')) :
    ∃ k, ∀ d, k ≤ d → readNumberings x d out = .ok n.reread [.endDocument] := by
  rw [← Numberings_build_flat] at e
  obtain ⟨f, hf, _, hr⟩ := writePart_reads (n.ok hs) e
  obtain ⟨body, hb, rfl⟩ := elemN_eq hf
  obtain ⟨k, hk⟩ := runs_root (L := numberingsLoop x) (n := c!"w:numbering") (as := numberingAttrs) (s := {}) (s' := n.reread)
    (fun d es => by simp [-String.reduceToList, numberingsLoop]) (takes_numberings (x := x) n h hb)
    (fun d => by simp [-String.reduceToList, numberingsLoop, closesAt])
  exact ⟨k, fun d hd => by rw [readNumberings, hr]; exact hk d hd d hd⟩

end Docx
