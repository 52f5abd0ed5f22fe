import Verif.Lemmas.ReadNumberings
import Verif.Spec.KeptParts
import Verif.Props.C34_Types

/-!
# C54: numbering definitions survive writing and reading
-/

namespace Docx

open Docx.Spec

theorem withSides_reread (p : ParagraphProperty) (h : ParagraphProperty.Kept (withSides p)) :
    p.reread = withSides p ∧ p.Readable ∧ AllS p.strings := by
  obtain ⟨a, b, c⟩ := kept_reread _ h
  obtain ⟨base, change⟩ := p
  refine ⟨?_, ?_, ?_⟩
  · rw [← a]
    simp only [withSides, ParagraphProperty.reread]
    congr 1
    unfold ParagraphBase.reread
    simp only
    congr 1
    cases base.indent <;> rfl
  · simp only [withSides, ParagraphProperty.Readable, ParagraphBase.Readable, ParagraphBase.strings] at b ⊢
    exact b
  · simp only [withSides, ParagraphProperty.strings, ParagraphBase.strings] at c ⊢
    exact c

theorem Spec.PlainValue.stored {s : Str} (h : PlainValue s) : Stored s := stored_of_plain h

theorem Spec.Level.Kept.reread {l : Level} (h : Spec.Level.Kept l) :
    l.reread = Spec.Level.sides l ∧ l.Readable ∧ AllS l.strings := by
  obtain ⟨a, b, c⟩ := withSides_reread _ h.paragraph
  have hs : AllS l.strings := by
    unfold Level.strings
    rw [AllS_append, AllS_append, AllS_append, AllS_cons, AllS_cons, AllS_cons, AllS_optS]
    exact ⟨⟨⟨⟨h.format.stored, h.text.stored, h.jc.stored, nofun⟩, c⟩, h.run.strings⟩, fun s e => (h.style s e).stored⟩
  refine ⟨?_, ⟨h.level, h.start, h.restart, fun s hm => (hs s hm).2.1, b, h.run.readable⟩, hs⟩
  unfold Level.reread Spec.Level.sides
  rw [a, h.run.reread, h.format.seen, h.text.seen, h.jc.seen, map_kept fun s e => (h.style s e).again]

theorem Spec.AbstractNumbering.Kept.reread {a : AbstractNumbering} (h : Spec.AbstractNumbering.Kept a) :
    a.reread = Spec.AbstractNumbering.core a ∧ a.Readable ∧ AllS a.strings := by
  refine ⟨?_, ⟨h.id, fun l hl => (h.levels l hl).reread.2.1⟩, ?_⟩
  · unfold AbstractNumbering.reread Spec.AbstractNumbering.core
    rw [List.map_congr_left fun l hl => (h.levels l hl).reread.1]
  · unfold AbstractNumbering.strings
    rw [AllS_append, AllS_optS, AllS_flatMap]
    exact ⟨fun s e => (h.kind s e).stored, fun l hl => (h.levels l hl).reread.2.2⟩

theorem Spec.Numbering.Kept.reread {n : Numbering} (h : Spec.Numbering.Kept n) :
    n.reread = Spec.Numbering.sides n ∧ n.Readable ∧ AllS n.strings := by
  refine ⟨?_, ⟨h.id, h.definition, fun o ho => ⟨(h.overrides o ho).1, (h.overrides o ho).2.1, fun l e =>
    ((h.overrides o ho).2.2 l e).reread.2.1⟩⟩, ?_⟩
  · unfold Numbering.reread Spec.Numbering.sides
    rw [List.map_congr_left fun o ho => ?_]
    unfold LevelOverride.reread
    congr 1
    cases e : o.overrideLevel with
    | none => rfl
    | some l => simp [((h.overrides o ho).2.2 l e).reread.1]
  · unfold Numbering.strings
    rw [AllS_flatMap]
    intro o ho
    unfold LevelOverride.strings
    rw [AllS_optStrings]
    exact fun l e => ((h.overrides o ho).2.2 l e).reread.2.2

theorem standard_reread : defaultNumbering.reread = standardDefinition := by
  have h : ∀ n format text, n < 9 → PlainValue format → PlainValue text →
      (defaultLevel n format text).reread = standardLevel n format text := by
    intro n format text hn h1 h2
    have hk : Spec.Level.Kept (defaultLevel n format text) := by
      refine ⟨show n < 2 ^ 64 by omega, show 1 < 2 ^ 64 by decide, nofun, h1, h2, show PlainValue c!"left" from plain_lit (by decide), ?_, Props.base_default_kept.runProperty, nofun⟩
      simp only [defaultLevel, ParagraphProperty.setIndent, ParagraphProperty.upd, withSides]
      rw [ParagraphProperty.Kept]
      refine ⟨{ Props.base_default_kept with indent := ?_ }, trivial⟩
      rintro i ⟨⟩
      refine ⟨⟨_, rfl, ?_⟩, ⟨_, rfl, show InI32 0 by unfold InI32; decide⟩, nofun, ?_, nofun, rfl, rfl⟩
      · unfold InI32; simp; omega
      · rintro a ⟨⟩; unfold InI32; decide
    rw [hk.reread.1]
    rfl
  unfold AbstractNumbering.reread defaultNumbering standardDefinition
  simp only [List.map_cons, List.map_nil]
  have p1 : PlainValue c!"decimal" := plain_lit (by decide)
  have p2 : PlainValue c!"decimalEnclosedCircle" := plain_lit (by decide)
  rw [h _ _ _ (by decide) p1 (plain_lit (by decide)), h _ _ _ (by decide) p1 (plain_lit (by decide)), h _ _ _ (by decide) p2 (plain_lit (by decide)),
    h _ _ _ (by decide) p1 (plain_lit (by decide)), h _ _ _ (by decide) p1 (plain_lit (by decide)), h _ _ _ (by decide) p2 (plain_lit (by decide)),
    h _ _ _ (by decide) p1 (plain_lit (by decide)), h _ _ _ (by decide) p1 (plain_lit (by decide)), h _ _ _ (by decide) p2 (plain_lit (by decide))]

theorem Spec.Numberings.Kept.reread {n : Numberings} (h : Spec.Numberings.Kept n) :
    n.reread = numberingSeen n ∧ n.Readable ∧ AllS n.strings := by
  refine ⟨?_, ⟨fun a ha => (h.definitions a ha).reread.2.1, fun a ha => (h.numberings a ha).reread.2.1⟩, ?_⟩
  · unfold Numberings.reread numberingSeen
    rw [standard_reread, List.map_congr_left fun a ha => (h.definitions a ha).reread.1,
      List.map_congr_left fun a ha => (h.numberings a ha).reread.1]
  · unfold Numberings.strings
    rw [AllS_append, AllS_flatMap, AllS_flatMap]
    exact ⟨fun a ha => (h.definitions a ha).reread.2.2, fun a ha => (h.numberings a ha).reread.2.2⟩

end Docx

namespace Docx.Props

open Docx.Spec

/-- The numbering part of `n` is written, and a reader with enough steps finds `seen` in it. -/
def NumberingReadAs (x : ReadEnv) (n seen : Numberings) : Prop :=
  ∀ g, ∃ out g', writePart (some true) n.build g = some (.ok out, g') ∧
    ∃ k, ∀ d, k ≤ d → readNumberings x d out = .ok seen [.endDocument]

theorem numberingReadAs_unique {x : ReadEnv} {n a b : Numberings} (ha : NumberingReadAs x n a) (hb : NumberingReadAs x n b) : a = b := by
  obtain ⟨out, g', e, k, hk⟩ := ha {}
  obtain ⟨out', g'', e', k', hk'⟩ := hb {}
  rw [e] at e'
  simp only [Option.some.injEq, Prod.mk.injEq, Except.ok.injEq] at e'
  obtain ⟨rfl, rfl⟩ := e'
  have h1 := hk (max k k') (Nat.le_max_left _ _)
  rw [hk' (max k k') (Nat.le_max_right _ _)] at h1
  simpa using h1.symm

/-- **C54.** What is read from the numbering part that is written: the standing definition and numbering, then the number and the
levels of every definition and every numbering with its overrides, in order. -/
theorem C54_read (x : ReadEnv) (n : Numberings) (h : Numberings.Kept n) : NumberingReadAs x n (numberingSeen n) := by
  obtain ⟨h1, h2, h3⟩ := h.reread
  intro g
  obtain ⟨out, g', e⟩ : ∃ out g', writePart (some true) n.build g = some (.ok out, g') := by
    have := writePart_good n.total (some true) g
    rw [Numberings_build_flat] at this
    exact this
  obtain ⟨k, hk⟩ := reads_numberings (x := x) n h3 h2 e
  exact ⟨out, g', e, k, by rw [← h1]; exact hk⟩

/-- Both sides of the indent of a level are given, if it has one. -/
def SidesGiven (l : Level) : Prop := ∀ i, l.paragraphProperty.base.indent = some i → i.start.isSome ∧ i.end_.isSome

theorem sides_iff (l : Level) : Level.sides l = l ↔ SidesGiven l := by
  obtain ⟨_, _, _, _, _, ⟨base, change⟩, _, _, _, _, _⟩ := l
  simp only [Level.sides, withSides, SidesGiven, Level.mk.injEq, ParagraphProperty.mk.injEq, true_and, and_true]
  generalize hi : base.indent = o
  have : ({ base with indent := o.map fun i => { i with start := some (i.start.getD 0), end_ := some (i.end_.getD 0) } } = base) ↔
      (o.map fun i => ({ i with start := some (i.start.getD 0), end_ := some (i.end_.getD 0) } : Indent)) = o := by
    constructor
    · intro h
      have := congrArg ParagraphBase.indent h
      exact this.trans hi
    · intro h
      rw [h, ← hi]
  rw [this]
  cases o with
  | none => simp
  | some i =>
    obtain ⟨s, e, sp, sc, hc, fc⟩ := i
    cases s <;> cases e <;> simp

theorem map_same {α : Type} {f : α → α} {l : List α} : l.map f = l ↔ ∀ a ∈ l, f a = a := by
  induction l with
  | nil => simp
  | cons a l ih => simp [ih]

theorem core_iff (a : AbstractNumbering) : AbstractNumbering.core a = a ↔
    a.multiLevelType = none ∧ a.styleLink = none ∧ a.numStyleLink = none ∧ ∀ l ∈ a.levels, SidesGiven l := by
  obtain ⟨i, s, n, l, m⟩ := a
  simp only [AbstractNumbering.core, AbstractNumbering.mk.injEq, true_and, map_same, sides_iff]
  constructor
  · rintro ⟨h1, h2, h3, h4⟩; exact ⟨h4.symm, h1.symm, h2.symm, h3⟩
  · rintro ⟨h1, h2, h3, h4⟩; exact ⟨h2.symm, h3.symm, h4, h1.symm⟩

theorem numberingSides_iff (n : Numbering) : Numbering.sides n = n ↔
    ∀ o ∈ n.overrides, ∀ l, o.overrideLevel = some l → SidesGiven l := by
  obtain ⟨i, j, l⟩ := n
  simp only [Numbering.sides, Numbering.mk.injEq, true_and, map_same]
  refine forall₂_congr fun o _ => ?_
  obtain ⟨a, b, c⟩ := o
  cases c <;> simp [sides_iff]

/-- **C54, in part.** The definitions and numberings that were added come back as they are, behind the standing ones, exactly if no
definition has a kind or a link and no indent leaves a side open. Full statement: always; it is false, see `C54_fails_kind`,
`C54_fails_link` and `C54_fails_side`. -/
theorem C54_same_partial (x : ReadEnv) (n : Numberings) (h : Numberings.Kept n) :
    NumberingReadAs x n ⟨standardDefinition :: n.abstractNums, { id := 1, abstractNumId := 1 } :: n.numberings⟩ ↔
      (∀ a ∈ n.abstractNums, a.multiLevelType = none ∧ a.styleLink = none ∧ a.numStyleLink = none ∧ ∀ l ∈ a.levels, SidesGiven l) ∧
        ∀ m ∈ n.numberings, ∀ o ∈ m.overrides, ∀ l, o.overrideLevel = some l → SidesGiven l := by
  have key : numberingSeen n = ⟨standardDefinition :: n.abstractNums, { id := 1, abstractNumId := 1 } :: n.numberings⟩ ↔
      (∀ a ∈ n.abstractNums, AbstractNumbering.core a = a) ∧ ∀ m ∈ n.numberings, Numbering.sides m = m := by
    simp only [numberingSeen, Numberings.mk.injEq, List.cons.injEq, true_and, map_same]
  simp only [← core_iff, ← numberingSides_iff]
  rw [← key]
  constructor
  · exact fun hi => numberingReadAs_unique (C54_read x n h) hi
  · intro e
    have := C54_read x n h
    rwa [e] at this

theorem preparePackage_numberings (env : Env) (d : DocxFile) (w : World) : (d.preparePackage env w).1.numberings = d.numberings := by
  have hu : ∀ x : DocxFile, (x.updateDependencies env).numberings = x.numberings := by
    intro x
    unfold DocxFile.updateDependencies
    dsimp only
    split <;> rfl
  have h1 : (d.prepareForBuild env w).1.numberings = d.numberings := by
    unfold DocxFile.prepareForBuild
    dsimp only
    generalize refreshDuplicateParaIds _ 1 = r
    exact hu { d with document := r.1.document, comments := r.1.comments, footnotes := r.1.footnotes }
  unfold DocxFile.preparePackage
  generalize d.prepareForBuild env w = p at h1 ⊢
  generalize collectImages env.crc p.1.document = i
  dsimp only
  split <;> split <;> exact h1

/-- **C54** for a whole file: the entry `word/numbering.xml` of a packed document is read as the standing definition and numbering and
then everything that was added with `add_abstract_numbering` and `add_numbering`. -/
theorem C54_package (x : ReadEnv) (d : DocxFile) (env : Env) (w : World) (es : List Entry) (h : Packed env d w es)
    (hk : Numberings.Kept d.numberings) :
    ∃ s, ⟨c!"word/numbering.xml", .text s⟩ ∈ es ∧
      ∃ k, ∀ n, k ≤ n → readNumberings x n s = .ok (numberingSeen d.numberings) [.endDocument] := by
  obtain ⟨s, g, g', h1, h2⟩ := fits_write (packed_fits h) (step_numbering _ _ _)
  unfold DocxFile.numberingPart at h1
  rw [preparePackage_numberings] at h1
  obtain ⟨out, g'', e, hr⟩ := C54_read x d.numberings hk g
  rw [h1] at e
  simp only [Option.some.injEq, Prod.mk.injEq, Except.ok.injEq] at e
  exact ⟨s, h2, by rw [e.1]; exact hr⟩

/-! ## Where it fails -/

/-- A level as a caller makes it: `Level::new(0, …).indent(Some(720), Some(Hanging(360)), None, None)` and more. -/
def aLevel : Level where
  level := 0
  start := 3
  format := c!"lowerRoman"
  text := c!"%1)"
  jc := c!"right"
  paragraphProperty := ({} : ParagraphProperty).setIndent (some 720) (some (.hanging 360)) none none
  runProperty := { bold := some true, boldCs := some true }
  pstyle := some (escapeOwned c!"A & B")
  levelRestart := some 4
  isLgl := true
  suffix := .space

theorem aLevel_kept : Level.Kept aLevel := by
  have hp : ∀ s, plainB s = true → PlainValue s := fun s h => plain_lit h
  refine ⟨show 0 < 2 ^ 64 by omega, show 3 < 2 ^ 64 by omega, ?_, hp _ (by decide), hp _ (by decide), hp _ (by decide), ?_, ?_, ?_⟩
  · rintro n h
    have : n = 4 := by simpa [aLevel] using h.symm
    omega
  · simp only [aLevel, ParagraphProperty.setIndent, ParagraphProperty.upd, withSides]
    rw [ParagraphProperty.Kept]
    refine ⟨{ base_default_kept with indent := ?_ }, trivial⟩
    intro i h
    obtain rfl := (Option.some.inj h).symm
    refine ⟨⟨_, rfl, by unfold InI32; decide⟩, ⟨_, rfl, show InI32 0 by unfold InI32; decide⟩, fun _ h => (by cases h), ?_,
      fun _ h => (by cases h), rfl, rfl⟩
    rintro a ⟨⟩; unfold InI32; decide
  · constructor <;> simp [aLevel]
  · intro s h
    refine ⟨c!"A & B", ⟨by decide, by decide⟩, ?_⟩
    exact (Option.some.inj h).symm

/-- A definition with this level. -/
def aDefinition : AbstractNumbering := { id := 2, levels := [aLevel] }

theorem aDefinition_kept : AbstractNumbering.Kept aDefinition := by
  refine ⟨show 2 < 2 ^ 64 by omega, fun _ h => (by cases h), fun l hl => ?_⟩
  rw [List.mem_singleton.1 (show l ∈ [aLevel] from hl)]
  exact aLevel_kept

/-- A numbering of it that starts at 7 on the first level. -/
def aNumbering : Numbering := { id := 5, abstractNumId := 2, overrides := [{ level := 0, overrideStart := some 7 }] }

theorem aNumbering_kept : Numbering.Kept aNumbering := by
  refine ⟨show 5 < 2 ^ 64 by omega, show 2 < 2 ^ 64 by omega, fun o ho => ?_⟩
  rw [List.mem_singleton.1 (show o ∈ [_] from ho)]
  refine ⟨show 0 < 2 ^ 64 by omega, fun i h => ?_, fun _ h => (by cases h)⟩
  have : i = 7 := by simpa using h.symm
  omega

/-- The hypotheses of `C54_read` and `C54_package` hold of a definition with a formatted level and a numbering with an override. -/
example : Numberings.Kept ⟨[aDefinition], [aNumbering]⟩ :=
  ⟨fun a ha => by rw [List.mem_singleton.1 ha]; exact aDefinition_kept, fun a ha => by rw [List.mem_singleton.1 ha]; exact aNumbering_kept⟩

private theorem notSame_of {a : AbstractNumbering} (ha : AbstractNumbering.Kept a) (hn : AbstractNumbering.core a ≠ a) (x : ReadEnv) :
    ¬ NumberingReadAs x ⟨[a], []⟩ ⟨[standardDefinition, a], [{ id := 1, abstractNumId := 1 }]⟩ := by
  have hk : Numberings.Kept ⟨[a], []⟩ := ⟨fun b hb => by rw [List.mem_singleton.1 hb]; exact ha, fun _ h => (by cases h)⟩
  rw [C54_same_partial x _ hk]
  intro h
  exact hn ((core_iff a).2 (h.1 a (List.mem_singleton.2 rfl)))

/-- **C54 fails** for the kind of a definition (`multi_level_type`), which is written and not read. -/
theorem C54_fails_kind (x : ReadEnv) : ∃ a : AbstractNumbering, AbstractNumbering.Kept a ∧ a.multiLevelType = some c!"multilevel" ∧
    ¬ NumberingReadAs x ⟨[a], []⟩ ⟨[standardDefinition, a], [{ id := 1, abstractNumId := 1 }]⟩ ∧
    NumberingReadAs x ⟨[a], []⟩ ⟨[standardDefinition, { a with multiLevelType := none }], [{ id := 1, abstractNumId := 1 }]⟩ := by
  have hk : AbstractNumbering.Kept { id := 2, multiLevelType := some c!"multilevel" } :=
    ⟨show 2 < 2 ^ 64 by omega, fun t h => (by rw [← Option.some.inj h]; exact plain_lit (by decide)), fun _ h => (by cases h)⟩
  refine ⟨_, hk, rfl, notSame_of hk (fun e => ?_) x, ?_⟩
  · have := congrArg AbstractNumbering.multiLevelType e; cases this
  · exact C54_read x ⟨[_], []⟩ ⟨fun b hb => by rw [List.mem_singleton.1 hb]; exact hk, fun _ h => (by cases h)⟩

/-- **C54 fails** for the links of a definition (`style_link`, `num_style_link`), which are read and not written. -/
theorem C54_fails_link (x : ReadEnv) : ∃ a : AbstractNumbering, AbstractNumbering.Kept a ∧ a.styleLink = some c!"List" ∧
    ¬ NumberingReadAs x ⟨[a], []⟩ ⟨[standardDefinition, a], [{ id := 1, abstractNumId := 1 }]⟩ ∧
    NumberingReadAs x ⟨[a], []⟩ ⟨[standardDefinition, { a with styleLink := none }], [{ id := 1, abstractNumId := 1 }]⟩ := by
  have hk : AbstractNumbering.Kept { id := 2, styleLink := some c!"List" } :=
    ⟨show 2 < 2 ^ 64 by omega, fun _ h => (by cases h), fun _ h => (by cases h)⟩
  refine ⟨_, hk, rfl, notSame_of hk (fun e => ?_) x, ?_⟩
  · have := congrArg AbstractNumbering.styleLink e; cases this
  · exact C54_read x ⟨[_], []⟩ ⟨fun b hb => by rw [List.mem_singleton.1 hb]; exact hk, fun _ h => (by cases h)⟩

/-- **C54 fails** for a level whose indent has no end: it comes back with the end `0`. -/
theorem C54_fails_side (x : ReadEnv) :
    ¬ NumberingReadAs x ⟨[aDefinition], []⟩ ⟨[standardDefinition, aDefinition], [{ id := 1, abstractNumId := 1 }]⟩ := by
  refine notSame_of aDefinition_kept (fun e => ?_) x
  obtain ⟨_, _, _, h⟩ := (core_iff _).1 e
  have := (h _ (List.mem_singleton.2 rfl) _ rfl).2
  cases this

/-! ## Writing what was read -/

theorem withSides_twice (p : ParagraphProperty) : withSides (withSides p) = withSides p := by
  obtain ⟨base, change⟩ := p
  simp only [withSides]
  congr 2
  cases base.indent <;> rfl

theorem Level.sides_kept {l : Level} (h : Level.Kept l) : Level.Kept (Level.sides l) :=
  ⟨h.level, h.start, h.restart, h.format, h.text, h.jc, by rw [Level.sides, withSides_twice]; exact h.paragraph, h.run, h.style⟩

theorem standardDefinition_kept : AbstractNumbering.Kept standardDefinition := by
  refine ⟨show 1 < 2 ^ 64 by omega, fun _ h => (by cases h), fun l hl => ?_⟩
  have h : ∀ n format text, n < 9 → PlainValue format → PlainValue text → Level.Kept (standardLevel n format text) := by
    intro n format text hn h1 h2
    refine ⟨show n < 2 ^ 64 by omega, show 1 < 2 ^ 64 by omega, fun _ h => (by cases h), h1, h2, show PlainValue c!"left" from plain_lit (by decide), ?_,
      base_default_kept.runProperty, fun _ h => (by cases h)⟩
    simp only [standardLevel, withSides]
    rw [ParagraphProperty.Kept]
    refine ⟨{ base_default_kept with indent := ?_ }, trivial⟩
    intro i h
    obtain rfl := (Option.some.inj h).symm
    refine ⟨⟨_, rfl, ?_⟩, ⟨_, rfl, show InI32 0 by unfold InI32; decide⟩, fun _ h => (by cases h), ?_, fun _ h => (by cases h), rfl, rfl⟩
    · unfold InI32; simp; omega
    · rintro a ⟨⟩; unfold InI32; decide
  simp only [standardDefinition, List.mem_cons, List.not_mem_nil, or_false] at hl
  rcases hl with rfl | rfl | rfl | rfl | rfl | rfl | rfl | rfl | rfl <;>
    exact h _ _ _ (by decide) (plain_lit (by decide)) (plain_lit (by decide))

theorem seen_kept {n : Numberings} (h : Numberings.Kept n) : Numberings.Kept (numberingSeen n) := by
  constructor
  · intro a ha
    rcases List.mem_cons.1 ha with rfl | ha
    · exact standardDefinition_kept
    · obtain ⟨b, hb, rfl⟩ := List.mem_map.1 ha
      refine ⟨(h.definitions b hb).id, fun _ h => (by cases h), fun l hl => ?_⟩
      obtain ⟨m, hm, rfl⟩ := List.mem_map.1 hl
      exact Level.sides_kept ((h.definitions b hb).levels m hm)
  · intro a ha
    rcases List.mem_cons.1 ha with rfl | ha
    · exact ⟨show 1 < 2 ^ 64 by omega, show 1 < 2 ^ 64 by omega, fun _ h => (by cases h)⟩
    · obtain ⟨b, hb, rfl⟩ := List.mem_map.1 ha
      refine ⟨(h.numberings b hb).id, (h.numberings b hb).definition, fun o ho => ?_⟩
      obtain ⟨p, hp, rfl⟩ := List.mem_map.1 ho
      obtain ⟨h1, h2, h3⟩ := (h.numberings b hb).overrides p hp
      refine ⟨h1, h2, fun l e => ?_⟩
      obtain ⟨m, hm, rfl⟩ := Option.map_eq_some_iff.1 e
      exact Level.sides_kept (h3 m hm)

/-- **C54 fails** when what was read is written again: the part then defines the number 1 twice, as a definition and as a numbering,
and once more each time it is read and written. -/
theorem C54_fails_again (x : ReadEnv) (n : Numberings) (h : Numberings.Kept n) :
    ∃ m, NumberingReadAs x n m ∧ ∃ m', NumberingReadAs x m m' ∧ m'.abstractNums.map AbstractNumbering.id = 1 :: m.abstractNums.map AbstractNumbering.id ∧
      m'.numberings.map Numbering.id = 1 :: m.numberings.map Numbering.id ∧
      ¬ (m'.abstractNums.map AbstractNumbering.id).Nodup ∧ ¬ (m'.numberings.map Numbering.id).Nodup := by
  have e1 : ∀ m, (numberingSeen m).abstractNums.map AbstractNumbering.id = 1 :: m.abstractNums.map AbstractNumbering.id := by
    intro m; simp [numberingSeen, standardDefinition, AbstractNumbering.core]
  have e2 : ∀ m, (numberingSeen m).numberings.map Numbering.id = 1 :: m.numberings.map Numbering.id := by
    intro m; simp [numberingSeen, Numbering.sides]
  refine ⟨_, C54_read x n h, _, C54_read x _ (seen_kept h), e1 _, e2 _, ?_, ?_⟩
  · rw [e1, e1]; simp
  · rw [e2, e2]; simp

end Docx.Props
