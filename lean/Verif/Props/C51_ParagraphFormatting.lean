import Verif.Lemmas.ReadParaProperty
import Verif.Props.C52_PageSetup
import Verif.Props.C31_Enums

/-!
# C51: paragraph formatting written and read
-/

namespace Docx

open Docx.Xml Docx.Spec

theorem floatI32_small {i : Int} (h : InI32 i) : floatI32 i = i := toI32_small h
theorem floatU32_small {n : Nat} (h : n < 2 ^ 32) : floatU32 n = n := toU32_small h

theorem map_border {place : ParagraphBorderPosition} {o : Option ParagraphBorder} (h : KeptBorder place o) :
    o.map ParagraphBorder.reread = o := map_kept fun b e => by
  obtain ⟨_, h2, h3, h4⟩ := h b e
  simp [ParagraphBorder.reread, floatU32_small h2, floatU32_small h3, h4.seen]

theorem onAgain_kept {o : Option Bool} (h : o ≠ some false) : onAgain o = o := by
  rcases o with _ | _ | _
  · rfl
  · exact absurd rfl h
  · rfl

theorem alignment_plain (k : AlignmentType) : PlainValue k.toStr := by
  have : plainB k.toStr = true := by cases k <;> decide +kernel
  exact plain_lit this

theorem Spec.ParagraphBase.Kept.reread {p : ParagraphBase} (h : ParagraphBase.Kept p) : p.reread = p := by
  have e0 := h.runProperty.reread
  have e1 : p.style.map again = p.style := map_kept fun s e => (h.style s e).again
  have e2 : p.alignment.bind alignmentAgain = p.alignment := by
    cases ha : p.alignment with
    | none => rfl
    | some s =>
      obtain ⟨k, rfl⟩ := h.alignment s ha
      simp [alignmentAgain, (alignment_plain k).seen, Props.C31_AlignmentType]
  have e3 : p.indent.map Indent.reread = p.indent := map_kept fun i e => by
    obtain ⟨⟨a, ha, ka⟩, ⟨b, hb, kb⟩, h3, h4, h5, h6, h7⟩ := h.indent i e
    obtain ⟨s, t, sp, sc, hc, fc⟩ := i
    simp only at ha hb h3 h4 h5 h6 h7
    subst ha hb h6 h7
    simp only [Indent.reread, Option.getD_some, floatI32_small ka, floatI32_small kb, Indent.mk.injEq, true_and, and_true]
    refine ⟨map_kept fun v e => ?_, map_kept fun v e => floatI32_small (h5 v e)⟩
    cases v with
    | firstLine v => simp [SpecialIndentType.reread, floatI32_small (h3 v e)]
    | hanging v => simp [SpecialIndentType.reread, floatI32_small (h4 v e)]
  have e4 : p.lineSpacing.map LineSpacing.reread = p.lineSpacing := map_kept fun l e => by
    obtain ⟨h1, h2, h3, h4, h5⟩ := h.lineSpacing l e
    simp only [LineSpacing.reread, map_kept fun n e => floatU32_small (h1 n e), map_kept fun n e => floatU32_small (h2 n e),
      map_kept fun n e => floatU32_small (h3 n e), map_kept fun n e => floatU32_small (h4 n e),
      map_kept fun n e => floatI32_small (h5 n e)]
  have e5 := onAgain_kept h.keepNext
  have e6 := onAgain_kept h.keepLines
  have e7 := onAgain_kept h.pageBreakBefore
  have e8 := onAgain_kept h.widowControl
  have e9 : p.outlineLvl.map outlineAgain = p.outlineLvl := map_kept fun n e => by
    have := h.outlineLvl n e
    rw [outlineAgain, if_neg (by omega)]
  have e10 : p.sectionProperty.map SectionBase.reread = p.sectionProperty := map_kept fun s e => (h.section_ s e).reread
  have e11 : p.tabs.map Tab.reread = p.tabs := by
    conv => rhs; rw [← List.map_id p.tabs]
    refine List.map_congr_left fun t ht => ?_
    simp only [Tab.reread, map_kept fun n e => float32Size_small (h.tabs t ht n e), id]
  have e12 : p.borders.map ParagraphBorders.reread = p.borders := map_kept fun b e => by
    obtain ⟨h1, h2, h3, h4, h5, h6⟩ := h.borders b e
    simp [ParagraphBorders.reread, map_border h1, map_border h2, map_border h3, map_border h4, map_border h5, map_border h6]
  have e13 : p.frameProperty.map FrameProperty.reread = p.frameProperty := map_kept fun f e => by
    obtain ⟨h1, h2, h3, h4, h5, h6, h7⟩ := h.frame f e
    have m : ∀ o : Option Str, (∀ s ∈ optS o, s ∈ f.strings) → o.map seen = o := fun o ho =>
      map_kept fun s e => (h3 s (ho s (by simp [e, optS]))).seen
    obtain ⟨f1, f2, f3, f4, f5, f6, f7, f8, f9, f10, f11, f12⟩ := f
    simp only at h1 h2 h4 h5 h6 h7
    subst h1 h2
    simp only [FrameProperty.reread, FrameProperty.mk.injEq, true_and]
    refine ⟨map_kept fun n e => floatU32_small (h4 n e), m _ ?_, m _ ?_, m _ ?_, map_kept fun n e => floatU32_small (h5 n e),
      m _ ?_, map_kept fun n e => floatI32_small (h6 n e), m _ ?_, map_kept fun n e => floatI32_small (h7 n e), m _ ?_⟩ <;>
      (simp [FrameProperty.strings]; grind)
  have e14 : p.shading.map Shading.reread = p.shading := map_kept fun s e => by
    simp [Shading.reread, (h.shading s e).1.seen, (h.shading s e).2.seen]
  have f1 := h.bidi
  have f2 := h.divId
  clear h
  unfold ParagraphBase.reread
  rw [e0, e1, e2, e3, e4, e5, e6, e7, e8, e9, e10, e11, e12, e13, e14]
  clear e0 e1 e2 e3 e4 e5 e6 e7 e8 e9 e10 e11 e12 e13 e14
  cases p
  simp only at f1 f2
  subst f1 f2
  rfl

theorem mem_optStrings {α : Type} {s : Str} {o : Option α} {f : α → List Str} (h : s ∈ optStrings o f) :
    ∃ a, o = some a ∧ s ∈ f a := by
  cases o with
  | none => simp [optStrings] at h
  | some a => exact ⟨a, rfl, h⟩

theorem border_stored {place : ParagraphBorderPosition} {o : Option ParagraphBorder} (h : KeptBorder place o) {s : Str}
    (hs : s ∈ optStrings o ParagraphBorder.strings) : Stored s := by
  obtain ⟨b, e, hb⟩ := mem_optStrings hs
  simp only [ParagraphBorder.strings, List.mem_singleton] at hb
  exact hb ▸ stored_of_plain (h b e).2.2.2

theorem borders_stored {b : ParagraphBorders} (h : KeptBorder .left b.left ∧ KeptBorder .right b.right ∧ KeptBorder .top b.top ∧
    KeptBorder .bottom b.bottom ∧ KeptBorder .between b.between ∧ KeptBorder .bar b.bar) : AllS b.strings := by
  obtain ⟨h1, h2, h3, h4, h5, h6⟩ := h
  intro s hs
  simp only [ParagraphBorders.strings, List.mem_append] at hs
  rcases hs with ((((hs | hs) | hs) | hs) | hs) | hs
  · exact border_stored h1 hs
  · exact border_stored h2 hs
  · exact border_stored h3 hs
  · exact border_stored h4 hs
  · exact border_stored h5 hs
  · exact border_stored h6 hs

theorem Spec.ParagraphBase.Kept.strings {p : ParagraphBase} (h : ParagraphBase.Kept p) : AllS p.strings := by
  intro s hs
  have po : ∀ {o : Option Str} {P : Str → Prop}, s ∈ optS o → (∀ t, o = some t → P t) → P s := fun ho hp => by
    simp only [optS, Option.mem_toList] at ho; exact hp s ho
  simp only [ParagraphBase.strings, List.mem_append] at hs
  rcases hs with (((((hs | hs) | hs) | hs) | hs) | hs) | hs
  · exact h.runProperty.strings s hs
  · exact (po hs h.style).stored
  · obtain ⟨k, rfl⟩ := po hs h.alignment
    exact stored_of_plain (alignment_plain k)
  · obtain ⟨b, e, hb⟩ := mem_optStrings hs
    exact borders_stored (h.borders b e) s hb
  · obtain ⟨f, e, hf⟩ := mem_optStrings hs
    exact stored_of_plain ((h.frame f e).2.2.1 s hf)
  · obtain ⟨b, e, hb⟩ := mem_optStrings hs
    simp only [Shading.strings, List.mem_cons, List.not_mem_nil, or_false] at hb
    rcases hb with rfl | rfl
    · exact stored_of_plain (h.shading b e).1
    · exact stored_of_plain (h.shading b e).2
  · obtain ⟨b, e, hb⟩ := mem_optStrings hs
    exact (h.section_ b e).strings s hb

theorem Spec.ParagraphBase.Kept.readable {p : ParagraphBase} (h : ParagraphBase.Kept p) : p.Readable :=
  ⟨fun s hs => (h.strings s hs).2.1, h.runProperty.fitText, h.numbering,
    fun n e => by have := h.outlineLvl n e; omega, h.adjustRightInd,
    fun b e => by
      have k := h.borders b e
      obtain ⟨h1, h2, h3, h4, h5, h6⟩ := h.borders b e
      exact ⟨fun c e => (h1 c e).1, fun c e => (h2 c e).1, fun c e => (h3 c e).1, fun c e => (h4 c e).1,
        fun c e => (h5 c e).1, fun c e => (h6 c e).1, fun s hs => (borders_stored k s hs).2.1⟩,
    fun s e => (h.section_ s e).readable⟩

mutual
theorem kept_reread : ∀ (p : ParagraphProperty) (_ : ParagraphProperty.Kept p), p.reread = p ∧ p.Readable ∧ AllS p.strings
  | ⟨base, change⟩, h => by
    rw [ParagraphProperty.Kept] at h
    obtain ⟨a, b, c⟩ := keptChange_reread change h.2
    rw [ParagraphProperty.reread, ParagraphProperty.Readable, ParagraphProperty.strings, h.1.reread, a]
    exact ⟨rfl, ⟨h.1.readable, b⟩, AllS_append.2 ⟨h.1.strings, c⟩⟩
theorem keptChange_reread : ∀ (o : Option ParagraphPropertyChange) (_ : KeptChange o),
    rereadChange o = o ∧ changeReadable o ∧ AllS (changeStrings o)
  | none, _ => by simp [rereadChange, changeReadable, changeStrings, AllS]
  | some c, h => by
    rw [KeptChange] at h
    obtain ⟨a, b, c'⟩ := keptPropertyChange_reread c h
    rw [rereadChange, changeReadable, changeStrings, a]
    exact ⟨rfl, b, c'⟩
theorem keptPropertyChange_reread : ∀ (c : ParagraphPropertyChange) (_ : ParagraphPropertyChange.Kept c),
    c.reread = c ∧ c.Readable ∧ AllS c.strings
  | ⟨author, date, property⟩, h => by
    rw [ParagraphPropertyChange.Kept] at h
    obtain ⟨ha, hd, hp⟩ := h
    obtain ⟨a, b, c⟩ := kept_reread property hp
    rw [ParagraphPropertyChange.reread, ParagraphPropertyChange.Readable, ParagraphPropertyChange.strings, ha.again, hd.seen, a]
    have hd' := stored_of_plain hd
    exact ⟨rfl, ⟨ha.stored.2.1, hd'.2.1, b⟩, AllS_cons.2 ⟨ha.stored, AllS_cons.2 ⟨hd', c⟩⟩⟩
end

namespace Props

/-- Reading the written form of the paragraph formatting `p` gives `q`. -/
def ParagraphReadAs (x : ReadEnv) (p q : ParagraphProperty) : Prop :=
  ReadFrom x p.build c!"pPr" (readParagraphProperty x) q

/-- **C51.** What is read from the written form of any paragraph formatting whose strings can be written. -/
theorem C51_read_back (x : ReadEnv) (p : ParagraphProperty) (hs : AllS p.strings) (hp : p.Readable) :
    ParagraphReadAs x p p.reread := by
  refine ReadFrom.of (n := p.nodes) (name := c!"w:pPr") split_w_pPr (by simp) (p.ok hs) (fun g => ?_)
    fun g f g' e => returns_paragraphProperty p hp e
  obtain ⟨r, hr⟩ := Option.isSome_iff_exists.1 (p.total g)
  exact ⟨r.1, r.2, hr⟩

/-- **C51.** Paragraph formatting is read back as it was, for every combination within the limits of
`ParagraphProperty.Kept`, with any depth of recorded changes. Missing from the full property: right-to-left
paragraphs, switches set to off, indents with one side only or in characters, the spaces around a frame, and
what is missing for run formatting and page set-up (`C51_fails_…`, `C36_fails_…`, `C52_fails_…`). -/
theorem C51_kept_partial (x : ReadEnv) (p : ParagraphProperty) (h : ParagraphProperty.Kept p) : ParagraphReadAs x p p := by
  obtain ⟨a, b, c⟩ := kept_reread p h
  have := C51_read_back x p c b
  rwa [a] at this

theorem paragraph_fails {x : ReadEnv} {p : ParagraphProperty} (hs : AllS p.strings) (hp : p.Readable) (h : p.reread ≠ p) :
    ¬ ParagraphReadAs x p p := fun hr => h (ReadFrom.unique (C51_read_back x p hs hp) hr)

/-- **C51 fails** for right-to-left paragraphs: whatever else is set, the setting is not read back. -/
theorem C51_fails_bidi (x : ReadEnv) (p : ParagraphProperty) (hs : AllS p.strings) (hp : p.Readable) (v : Bool) :
    ¬ ParagraphReadAs x (p.setBidi v) (p.setBidi v) := by
  obtain ⟨b, c⟩ := p
  refine paragraph_fails (p := ParagraphProperty.setBidi ⟨b, c⟩ v) hs hp fun e => ?_
  have := congrArg (fun p => p.base.bidi) e
  simp [ParagraphProperty.reread, ParagraphBase.reread, ParagraphProperty.setBidi, ParagraphProperty.upd] at this

/-- **C51 fails** for widow control set to off: that it is off is lost. -/
theorem C51_fails_widow (x : ReadEnv) (p : ParagraphProperty) (hs : AllS p.strings) (hp : p.Readable) :
    ¬ ParagraphReadAs x (p.setWidowControl false) (p.setWidowControl false) := by
  obtain ⟨b, c⟩ := p
  refine paragraph_fails (p := ParagraphProperty.setWidowControl ⟨b, c⟩ false) hs hp fun e => ?_
  have := congrArg (fun p => p.base.widowControl) e
  simp [ParagraphProperty.reread, ParagraphBase.reread, ParagraphProperty.setWidowControl, ParagraphProperty.upd, onAgain] at this

/-- **C51 fails** for an indent that leaves out a side: it is read back as `0`. -/
theorem C51_fails_indent (x : ReadEnv) (p : ParagraphProperty) (hs : AllS p.strings) (hp : p.Readable)
    (left : Option Int) (special : Option SpecialIndentType) (right chars : Option Int) (h : left = none ∨ right = none) :
    ¬ ParagraphReadAs x (p.setIndent left special right chars) (p.setIndent left special right chars) := by
  obtain ⟨b, c⟩ := p
  refine paragraph_fails (p := ParagraphProperty.setIndent ⟨b, c⟩ left special right chars) hs hp fun e => ?_
  have h1 := congrArg (fun p => p.base.indent.map Indent.start) e
  have h2 := congrArg (fun p => p.base.indent.map Indent.end_) e
  simp only [ParagraphProperty.reread, ParagraphBase.reread, ParagraphProperty.setIndent, ParagraphProperty.upd, Option.map_some,
    Indent.reread, Option.some.injEq] at h1 h2
  rcases h with rfl | rfl
  · simp at h1
  · simp at h2

/-- The hypotheses are met: formatting with many properties and a recorded change. -/
def aFormattedParagraph : ParagraphProperty :=
  ⟨{ runProperty := formatted [.bold, .size 24], style := some (escapeOwned c!"Heading & \"1\""), numberingProperty := some ⟨some 2, some 0⟩,
     alignment := some AlignmentType.center.toStr, indent := some { start := some (-20), end_ := some 0, special := some (.hanging 420) },
     lineSpacing := some { before := some 120, line := some 240 }, keepNext := some true, outlineLvl := some 3,
     sectionProperty := some {}, tabs := [⟨some .right, some .dot, some 9000⟩], borders := some {}, snapToGrid := some false },
   some ⟨escapeOwned c!"O'Neil", c!"2020-01-01T00:00:00Z", {}⟩⟩

theorem section_default_kept : SectionBase.Kept {} := by
  constructor <;> try (first | decide | rfl | (intro r e; cases e))
  simp only [InI32]; decide

theorem base_default_kept : ParagraphBase.Kept {} := by
  constructor <;> first | exact kept_empty | (intro r e; cases e) | (intro e; cases e) | rfl

example (x : ReadEnv) : ParagraphReadAs x aFormattedParagraph aFormattedParagraph := by
  refine C51_kept_partial x _ ?_
  have e1 : EscapedFrom (escapeOwned c!"Heading & \"1\"") := ⟨_, ⟨by decide, by decide⟩, rfl⟩
  have e2 : EscapedFrom (escapeOwned c!"O'Neil") := ⟨_, ⟨by decide, by decide⟩, rfl⟩
  simp only [aFormattedParagraph, ParagraphProperty.Kept, KeptChange, ParagraphPropertyChange.Kept]
  refine ⟨?_, e2, plain_lit (by decide), base_default_kept, trivial⟩
  constructor
  case runProperty => exact kept_apply (kept_apply kept_empty .bold trivial) (.size 24) (by simp [KeptCall])
  case style => rintro s ⟨⟩; exact e1
  case numbering => rintro s ⟨⟩; exact ⟨by rintro i ⟨⟩; decide, by rintro i ⟨⟩; decide⟩
  case alignment => rintro s ⟨⟩; exact ⟨_, rfl⟩
  case indent =>
    rintro s ⟨⟩
    exact ⟨⟨_, rfl, by decide, by decide⟩, ⟨_, rfl, by decide, by decide⟩, by rintro a ⟨⟩, by rintro a ⟨⟩; exact ⟨by decide, by decide⟩,
      by rintro a ⟨⟩, rfl, rfl⟩
  case lineSpacing =>
    rintro s ⟨⟩
    exact ⟨by rintro a ⟨⟩; decide, by rintro a ⟨⟩, by rintro a ⟨⟩, by rintro a ⟨⟩, by rintro a ⟨⟩; exact ⟨by decide, by decide⟩⟩
  case section_ => rintro s ⟨⟩; exact section_default_kept
  case borders =>
    rintro s ⟨⟩
    refine ⟨?_, ?_, ?_, ?_, by rintro a ⟨⟩, by rintro a ⟨⟩⟩ <;> (rintro a ⟨⟩; exact ⟨rfl, by decide, by decide, plain_auto⟩)
  case tabs => intro t ht; simp only [List.mem_singleton] at ht; subst ht; rintro n ⟨⟩; decide
  case outlineLvl => rintro s ⟨⟩; decide
  all_goals first | rfl | (rintro s ⟨⟩; done) | (rintro ⟨⟩; done)

end Props

end Docx
