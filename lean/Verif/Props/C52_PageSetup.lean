import Verif.Lemmas.ReadSection
import Verif.Lemmas.ReadFrom
import Verif.Props.C36_RunFormatting
import Verif.Spec.KeptParagraph

/-!
# C52: page set-up written and read
-/

namespace Docx

open Docx.Xml Docx.Spec

theorem float32Size_small {n : Nat} (h : n ≤ 2 ^ 24) : float32Size n = n := by
  rw [float32Size, roundInt_small (by decide) (by simpa using h)]
  simp only [toUsize, saturate]; omega

theorem map_reference {type : Str} {o : Option PartReference} (ht : PlainValue type) (h : KeptReference type o) :
    o.map PartReference.reread = o := map_kept fun r e => by
  obtain ⟨h1, h2⟩ := h r e
  obtain ⟨t, i⟩ := r
  simp only at h1 h2
  subst h1
  simp [PartReference.reread, ht.seen, h2.seen]

theorem Spec.SectionBase.Kept.reread {p : SectionBase} (h : SectionBase.Kept p) : p.reread = p := by
  have h1 : p.pageSize.reread = p.pageSize := by
    have a := h.width
    have b := h.height
    have c := h.orient
    revert a b c
    generalize p.pageSize = ps
    obtain ⟨w, hh, o⟩ := ps
    intro a b c
    simp only at a b c
    subst c
    have k : ∀ n : Nat, n < 2 ^ 31 → i32AsU32 (floatI32 n) = n := fun n hn => by
      rw [floatI32, toI32_small (by omega), i32AsU32]
      omega
    simp [PageSize.reread, k _ a, k _ b]
  have h2 : p.pageMargin.reread = p.pageMargin := by
    obtain ⟨a1, a2, a3, a4, a5, a6, a7⟩ := h.margins
    simp [PageMargin.reread, floatI32, toI32_small a1, toI32_small a2, toI32_small a3, toI32_small a4, toI32_small a5,
      toI32_small a6, toI32_small a7]
  have h3 : p.docGrid.map DocGrid.reread = p.docGrid := map_kept fun d e => by
    obtain ⟨a, b⟩ := h.grid d e
    obtain ⟨t, l, c⟩ := d
    simp only [DocGrid.reread, DocGrid.mk.injEq, true_and]
    refine ⟨map_kept fun n e => float32Size_small (a n e), map_kept fun i e => ?_⟩
    have := b i e
    rw [roundInt_small (by decide) (by omega)]
    simp only [toIsize, saturate]; omega
  have h4 : p.pageNumType.map PageNumType.reread = p.pageNumType := map_kept fun t e => by
    obtain ⟨s, c⟩ := t
    simp only [PageNumType.reread, PageNumType.mk.injEq, true_and]
    exact map_kept fun s e' => ((h.pageNumber _ e).2 s e').seen
  have d1 : PlainValue c!"default" := plain_lit (by decide)
  have d2 : PlainValue c!"first" := plain_lit (by decide)
  have d3 : PlainValue c!"even" := plain_lit (by decide)
  have e1 := h.columns
  have e2 := h.space
  have e3 := h.textDirection
  have r1 := map_reference d1 h.header
  have r2 := map_reference d2 h.firstHeader
  have r3 := map_reference d3 h.evenHeader
  have r4 := map_reference d1 h.footer
  have r5 := map_reference d2 h.firstFooter
  have r6 := map_reference d3 h.evenFooter
  clear h
  unfold SectionBase.reread
  rw [h1, h2, h3, h4, r1, r2, r3, r4, r5, r6]
  clear h1 h2 h3 h4 r1 r2 r3 r4 r5 r6
  cases p
  simp only at e1 e2 e3
  subst e1 e2 e3
  rfl

theorem Spec.SectionBase.Kept.strings {p : SectionBase} (h : SectionBase.Kept p) : AllS p.strings := by
  intro s hs
  have r : ∀ {type : Str} {o : Option PartReference}, PlainValue type → KeptReference type o →
      s ∈ optStrings o PartReference.strings → Stored s := fun {type o} ht h hs => by
    cases o with
    | none => simp [optStrings] at hs
    | some r =>
      obtain ⟨h1, h2⟩ := h r rfl
      simp only [optStrings, PartReference.strings, List.mem_cons, List.not_mem_nil, or_false] at hs
      rcases hs with rfl | rfl
      · exact stored_of_plain (h1 ▸ ht)
      · exact stored_of_plain h2
  have d1 : PlainValue c!"default" := plain_lit (by decide)
  have d2 : PlainValue c!"first" := plain_lit (by decide)
  have d3 : PlainValue c!"even" := plain_lit (by decide)
  simp only [SectionBase.strings, List.mem_append, List.mem_singleton] at hs
  rcases hs with ((((((hs | hs) | hs) | hs) | hs) | hs) | hs) | hs
  · rw [h.textDirection] at hs
    exact hs ▸ stored_of_plain (plain_lit (by decide))
  · exact r d1 h.header hs
  · exact r d2 h.firstHeader hs
  · exact r d3 h.evenHeader hs
  · exact r d1 h.footer hs
  · exact r d2 h.firstFooter hs
  · exact r d3 h.evenFooter hs
  · cases hp : p.pageNumType with
    | none => simp [hp, optStrings] at hs
    | some t =>
      simp only [hp, optStrings, PageNumType.strings, optS, Option.mem_toList] at hs
      exact stored_of_plain ((h.pageNumber t hp).2 s hs)

theorem Spec.SectionBase.Kept.readable {p : SectionBase} (h : SectionBase.Kept p) : p.Readable :=
  ⟨fun s hs => (h.strings s hs).2.1, fun r e => (h.header r e).1, fun r e => (h.firstHeader r e).1,
    fun r e => (h.evenHeader r e).1, fun r e => (h.footer r e).1, fun r e => (h.firstFooter r e).1,
    fun r e => (h.evenFooter r e).1, fun t e => (h.pageNumber t e).1⟩

namespace Props

/-- Header and footer references are in the fields for their types, as all the calls that set them leave them,
and the first page number is a `u32`. -/
def SectionBase.Placed (p : SectionBase) : Prop :=
  (∀ r, p.headerReference = some r → r.type = c!"default") ∧
  (∀ r, p.firstHeaderReference = some r → r.type = c!"first") ∧
  (∀ r, p.evenHeaderReference = some r → r.type = c!"even") ∧
  (∀ r, p.footerReference = some r → r.type = c!"default") ∧
  (∀ r, p.firstFooterReference = some r → r.type = c!"first") ∧
  (∀ r, p.evenFooterReference = some r → r.type = c!"even") ∧
  ∀ t, p.pageNumType = some t → ∀ n, t.start = some n → n < 2 ^ 32

/-- Reading the written form of the page set-up `p` gives `q`. -/
def PageSetupReadAs (x : ReadEnv) (p q : SectionBase) : Prop :=
  ReadFrom x (emit p.tags) c!"sectPr" (fun R es => readSection x R.fuel es) q

/-- **C52.** What is read from the written form of any page set-up whose strings can be written. -/
theorem C52_read_back (x : ReadEnv) (p : SectionBase) (hs : AllS p.strings) (hp : SectionBase.Placed p) :
    PageSetupReadAs x p p.reread := by
  obtain ⟨body, e, hr⟩ := returns_section (x := x) p ⟨fun s h => (hs s h).2.1, hp⟩
  refine ReadFrom.of (n := emitN p.nodes) (name := c!"w:sectPr") split_w_sectPr (by simp) (.emit (p.ok hs))
    (fun g => ⟨_, _, rfl⟩) fun g f g' h => ?_
  simp only [emitN, Option.some.injEq, Prod.mk.injEq] at h
  exact ⟨body, h.1 ▸ e, hr⟩

/-- **C52.** Page set-up is read back as it was, for every combination within the limits of `SectionBase.Kept`.
Missing from the full property: the orientation, columns, the space between them and text direction, sizes from
`2 ^ 31`, grid values above `2 ^ 24` that no `f32` holds (`C52_fails_…`). -/
theorem C52_kept_partial (x : ReadEnv) (p : SectionBase) (h : SectionBase.Kept p) : PageSetupReadAs x p p := by
  have := C52_read_back x p h.strings h.readable.2
  rwa [h.reread] at this

theorem pageSetup_fails {x : ReadEnv} {p : SectionBase} (hs : AllS p.strings) (hp : SectionBase.Placed p) (h : p.reread ≠ p) :
    ¬ PageSetupReadAs x p p := fun hr => h (ReadFrom.unique (C52_read_back x p hs hp) hr)

/-- **C52 fails** for a page orientation: whatever else is set, it is not read. -/
theorem C52_fails_orient (x : ReadEnv) (p : SectionBase) (hs : AllS p.strings) (hp : SectionBase.Placed p)
    (h : p.pageSize.orient ≠ none) : ¬ PageSetupReadAs x p p := pageSetup_fails hs hp fun e => by
  have := congrArg (fun s => s.pageSize.orient) e
  exact h (by simpa [SectionBase.reread, PageSize.reread] using this.symm)

/-- **C52 fails** for the number of columns and the space between them. -/
theorem C52_fails_columns (x : ReadEnv) (p : SectionBase) (hs : AllS p.strings) (hp : SectionBase.Placed p)
    (h : p.columns ≠ 1 ∨ p.space ≠ 425) : ¬ PageSetupReadAs x p p := pageSetup_fails hs hp fun e => by
  have h1 := congrArg SectionBase.columns e
  have h2 := congrArg SectionBase.space e
  simp only [SectionBase.reread] at h1 h2
  omega

/-- **C52 fails** for the text direction. -/
theorem C52_fails_direction (x : ReadEnv) (p : SectionBase) (hs : AllS p.strings) (hp : SectionBase.Placed p)
    (h : p.textDirection ≠ c!"lrTb") : ¬ PageSetupReadAs x p p := pageSetup_fails hs hp fun e =>
  h (congrArg SectionBase.textDirection e).symm

/-- **C52 fails** for a line pitch of `2 ^ 24 + 1`: it is read as `2 ^ 24`. -/
theorem C52_fails_pitch (x : ReadEnv) : ¬ PageSetupReadAs x { docGrid := some { linePitch := some (2 ^ 24 + 1) } }
    { docGrid := some { linePitch := some (2 ^ 24 + 1) } } :=
  pageSetup_fails (fun s hs => by
      simp only [SectionBase.strings, optStrings, List.append_nil, List.mem_singleton] at hs
      exact hs ▸ stored_of_plain (plain_lit (by decide)))
    (by simp [SectionBase.Placed]) fun e => by
    have := congrArg SectionBase.docGrid e
    revert this
    decide +kernel

/-- The hypotheses are met: a title page, a grid, margins, headers and page numbers. -/
example (x : ReadEnv) : PageSetupReadAs x
    { pageSize := ⟨16838, 11906, none⟩, pageMargin := { top := -20, gutter := 10 }, titlePg := true,
      docGrid := some ⟨.linesAndChars, some 360, some (-1541)⟩, headerReference := some ⟨c!"default", c!"rIdHeader1"⟩,
      firstFooterReference := some ⟨c!"first", c!"rIdFooter2"⟩, sectionType := some .oddPage,
      pageNumType := some ⟨some 3, some c!"1"⟩ }
    { pageSize := ⟨16838, 11906, none⟩, pageMargin := { top := -20, gutter := 10 }, titlePg := true,
      docGrid := some ⟨.linesAndChars, some 360, some (-1541)⟩, headerReference := some ⟨c!"default", c!"rIdHeader1"⟩,
      firstFooterReference := some ⟨c!"first", c!"rIdFooter2"⟩, sectionType := some .oddPage,
      pageNumType := some ⟨some 3, some c!"1"⟩ } := by
  refine C52_kept_partial x _ ?_
  constructor <;> try (first | decide | rfl | (intro r e; cases e))
  case margins => simp only [InI32]; decide
  case header.refl => exact ⟨rfl, plain_lit (by decide)⟩
  case firstFooter.refl => exact ⟨rfl, plain_lit (by decide)⟩
  case pageNumber.refl => exact ⟨fun n e => by cases e; decide, fun i e => by cases e; exact plain_lit (by decide)⟩

end Props

end Docx
