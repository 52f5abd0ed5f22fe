import Verif.Lemmas.ReadStyles
import Verif.Spec.KeptStyles
import Verif.Props.C54_Numbering

/-!
# C55: styles survive writing and reading
-/

namespace Docx

open Docx.Spec

theorem Spec.Style.Kept.reread {s : Style} (h : Spec.Style.Kept s) : s.reread = styleSeen s ∧ s.Readable ∧ AllS s.strings := by
  obtain ⟨a, b, c⟩ := withSides_reread _ h.paragraph
  refine ⟨?_, ⟨fun t ht => ?_, b, h.run.readable, fun _ => ⟨h.table.readable, h.cell.readable⟩⟩, ?_⟩
  · unfold Style.reread styleSeen
    rw [a, h.run.reread, h.id.again, h.name.again, h.table.reread, h.cell.reread, map_kept fun t e => (h.basedOn t e).again,
      map_kept fun t e => (h.link t e).again]
  · have : EscapedFrom t := by
      simp only [List.mem_append, List.mem_cons, List.not_mem_nil, or_false] at ht
      rcases ht with ((rfl | rfl) | ht) | ht
      · exact h.id
      · exact h.name
      · exact h.link t (mem_optS ht)
      · exact h.basedOn t (mem_optS ht)
    exact this.stored.2.1
  · unfold Style.strings
    rw [AllS_append, AllS_append, AllS_append, AllS_append, AllS_append, AllS_append, AllS_append, AllS_cons, AllS_cons, AllS_optS,
      AllS_optS, AllS_optS]
    exact ⟨⟨⟨⟨⟨⟨⟨⟨h.id.stored, h.name.stored, nofun⟩, h.run.strings⟩, c⟩, h.cell.strings⟩, h.table.strings⟩,
      fun t e => (h.next t e).stored⟩, fun t e => (h.link t e).stored⟩, fun t e => (h.basedOn t e).stored⟩

theorem tableProperty_default_kept : Spec.TableProperty.Kept {} := by
  have b : ∀ {q o}, o = some { position := q } → KeptTableBorder q o := fun e b e' => by
    rw [e] at e'; cases e'; exact ⟨rfl, by simp, rfl, plain_lit (s := c!"000000") (by decide)⟩
  exact ⟨by decide, ⟨.left, rfl⟩, b rfl, b rfl, b rfl, b rfl, b rfl, b rfl, fun _ e => (by cases e), fun _ e => (by cases e),
    fun _ e => (by cases e), rfl, fun _ e => (by cases e)⟩

theorem cellProperty_default_kept : Spec.TableCellProperty.Kept {} :=
  ⟨fun _ e => (by cases e), fun _ e => (by cases e), fun _ e => (by cases e), fun _ e => (by cases e), fun _ e => (by cases e)⟩

theorem paragraphProperty_default_kept : ParagraphProperty.Kept (withSides {}) := by
  simp only [withSides]
  rw [ParagraphProperty.Kept]
  exact ⟨Props.base_default_kept, trivial⟩

/-- A style without formatting survives. -/
theorem bareStyle_kept {s : Style} (h1 : EscapedFrom s.styleId) (h2 : EscapedFrom s.name) (h3 : ∀ t, s.basedOn = some t → EscapedFrom t)
    (h4 : ∀ t, s.link = some t → EscapedFrom t) (h5 : ∀ t, s.next = some t → EscapedFrom t) (h6 : s.runProperty = {})
    (h7 : s.paragraphProperty = {}) (h8 : s.tableProperty = {}) (h9 : s.tableCellProperty = {}) : Spec.Style.Kept s :=
  ⟨h1, h2, h3, h4, h5, by rw [h6]; exact Props.base_default_kept.runProperty, by rw [h7]; exact paragraphProperty_default_kept,
    by rw [h8]; exact tableProperty_default_kept, by rw [h9]; exact cellProperty_default_kept⟩

theorem escapeOwned_Normal : escapeOwned c!"Normal" = c!"Normal" := by decide

theorem standardStyle_kept : Spec.Style.Kept standardStyle :=
  bareStyle_kept ⟨c!"Normal", ⟨by decide, by decide⟩, escapeOwned_Normal.symm⟩ ⟨c!"Normal", ⟨by decide, by decide⟩, escapeOwned_Normal.symm⟩
    (fun _ e => (by cases e)) (fun _ e => (by cases e)) (fun _ e => (by cases e)) rfl rfl rfl rfl

theorem withSides_default : withSides {} = {} := rfl

theorem normalStyle_eq : normalStyle = standardStyle := by
  unfold normalStyle standardStyle Style.new Style.setName
  rw [escapeOwned_Normal]

theorem Spec.Styles.Kept.reread {s : Styles} (h : Spec.Styles.Kept s) : s.reread = stylesSeen s ∧ s.Readable ∧ AllS s.strings := by
  obtain ⟨a, b, c⟩ := withSides_reread _ h.paragraph
  refine ⟨?_, ⟨⟨h.run.readable, b⟩, fun t ht => (h.styles t ht).reread.2.1⟩, ?_⟩
  · unfold Styles.reread stylesSeen DocDefaults.reread
    rw [a, h.run.reread, normalStyle_eq, standardStyle_kept.reread.1, List.map_congr_left fun t ht => (h.styles t ht).reread.1]
    rfl
  · unfold Styles.strings
    rw [AllS_append, AllS_append, AllS_flatMap]
    exact ⟨⟨h.run.strings, c⟩, fun t ht => (h.styles t ht).reread.2.2⟩

end Docx

namespace Docx.Props

open Docx.Spec

/-- The style part of `s` is written, and a reader with enough steps finds `seen` in it. -/
def StylesReadAs (x : ReadEnv) (s seen : Styles) : Prop :=
  ∀ g, ∃ out g', buildElement s.build g = some (.ok out, g') ∧ ∃ k, ∀ d, k ≤ d → readStyles x d out = .ok seen [.endDocument]

theorem stylesReadAs_unique {x : ReadEnv} {s a b : Styles} (ha : StylesReadAs x s a) (hb : StylesReadAs x s b) : a = b := by
  obtain ⟨o1, g1, e1, k1, h1⟩ := ha {}
  obtain ⟨o2, g2, e2, k2, h2⟩ := hb {}
  rw [e1] at e2
  simp only [Option.some.injEq, Prod.mk.injEq, Except.ok.injEq] at e2
  have := h2 (max k1 k2) (Nat.le_max_right _ _)
  rw [← e2.1, h1 _ (Nat.le_max_left _ _)] at this
  simp only [Read.ok.injEq, and_true] at this
  exact this

/-- **C55.** What is read from the written style part: the defaults, the standing style, and every style that was added, in order. -/
theorem C55_read (x : ReadEnv) (s : Styles) (h : Styles.Kept s) : StylesReadAs x s (stylesSeen s) := by
  intro g
  obtain ⟨h1, h2, h3⟩ := h.reread
  obtain ⟨out, g', e⟩ : ∃ out g', buildElement s.build g = some (.ok out, g') := by
    have := buildElement_good s.total g
    rw [Styles_build_flat] at this
    exact this
  refine ⟨out, g', e, ?_⟩
  obtain ⟨k, hk⟩ := reads_styles (x := x) s h3 h2 e
  exact ⟨k, fun d hd => by rw [hk d hd, h1]⟩

/-- Both sides of the indent are given, if there is one. -/
def BothSides (p : ParagraphProperty) : Prop := ∀ i, p.base.indent = some i → i.start.isSome ∧ i.end_.isSome

theorem withSides_same (p : ParagraphProperty) : withSides p = p ↔ BothSides p := by
  have := sides_iff { level := 0, start := 0, format := [], text := [], jc := [], paragraphProperty := p }
  simp only [Level.sides, SidesGiven, Level.mk.injEq, true_and, and_true] at this
  exact this

/-- Nothing of a style is lost. -/
structure NothingLost (s : Style) : Prop where
  next : s.next = none
  qFormat : s.qFormat = true
  uiPriority : s.uiPriority = none
  semiHidden : s.semiHidden = false
  unhideWhenUsed : s.unhideWhenUsed = false
  sides : BothSides s.paragraphProperty
  tables : s.styleType ≠ .table → s.tableProperty = {} ∧ s.tableCellProperty = {}

theorem styleSeen_same (s : Style) : styleSeen s = s ↔ NothingLost s := by
  constructor
  · intro e
    refine ⟨(congrArg Style.next e).symm, (congrArg Style.qFormat e).symm, (congrArg Style.uiPriority e).symm,
      (congrArg Style.semiHidden e).symm, (congrArg Style.unhideWhenUsed e).symm,
      (withSides_same _).1 (congrArg Style.paragraphProperty e), fun hn => ⟨?_, ?_⟩⟩
    · have := congrArg Style.tableProperty e
      simpa [styleSeen, hn] using this.symm
    · have := congrArg Style.tableCellProperty e
      simpa [styleSeen, hn] using this.symm
  · rintro ⟨h1, h2, h3, h4, h5, h6, h7⟩
    obtain ⟨i, n, t, r, p, tp, cp, b, nx, l, q, u, sh, un⟩ := s
    simp only at h1 h2 h3 h4 h5 h6 h7
    subst h1 h2 h3 h4 h5
    simp only [styleSeen, (withSides_same p).2 h6]
    by_cases ht : t = .table
    · simp only [ht, if_true]
    · obtain ⟨rfl, rfl⟩ := h7 ht
      simp only [ht, if_false]

/-- **C55, in part.** The defaults and the styles that were added come back as they are, behind the standing style, exactly if no style
names the next one, is left out of the gallery, has a priority, is hidden or shown when used, has table formatting without being a
style for tables, or leaves a side of an indent open. Full statement: always; it is false, see `C55_fails_next`, `C55_fails_qFormat`,
`C55_fails_priority` and `C55_fails_hidden`. -/
theorem C55_same_partial (x : ReadEnv) (s : Styles) (h : Styles.Kept s) :
    StylesReadAs x s ⟨s.docDefaults, standardStyle :: s.styles⟩ ↔
      BothSides s.docDefaults.paragraphProperty ∧ ∀ t ∈ s.styles, NothingLost t := by
  have key : stylesSeen s = ⟨s.docDefaults, standardStyle :: s.styles⟩ ↔
      withSides s.docDefaults.paragraphProperty = s.docDefaults.paragraphProperty ∧ ∀ t ∈ s.styles, styleSeen t = t := by
    obtain ⟨⟨r, p⟩, l⟩ := s
    simp only [stylesSeen, Styles.mk.injEq, DocDefaults.mk.injEq, List.cons.injEq, true_and, map_same]
  simp only [← styleSeen_same, ← withSides_same]
  rw [← key]
  constructor
  · exact fun hi => stylesReadAs_unique (C55_read x s h) hi
  · intro e
    have := C55_read x s h
    rwa [e] at this

theorem preparePackage_styles (env : Env) (d : DocxFile) (w : World) :
    (d.preparePackage env w).1.styles =
      if hasToc d.document.children then { d.styles with styles := addTocStyles d.styles.styles } else d.styles := by
  have hu : ∀ x : DocxFile, (x.updateDependencies env).styles = x.styles := by
    intro x
    unfold DocxFile.updateDependencies
    dsimp only
    split <;> rfl
  have h1 : (d.prepareForBuild env w).1.styles = d.styles := by
    unfold DocxFile.prepareForBuild
    dsimp only
    generalize refreshDuplicateParaIds _ 1 = r
    exact hu { d with document := r.1.document, comments := r.1.comments, footnotes := r.1.footnotes }
  unfold DocxFile.preparePackage
  generalize d.prepareForBuild env w = p at h1 ⊢
  generalize collectImages env.crc p.1.document = i
  dsimp only
  split <;> split <;> simp [h1]

/-- **C55** for a whole file: the entry `word/styles.xml` of a packed document without a table of contents is read as the defaults, the
standing style and then every style that was added with `add_style`. -/
theorem C55_package (x : ReadEnv) (d : DocxFile) (env : Env) (w : World) (es : List Entry) (h : Packed env d w es)
    (ht : ∀ c ∈ d.document.children, ∀ t, c ≠ .toc t) (hk : Styles.Kept d.styles) :
    ∃ s, ⟨c!"word/styles.xml", .text s⟩ ∈ es ∧
      ∃ k, ∀ n, k ≤ n → readStyles x n s = .ok (stylesSeen d.styles) [.endDocument] := by
  obtain ⟨s, g, g', h1, h2⟩ := fits_write (packed_fits h) (step_styles _ _ _)
  have hn : hasToc d.document.children = false := by
    unfold hasToc
    rw [List.any_eq_false]
    intro c hc
    replace ht := ht c hc
    cases c with
    | toc t => exact absurd rfl (ht t)
    | _ => simp
  unfold DocxFile.stylesPart at h1
  rw [preparePackage_styles, hn] at h1
  obtain ⟨out, g'', e, hr⟩ := C55_read x d.styles hk g
  simp only [Bool.false_eq_true, if_false] at h1
  rw [h1] at e
  simp only [Option.some.injEq, Prod.mk.injEq, Except.ok.injEq] at e
  exact ⟨s, h2, by rw [e.1]; exact hr⟩

/-! ## Where it fails -/

/-- A style of the given id and name, otherwise bare. -/
private theorem bare {s : Style} (h1 : s.styleId = escapeOwned c!"A") (h2 : s.name = escapeOwned c!"B & C") (h3 : s.basedOn = none)
    (h4 : s.link = none) (h5 : ∀ t, s.next = some t → t = escapeOwned c!"N") (h6 : s.runProperty = {})
    (h7 : s.paragraphProperty = {}) (h8 : s.tableProperty = {}) (h9 : s.tableCellProperty = {}) : Style.Kept s :=
  bareStyle_kept ⟨c!"A", ⟨by decide, by decide⟩, h1⟩ ⟨c!"B & C", ⟨by decide, by decide⟩, h2⟩ (fun _ e => by rw [h3] at e; cases e)
    (fun _ e => by rw [h4] at e; cases e) (fun t e => ⟨c!"N", ⟨by decide, by decide⟩, h5 t e⟩) h6 h7 h8 h9

private theorem one_kept {s : Style} (h : Style.Kept s) : Styles.Kept ⟨{}, [s]⟩ :=
  ⟨base_default_kept.runProperty, paragraphProperty_default_kept, fun t ht => by rw [List.mem_singleton.1 ht]; exact h⟩

private theorem lost_of {s : Style} (hs : Style.Kept s) (hn : ¬ NothingLost s) (x : ReadEnv) :
    ¬ StylesReadAs x ⟨{}, [s]⟩ ⟨{}, [standardStyle, s]⟩ := by
  rw [C55_same_partial x ⟨{}, [s]⟩ (one_kept hs)]
  intro h
  exact hn (h.2 s (List.mem_singleton.2 rfl))

/-- **C55 fails** for the style of the next paragraph (`next`), which is written and not read. -/
theorem C55_fails_next (x : ReadEnv) :
    let s := { (Style.new c!"A" .paragraph).setName c!"B & C" with next := some (escapeOwned c!"N") }
    ¬ StylesReadAs x ⟨{}, [s]⟩ ⟨{}, [standardStyle, s]⟩ :=
  lost_of (bare rfl rfl rfl rfl (fun _ e => (Option.some.inj e).symm) rfl rfl rfl rfl) (fun h => by cases h.next) x

/-- **C55 fails** for a style that is left out of the gallery (`q_format(false)`): it comes back as one that is in it. -/
theorem C55_fails_qFormat (x : ReadEnv) :
    let s := { (Style.new c!"A" .paragraph).setName c!"B & C" with qFormat := false }
    ¬ StylesReadAs x ⟨{}, [s]⟩ ⟨{}, [standardStyle, s]⟩ ∧ StylesReadAs x ⟨{}, [s]⟩ ⟨{}, [standardStyle, { s with qFormat := true }]⟩ :=
  have hk := bare rfl rfl rfl rfl (fun _ e => (by cases e)) rfl rfl rfl rfl
  ⟨lost_of hk (fun h => by cases h.qFormat) x, C55_read x _ (one_kept hk)⟩

/-- **C55 fails** for the priority of a style (`ui_priority`), which is written and not read. -/
theorem C55_fails_priority (x : ReadEnv) (n : Nat) :
    let s := { (Style.new c!"A" .paragraph).setName c!"B & C" with uiPriority := some n }
    ¬ StylesReadAs x ⟨{}, [s]⟩ ⟨{}, [standardStyle, s]⟩ :=
  lost_of (bare rfl rfl rfl rfl (fun _ e => (by cases e)) rfl rfl rfl rfl) (fun h => by cases h.uiPriority) x

/-- **C55 fails** for a hidden style (`semi_hidden`): it comes back as one that is shown. -/
theorem C55_fails_hidden (x : ReadEnv) :
    let s := { (Style.new c!"A" .paragraph).setName c!"B & C" with semiHidden := true }
    ¬ StylesReadAs x ⟨{}, [s]⟩ ⟨{}, [standardStyle, s]⟩ ∧ StylesReadAs x ⟨{}, [s]⟩ ⟨{}, [standardStyle, { s with semiHidden := false }]⟩ :=
  have hk := bare rfl rfl rfl rfl (fun _ e => (by cases e)) rfl rfl rfl rfl
  ⟨lost_of hk (fun h => by cases h.semiHidden) x, C55_read x _ (one_kept hk)⟩

/-! ## Writing what was read -/

theorem styleSeen_kept {s : Style} (h : Style.Kept s) : Style.Kept (styleSeen s) where
  id := h.id
  name := h.name
  basedOn := h.basedOn
  link := h.link
  next := fun _ e => (by cases e)
  run := h.run
  paragraph := by simp only [styleSeen, withSides_twice]; exact h.paragraph
  table := by simp only [styleSeen]; split; exacts [h.table, tableProperty_default_kept]
  cell := by simp only [styleSeen]; split; exacts [h.cell, cellProperty_default_kept]

theorem stylesSeen_kept {s : Styles} (h : Styles.Kept s) : Styles.Kept (stylesSeen s) where
  run := h.run
  paragraph := by simp only [stylesSeen, withSides_twice]; exact h.paragraph
  styles := by
    intro t ht
    rcases List.mem_cons.1 ht with rfl | ht
    · exact standardStyle_kept
    · obtain ⟨u, hu, rfl⟩ := List.mem_map.1 ht
      exact styleSeen_kept (h.styles u hu)

/-- **C55 fails** when what was read is written again: the part then defines the style `Normal` twice, and once more each time it is read
and written. -/
theorem C55_fails_again (x : ReadEnv) (s : Styles) (h : Styles.Kept s) :
    ∃ t, StylesReadAs x s t ∧ ∃ u, StylesReadAs x t u ∧
      u.styles.map Style.styleId = c!"Normal" :: t.styles.map Style.styleId ∧ ¬ (u.styles.map Style.styleId).Nodup := by
  have e1 : ∀ m, (stylesSeen m).styles.map Style.styleId = c!"Normal" :: m.styles.map Style.styleId := by
    intro m; simp [-String.reduceToList, stylesSeen, standardStyle, styleSeen]
  refine ⟨_, C55_read x s h, _, C55_read x _ (stylesSeen_kept h), e1 _, ?_⟩
  rw [e1, e1]
  simp

/-- The hypotheses of `C55_read`, `C55_package` and of the equivalence are met: a bold heading style based on another. -/
def aStyle : Style :=
  { (Style.new c!"H<1>" .paragraph).setName c!"Heading & 1" with
    basedOn := some (escapeOwned c!"Normal"), runProperty := { bold := some true, boldCs := some true } }

theorem aStyle_kept : Style.Kept aStyle where
  id := ⟨c!"H<1>", ⟨by decide, by decide⟩, rfl⟩
  name := ⟨c!"Heading & 1", ⟨by decide, by decide⟩, rfl⟩
  basedOn := fun t e => ⟨c!"Normal", ⟨by decide, by decide⟩, (Option.some.inj e).symm⟩
  link := fun _ e => (by cases e)
  next := fun _ e => (by cases e)
  run := by constructor <;> simp [aStyle]
  paragraph := paragraphProperty_default_kept
  table := tableProperty_default_kept
  cell := cellProperty_default_kept

/-- This style comes back as it is. -/
example (x : ReadEnv) : StylesReadAs x ⟨{}, [aStyle]⟩ ⟨{}, [standardStyle, aStyle]⟩ := by
  refine (C55_same_partial x ⟨{}, [aStyle]⟩ (one_kept aStyle_kept)).2 ⟨fun _ e => (by cases e), fun t ht => ?_⟩
  rw [List.mem_singleton.1 ht]
  exact ⟨rfl, rfl, rfl, rfl, rfl, fun _ e => (by cases e), fun _ => ⟨rfl, rfl⟩⟩

end Docx.Props
