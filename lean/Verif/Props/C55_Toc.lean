import Verif.Props.C55_Styles

/-!
# C55, with a table of contents: the preset styles join the given ones
-/

namespace Docx.Props

set_option linter.unusedSimpArgs false

open Docx Docx.Spec Docx.Xml

/-- The levels for which no style called `toc 1`, …, `toc 9` was given. -/
def Spec.levelsMissing (given : List Style) : List Nat :=
  [1, 2, 3, 4, 5, 6, 7, 8, 9].filter fun n => given.all fun s => decide (s.name ≠ c!"toc " ++ dec n)

theorem toc_name (n : Nat) : escapeOwned (c!"toc " ++ dec n) = c!"toc " ++ dec n := by
  suffices h : (c!"toc " ++ dec n).any needsEscape = false by
    unfold escapeOwned
    rw [h]
    rfl
  rw [List.any_eq_false]
  intro c hc
  rcases List.mem_append.1 hc with hc | hc
  · have : ∀ c ∈ c!"toc ", ¬ needsEscape c = true := by decide
    exact this c hc
  · have : ∀ c ∈ c!"0123456789", ¬ needsEscape c = true := by decide
    exact this c (dec_digits n c hc)

theorem keptText_dec {a : Str} (h : KeptText a) (n : Nat) : KeptText (a ++ dec n) := by
  have hd : ∀ c ∈ c!"0123456789", c ≠ '\t' ∧ c ≠ '\r' := by decide
  refine ⟨fun hm => ?_, fun hm => ?_⟩
  · rcases List.mem_append.1 hm with hm | hm
    · exact h.1 hm
    · exact (hd _ (dec_digits n _ hm)).1 rfl
  · rcases List.mem_append.1 hm with hm | hm
    · exact h.2 hm
    · exact (hd _ (dec_digits n _ hm)).2 rfl

theorem addTocStyles_eq (given : List Style) : addTocStyles given = given ++ (Spec.levelsMissing given).map tocStyle := by
  have hn : ∀ n, (tocStyle n).name = c!"toc " ++ dec n := fun n => toc_name n
  have key : ∀ (l : List Nat) (acc : List Style), l.Nodup → (∀ n ∈ l, ∀ s ∈ acc, s.name = c!"toc " ++ dec n → s ∈ given) → given <+: acc →
      l.foldl addTocStyle acc = acc ++ (l.filter fun n => given.all fun s => decide (s.name ≠ c!"toc " ++ dec n)).map tocStyle := by
    intro l
    induction l with
    | nil => intro acc _ _ _; simp
    | cons n l ih =>
      intro acc hd h hp
      rw [List.nodup_cons] at hd
      rw [List.foldl_cons]
      have hany : acc.any (fun s => decide (s.name = escapeOwned (c!"toc " ++ dec n))) = !(given.all fun s => decide (s.name ≠ c!"toc " ++ dec n)) := by
        rw [toc_name, Bool.eq_iff_iff]
        simp only [List.any_eq_true, decide_eq_true_eq, Bool.not_eq_true', List.all_eq_false, ne_eq, Bool.not_eq_true, decide_eq_false_iff_not, not_not]
        constructor
        · rintro ⟨s, hs, e⟩
          exact ⟨s, h n (.head _) s hs e, e⟩
        · rintro ⟨s, hs, e⟩
          exact ⟨s, hp.subset hs, e⟩
      rw [addTocStyle, hany]
      cases hg : given.all fun s => decide (s.name ≠ c!"toc " ++ dec n) with
      | false =>
        rw [List.filter_cons_of_neg (by rw [hg]; simp)]
        exact ih acc hd.2 (fun m hm => h m (.tail _ hm)) hp
      | true =>
        rw [List.filter_cons_of_pos (by rw [hg])]
        simp only [Bool.not_true, Bool.false_eq_true, if_false]
        rw [ih (acc ++ [tocStyle n]) hd.2 ?_ (hp.trans (List.prefix_append _ _))]
        · simp
        · intro m hm s hs e
          rcases List.mem_append.1 hs with hs | hs
          · exact h m (.tail _ hm) s hs e
          · rw [List.mem_singleton.1 hs, hn] at e
            have := dec_inj (List.append_cancel_left e)
            exact absurd (this ▸ hm) hd.1
  exact key _ given (by decide) (fun n _ s hs _ => hs) (List.prefix_refl _)

theorem tocStyle_kept (n : Nat) (h : n ≤ 9) : Style.Kept (tocStyle n) where
  id := ⟨c!"ToC" ++ dec n, keptText_dec ⟨by decide, by decide⟩ n, rfl⟩
  name := ⟨c!"toc " ++ dec n, keptText_dec ⟨by decide, by decide⟩ n, rfl⟩
  basedOn := fun _ e => (by cases e)
  link := fun _ e => (by cases e)
  next := fun _ e => (by cases e)
  run := base_default_kept.runProperty
  paragraph := by
    have hb := base_default_kept
    refine ⟨{ hb with alignment := fun s e => ⟨.both, (Option.some.inj e).symm⟩, indent := fun i e => ?_, lineSpacing := fun l e => ?_ }, trivial⟩
    · obtain rfl := Option.some.inj e
      refine ⟨⟨_, rfl, ?_⟩, ⟨0, rfl, ?_⟩, fun _ e => (by cases e), fun _ e => (by cases e), fun a e => ?_, rfl, rfl⟩
      · show InI32 (((n - 1 : Nat) : Int) * 200)
        unfold InI32; omega
      · unfold InI32; omega
      · obtain rfl := Option.some.inj e
        unfold InI32; omega
    · obtain rfl := Option.some.inj e
      refine ⟨fun _ e => (by cases e), fun n e => ?_, fun _ e => (by cases e), fun _ e => (by cases e), fun _ e => (by cases e)⟩
      obtain rfl := Option.some.inj e
      omega
  table := tableProperty_default_kept
  cell := cellProperty_default_kept

/-- **C55** for a whole file with a table of contents: the entry `word/styles.xml` is read as the defaults, the standing style, every style
that was added, and then one style for each level of the table of contents that has none. -/
theorem C55_package_toc (x : ReadEnv) (d : DocxFile) (env : Env) (w : World) (es : List Entry) (h : Packed env d w es)
    (ht : ∃ t, .toc t ∈ d.document.children) (hk : Styles.Kept d.styles) :
    ∃ s, ⟨c!"word/styles.xml", .text s⟩ ∈ es ∧
      ∃ k, ∀ n, k ≤ n → readStyles x n s =
        .ok (stylesSeen { d.styles with styles := d.styles.styles ++ (Spec.levelsMissing d.styles.styles).map tocStyle }) [.endDocument] := by
  obtain ⟨s, g, g', h1, h2⟩ := fits_write (packed_fits h) (step_styles _ _ _)
  have hn : hasToc d.document.children = true := by
    unfold hasToc
    rw [List.any_eq_true]
    obtain ⟨t, ht⟩ := ht
    exact ⟨_, ht, rfl⟩
  unfold DocxFile.stylesPart at h1
  rw [preparePackage_styles, hn, if_pos rfl, addTocStyles_eq] at h1
  have hk' : Styles.Kept { d.styles with styles := d.styles.styles ++ (Spec.levelsMissing d.styles.styles).map tocStyle } := by
    obtain ⟨k1, k2, k3⟩ := hk
    refine ⟨k1, k2, fun t ht => ?_⟩
    rcases List.mem_append.1 ht with ht | ht
    · exact k3 t ht
    · obtain ⟨n, hn, rfl⟩ := List.mem_map.1 ht
      refine tocStyle_kept n ?_
      have := (List.mem_filter.1 hn).1
      simp only [List.mem_cons, List.not_mem_nil, or_false] at this
      omega
  obtain ⟨out, g'', e, hr⟩ := C55_read x _ hk' g
  rw [h1] at e
  simp only [Option.some.injEq, Prod.mk.injEq, Except.ok.injEq] at e
  exact ⟨s, h2, by rw [e.1]; exact hr⟩

/-- The style for level 1 is given by the caller under another id, so only the other eight are added. -/
example : Spec.levelsMissing [(Style.new c!"Mine" .paragraph).setName c!"toc 1", Style.new c!"Other" .paragraph] = [2, 3, 4, 5, 6, 7, 8, 9] := by
  decide +kernel

private def tocCalls : List Call :=
  [ .addStyle ((Style.new c!"Mine" .paragraph).setName c!"toc 1"), .addToc {}, .addParagraph (aParagraph c!"x") ]

private theorem toc_pack : packs (fun d _ => decide (d.styles.styles.length = 1 ∧ d.document.children.any fun c => match c with | .toc _ => true | _ => false))
    tocCalls = true := by decide +kernel

example : ∃ d es, DocxFile.new.calls tocCalls = some d ∧ Packed anEnv d {} es ∧ (∃ t, .toc t ∈ d.document.children) ∧
    d.styles.styles.length = 1 := by
  obtain ⟨d, es, h1, h2, h3⟩ := packs_spec toc_pack
  rw [decide_eq_true_eq] at h3
  obtain ⟨a, b⟩ := h3
  obtain ⟨c, hc, hb⟩ := List.any_eq_true.1 b
  cases c with
  | toc t => exact ⟨d, es, h1, h2, ⟨t, hc⟩, a⟩
  | _ => cases hb

end Docx.Props
