import Verif.Lemmas.Escape

/-! # C01–C04: escaping -/

namespace Docx.Props

open Docx Docx.Spec

/-- **C01.** A conforming XML reader decodes the escaped form of any text to the text without its
carriage returns. -/
theorem C01_escape_decodes (s : Str) :
    decodeText (escape s) = some (s.filter (· ≠ '\r')) := by
  have := decode_escape_append s []
  simpa [decodeText, decodeFrom] using this

/-- C01 on text without carriage returns: an exact round trip. -/
theorem C01_escape_roundtrip (s : Str) (h : '\r' ∉ s) : decodeText (escape s) = some s := by
  rw [C01_escape_decodes, List.filter_eq_self.2]
  intro a ha; simp; intro e; exact h (e ▸ ha)

/-- C01 for attribute values: the reader also turns literal tabs into spaces. -/
theorem C01_escape_attribute (s : Str) :
    decodeAttr (escape s) = some ((s.filter (· ≠ '\r')).map fun c => if c = '\t' then ' ' else c) := by
  have hq : '"' ∉ escape s := fun h => (escape_no_delim s _ h).2.2.1 rfl
  have hmap : (escape s).map attrSpace = escape (s.map fun c => if c = '\t' then ' ' else c) := by
    simp only [escape_eq, List.map_flatMap, List.flatMap_map]
    congr 1
    funext c
    by_cases ht : c = '\t'
    · subst ht; decide
    · simp only [ht, if_false]
      unfold escapeChar
      repeat' split
      all_goals first
        | decide
        | simp_all [attrSpace]
  unfold decodeAttr
  rw [if_neg hq, hmap, C01_escape_decodes, List.filter_map]
  congr 2
  apply List.filter_congr
  intro c _
  simp only [Function.comp]
  by_cases ht : c = '\t' <;> simp [ht]

/-- **C02.** The escaped form of any text is free of markup. -/
theorem C02_escape_markup_free (s : Str) : MarkupFree (escape s) :=
  ⟨escape_no_delim s, escape_amp s⟩

/-- **C03.** The fast path agrees with the slow path. -/
theorem C03_escape_owned (s : Str) : escapeOwned s = escape s := by
  unfold escapeOwned
  split
  · rfl
  · exact (escape_id_of_plain s (by simp_all)).symm

/-- **C04.** `replace_escaped` on the escaped form of any text: carriage returns are gone and line
feeds stay as references, everything else is restored. -/
theorem C04_replace_escape (s : Str) :
    replaceEscaped (escape s) =
      (s.filter (· ≠ '\r')).flatMap fun c => if c = '\n' then c!"&#xA;" else [c] := by
  induction s with
  | nil => rfl
  | cons c s ih =>
    rw [escape_cons, replaceEscaped_escapeChar, ih]
    by_cases h1 : c = '\r'
    · subst h1; simp
    · by_cases h2 : c = '\n'
      · subst h2; simp
      · simp [h1, h2]

/-- **C04.** On text without line breaks `replace_escaped` inverts `escape`. -/
theorem C04_replace_inverts (s : Str) (h1 : '\r' ∉ s) (h2 : '\n' ∉ s) :
    replaceEscaped (escape s) = s := by
  rw [C04_replace_escape, List.filter_eq_self.2]
  · induction s with
    | nil => rfl
    | cons c s ih =>
      simp only [List.mem_cons, not_or] at h1 h2
      rw [List.flatMap_cons, ih h1.2 h2.2]
      simp [Ne.symm h2.1]
  · intro a ha; simp; intro e; exact h1 (e ▸ ha)

/-- **C04.** Text without `&` is unchanged. -/
theorem C04_replace_plain (s : Str) (h : '&' ∉ s) : replaceEscaped s = s :=
  replaceEscaped_no_amp s h

/-- **C04.** The result is never longer than the input. -/
theorem C04_replace_length (s : Str) : (replaceEscaped s).length ≤ s.length :=
  replaceEscaped_length_aux s.length s (Nat.le_refl _)

/-- **C04.** Left-to-right, single-pass decoding: these equations determine the function. -/
theorem C04_replace_equations (t : Str) :
    (∀ p, '&' ∉ p → replaceEscaped (p ++ t) = p ++ replaceEscaped t) ∧
    (∀ e ch, (e, ch) ∈ [(c!"&lt;", '<'), (c!"&gt;", '>'), (c!"&amp;", '&'), (c!"&quot;", '"'),
        (c!"&#39;", '\''), (c!"&apos;", '\''), (c!"&nbsp;", ' ')] →
      replaceEscaped (e ++ t) = ch :: replaceEscaped t) ∧
    ((∀ e ∈ [c!"lt;", c!"gt;", c!"amp;", c!"quot;", c!"#39;", c!"apos;", c!"nbsp;"], ¬ e <+: t) →
      replaceEscaped ('&' :: t) = '&' :: replaceEscaped t) := by
  refine ⟨fun p hp => replaceEscaped_prefix p t hp, ?_, ?_⟩
  · intro e ch h
    have E := replaceEscaped_entity t
    simp only [List.mem_cons, Prod.mk.injEq, List.not_mem_nil, or_false] at h
    rcases h with ⟨rfl, rfl⟩ | ⟨rfl, rfl⟩ | ⟨rfl, rfl⟩ | ⟨rfl, rfl⟩ | ⟨rfl, rfl⟩ | ⟨rfl, rfl⟩ |
      ⟨rfl, rfl⟩
    · exact E.1
    · exact E.2.1
    · exact E.2.2.1
    · exact E.2.2.2.1
    · exact E.2.2.2.2.1
    · exact E.2.2.2.2.2.1
    · exact E.2.2.2.2.2.2
  · intro h
    apply replaceEscaped_other
    have hn : ∀ e ∈ [c!"lt;", c!"gt;", c!"amp;", c!"quot;", c!"#39;", c!"apos;", c!"nbsp;"],
        e.isPrefixOf t = false := by
      intro e he
      have := h e he
      rw [← List.isPrefixOf_iff_prefix] at this
      exact Bool.eq_false_iff.2 this
    simp only [List.mem_cons, List.not_mem_nil, or_false, forall_eq_or_imp, forall_eq] at hn
    simp only [String.reduceToList] at hn
    unfold entityAt
    simp only [String.reduceToList, List.isPrefixOf_cons_cons_self]
    simp [hn]

/-- The claim "`replace_escaped` inverts `escape`" is false for text with a line feed. -/
theorem C04_line_feed_not_restored : ∃ s : Str, '\r' ∉ s ∧ replaceEscaped (escape s) ≠ s :=
  ⟨c!"a\nb", by decide, by decide⟩

/-! Concrete cases. -/
example : escape c!"a<b & \"c\"\r\n'" = c!"a&lt;b &amp; &quot;c&quot;&#xA;&apos;" := by decide
example : '\r' ∉ c!"x < y\nz" ∧ decodeText (escape c!"x < y\nz") = some c!"x < y\nz" := by decide
example : '\r' ∉ c!"&lt; \"q\"" ∧ '\n' ∉ c!"&lt; \"q\"" ∧
    replaceEscaped (escape c!"&lt; \"q\"") = c!"&lt; \"q\"" := by decide
example : replaceEscaped c!"&amp;lt; &nope; &" = c!"&lt; &nope; &" := by decide
example : escapeOwned c!"plain" = c!"plain" := by decide

end Docx.Props
