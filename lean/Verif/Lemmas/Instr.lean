import Verif.Model.Instr
import Verif.Spec.Instr
import Verif.Lemmas.Numbers
import Verif.Lemmas.BuildOk

/-!
# Instructions: writing and reading
-/

namespace Docx

set_option linter.unusedSimpArgs false

open Docx.Spec

theorem splitOn_word (sep : Char) (w : Str) (h : sep ∉ w) : splitOn sep w = [w] := by
  induction w with
  | nil => rfl
  | cons c w ih =>
    simp only [List.mem_cons, not_or] at h
    rw [splitOn, if_neg (Ne.symm h.1), ih h.2]

theorem splitOn_cons (sep : Char) (w s : Str) (h : sep ∉ w) : splitOn sep (w ++ sep :: s) = w :: splitOn sep s := by
  induction w with
  | nil => simp [splitOn]
  | cons c w ih =>
    simp only [List.mem_cons, not_or] at h
    rw [List.cons_append, splitOn, if_neg (Ne.symm h.1), ih h.2]

/-- Pieces, each with a space before it. -/
def spaced (ts : List Str) : Str := ts.flatMap (' ' :: ·)

theorem spaced_append (a b : List Str) : spaced (a ++ b) = spaced a ++ spaced b := by simp [spaced]

theorem splitOn_spaced (ts : List Str) : ∀ (w : Str), ' ' ∉ w → (∀ t ∈ ts, ' ' ∉ t) →
    splitOn ' ' (w ++ spaced ts) = w :: ts := by
  induction ts with
  | nil => intro w h _; simp [spaced, splitOn_word _ _ h]
  | cons t ts ih =>
    intro w h1 h2
    have e : w ++ spaced (t :: ts) = w ++ ' ' :: (t ++ spaced ts) := by simp [spaced]
    rw [e, splitOn_cons _ _ _ h1, ih t (h2 t (by simp)) fun x hx => h2 x (by simp [hx])]

theorem splitOn_joinComma : ∀ (ts : List Str), ts ≠ [] → (∀ t ∈ ts, ',' ∉ t) → splitOn ',' (joinComma ts) = ts
  | [], h, _ => absurd rfl h
  | [t], _, h => splitOn_word _ _ (h t (by simp))
  | t :: u :: ts, _, h => by
    have e : joinComma (t :: u :: ts) = t ++ ',' :: joinComma (u :: ts) := by
      simp [joinComma]
    rw [e, splitOn_cons _ _ _ (h t (by simp)), splitOn_joinComma (u :: ts) (by simp) fun x hx => h x (by simp [hx])]

theorem removeAllAux_clean (pat : Str) (c : Char) (hp : pat.head? = some c) (s r : Str) (h : c ∉ s) :
    removeAllAux pat 0 (s ++ r) = s ++ removeAllAux pat 0 r := by
  induction s with
  | nil => rfl
  | cons d s ih =>
    simp only [List.mem_cons, not_or] at h
    have : pat.isPrefixOf (d :: (s ++ r)) = false := by
      cases pat with
      | nil => simp at hp
      | cons p pat =>
        simp only [List.head?_cons, Option.some.injEq] at hp
        subst hp
        simp [List.isPrefixOf, h.1]
    rw [List.cons_append, removeAllAux, this, ih h.2]
    rfl

theorem unquote_clean (s : Str) (h1 : '&' ∉ s) (h2 : '"' ∉ s) : unquote s = s := by
  have e1 : removeAll c!"&quot;" s = s := by
    have := removeAllAux_clean c!"&quot;" '&' rfl s [] h1
    simpa [removeAll, removeAllAux] using this
  have e2 : removeAll ['"'] s = s := by
    have := removeAllAux_clean ['"'] '"' rfl s [] h2
    simpa [removeAll, removeAllAux] using this
  rw [unquote, e1, e2]

/-- The two ways the quotation mark stands in an instruction: in the file and after reading. -/
def IsQuote (q : Str) : Prop := q = c!"&quot;" ∨ q = ['"']

theorem unquote_quoted {q : Str} (hq : IsQuote q) (s : Str) (h1 : '&' ∉ s) (h2 : '"' ∉ s) :
    unquote (q ++ s ++ q) = s := by
  rcases hq with rfl | rfl
  · have e1 : removeAll c!"&quot;" (c!"&quot;" ++ s ++ c!"&quot;") = s := by
      have := removeAllAux_clean c!"&quot;" '&' rfl s c!"&quot;" h1
      have e0 : removeAll c!"&quot;" (c!"&quot;" ++ s ++ c!"&quot;") =
          removeAllAux c!"&quot;" 0 (s ++ c!"&quot;") := by
        rw [List.append_assoc]
        rfl
      rw [e0, this]
      have : removeAllAux c!"&quot;" 0 c!"&quot;" = [] := by decide
      rw [this, List.append_nil]
    have e2 : removeAll ['"'] s = s := by
      have := removeAllAux_clean ['"'] '"' rfl s [] h2
      simpa [removeAll, removeAllAux] using this
    rw [unquote, e1, e2]
  · have e1 : removeAll c!"&quot;" (['"'] ++ s ++ ['"']) = ['"'] ++ s ++ ['"'] := by
      have := removeAllAux_clean c!"&quot;" '&' rfl (['"'] ++ s ++ ['"']) [] (by simp [h1])
      simpa [removeAll, removeAllAux] using this
    have e2 : removeAll ['"'] (['"'] ++ s ++ ['"']) = s := by
      have e0 : removeAll ['"'] (['"'] ++ s ++ ['"']) = removeAllAux ['"'] 0 (s ++ ['"']) := by
        rw [List.append_assoc]
        rfl
      have := removeAllAux_clean ['"'] '"' rfl s ['"'] h2
      rw [e0, this]
      have : removeAllAux ['"'] 0 ['"'] = [] := by decide
      rw [this, List.append_nil]
    rw [unquote, e1, e2]

end Docx

namespace Docx

set_option linter.unusedSimpArgs false

/-- An argument between quotation marks. -/
def optArg (q sw : Str) (o : Option Str) : List Str :=
  match o with
  | some t => [sw, q ++ t ++ q]
  | none => []

/-- A switch without argument. -/
def optFlag (sw : Str) (b : Bool) : List Str := if b then [sw] else []

/-- The pieces of a table of contents instruction before `\f`, -/
def tocHead (q : Str) (i : InstrToC) : List Str :=
  optArg q c!"\\a" i.captionLabel ++ (optArg q c!"\\b" i.entryBookmarkName ++
  (optArg q c!"\\c" i.captionLabelIncludingNumbers ++ optArg q c!"\\d" i.sequenceAndPageNumbersSeparator))

/-- `\f` -/
def tocF (q : Str) (i : InstrToC) : List Str :=
  match i.tcFieldIdentifier with
  | some (some t) => [c!"\\f", q ++ t ++ q]
  | some none => [c!"\\f"]
  | none => []

/-- and after it. -/
def tocTail (q : Str) (i : InstrToC) : List Str :=
  optArg q c!"\\l" (i.tcFieldLevelRange.map rangeText) ++ (optArg q c!"\\n" (i.omitPageNumbersLevelRange.map rangeText) ++
  (optArg q c!"\\o" (i.headingStylesRange.map rangeText) ++ (optArg q c!"\\p" i.entryAndPageNumberSeparator ++
  (optArg q c!"\\s" i.seqFieldIdentifierForPrefix ++
  (optArg q c!"\\t" (if i.stylesWithLevels ≠ [] then
      some (joinComma (i.stylesWithLevels.map fun s => s.1 ++ c!"," ++ dec s.2)) else none) ++
  (optFlag c!"\\h" i.hyperlink ++ (optFlag c!"\\u" i.useAppliedParagraphLineLevel ++
  (optFlag c!"\\w" i.preserveTab ++ (optFlag c!"\\x" i.preserveNewLine ++
  optFlag c!"\\z" i.hideTabAndPageNumbersInWebview)))))))))

theorem spaced_optArg (q sw : Str) (o : Option Str) :
    spaced (optArg q sw o) = match o with | some t => ' ' :: sw ++ (' ' :: q) ++ t ++ q | none => [] := by
  cases o <;> simp [spaced, optArg]

theorem spaced_optFlag (sw : Str) (b : Bool) : spaced (optFlag sw b) = if b then ' ' :: sw else [] := by
  cases b <;> simp [spaced, optFlag]

/-- A switch with its argument as it is written. -/
def optQ (sw : Str) (o : Option Str) : Str :=
  match o with
  | some t => quotedSwitch sw t
  | none => []

/-- `\f` as it is written. -/
def fQ (o : Option (Option Str)) : Str :=
  match o with
  | some (some t) => quotedSwitch c!" \\f" t
  | some none => c!" \\f"
  | none => []

/-- A range as it is written. -/
def optR (sw : Str) (o : Option (Nat × Nat)) : Str :=
  match o with
  | some t => quotedSwitch sw (rangeText t)
  | none => []

theorem quotedSwitch_eq (sw' sw t : Str) (h : sw' = ' ' :: sw) :
    quotedSwitch sw' t = ' ' :: sw ++ (' ' :: c!"&quot;") ++ t ++ c!"&quot;" := by
  rw [quotedSwitch, h]; rfl

theorem optQ_eq (sw' sw : Str) (o : Option Str) (h : sw' = ' ' :: sw) :
    optQ sw' o = spaced (optArg c!"&quot;" sw o) := by
  rw [spaced_optArg]
  cases o with
  | none => rfl
  | some t => exact quotedSwitch_eq _ _ _ h

theorem optR_eq (sw' sw : Str) (o : Option (Nat × Nat)) (h : sw' = ' ' :: sw) :
    optR sw' o = spaced (optArg c!"&quot;" sw (o.map rangeText)) := by
  rw [spaced_optArg]
  cases o with
  | none => rfl
  | some t => exact quotedSwitch_eq _ _ _ h

theorem optF_eq (sw' sw : Str) (b : Bool) (h : sw' = ' ' :: sw) :
    (if b then sw' else []) = spaced (optFlag sw b) := by
  rw [spaced_optFlag, h]

theorem fQ_eq (i : InstrToC) : fQ i.tcFieldIdentifier = spaced (tocF c!"&quot;" i) := by
  rw [tocF]
  rcases i.tcFieldIdentifier with _ | _ | t
  · rfl
  · rfl
  · change quotedSwitch _ t = _
    rw [quotedSwitch_eq c!" \\f" c!"\\f" t rfl]
    simp only [spaced, List.flatMap_cons, List.flatMap_nil, List.append_nil, List.append_assoc, List.cons_append]

theorem styles_eq (l : List (Str × Nat)) : (if l ≠ [] then
        quotedSwitch c!" \\t" (joinComma (l.map fun s => s.1 ++ c!"," ++ dec s.2))
      else []) = spaced (optArg c!"&quot;" c!"\\t" (if l ≠ [] then
      some (joinComma (l.map fun s => s.1 ++ c!"," ++ dec s.2)) else none)) := by
  by_cases h : l ≠ []
  · rw [if_pos h, if_pos h, spaced_optArg]; exact quotedSwitch_eq _ _ _ rfl
  · rw [if_neg h, if_neg h, spaced_optArg]

theorem toc_text (i : InstrToC) :
    i.text = c!"TOC" ++ spaced (tocHead c!"&quot;" i ++ (tocF c!"&quot;" i ++ tocTail c!"&quot;" i)) := by
  have e : i.text = c!"TOC" ++ optQ c!" \\a" i.captionLabel ++ optQ c!" \\b" i.entryBookmarkName
      ++ optQ c!" \\c" i.captionLabelIncludingNumbers ++ optQ c!" \\d" i.sequenceAndPageNumbersSeparator
      ++ fQ i.tcFieldIdentifier ++ optR c!" \\l" i.tcFieldLevelRange ++ optR c!" \\n" i.omitPageNumbersLevelRange
      ++ optR c!" \\o" i.headingStylesRange ++ optQ c!" \\p" i.entryAndPageNumberSeparator
      ++ optQ c!" \\s" i.seqFieldIdentifierForPrefix
      ++ (if i.stylesWithLevels ≠ [] then
        quotedSwitch c!" \\t" (joinComma (i.stylesWithLevels.map fun s => s.1 ++ c!"," ++ dec s.2)) else [])
      ++ (if i.hyperlink then c!" \\h" else []) ++ (if i.useAppliedParagraphLineLevel then c!" \\u" else [])
      ++ (if i.preserveTab then c!" \\w" else []) ++ (if i.preserveNewLine then c!" \\x" else [])
      ++ (if i.hideTabAndPageNumbersInWebview then c!" \\z" else []) := rfl
  rw [e, optQ_eq c!" \\a" c!"\\a" _ rfl, optQ_eq c!" \\b" c!"\\b" _ rfl, optQ_eq c!" \\c" c!"\\c" _ rfl,
    optQ_eq c!" \\d" c!"\\d" _ rfl, fQ_eq, optR_eq c!" \\l" c!"\\l" _ rfl, optR_eq c!" \\n" c!"\\n" _ rfl,
    optR_eq c!" \\o" c!"\\o" _ rfl, optQ_eq c!" \\p" c!"\\p" _ rfl, optQ_eq c!" \\s" c!"\\s" _ rfl, styles_eq,
    optF_eq c!" \\h" c!"\\h" _ rfl, optF_eq c!" \\u" c!"\\u" _ rfl, optF_eq c!" \\w" c!"\\w" _ rfl,
    optF_eq c!" \\x" c!"\\x" _ rfl, optF_eq c!" \\z" c!"\\z" _ rfl, tocHead, tocTail]
  simp only [spaced_append, List.append_assoc]

/-- Reading a switch with its argument. -/
theorem tocPieces_arg (q sw : Str) (o : Option Str) (rest : List Str) (t : InstrToC) (h : sw ∈ tocArgSwitches) :
    tocPieces (optArg q sw o ++ rest) t =
      tocPieces rest (match o with | some s => tocArgument sw (q ++ s ++ q) t | none => t) := by
  cases o with
  | none => rfl
  | some s =>
    change tocPieces (sw :: (q ++ s ++ q) :: rest) t = _
    rw [tocPieces, if_pos h]

/-- Reading a switch without argument. -/
theorem tocPieces_flag (sw : Str) (b : Bool) (rest : List Str) (t : InstrToC) (h : sw ∉ tocArgSwitches)
    (h2 : sw ≠ c!"\\f") :
    tocPieces (optFlag sw b ++ rest) t = tocPieces rest (if b then tocFlag sw t else t) := by
  cases b with
  | false => rfl
  | true =>
    change tocPieces (sw :: rest) t = _
    cases rest with
    | nil => rfl
    | cons r s => rw [tocPieces, if_neg h, if_neg h2]; rfl

theorem tocPieces_skip (rest : List Str) (t : InstrToC) : tocPieces (c!"TOC" :: rest) t = tocPieces rest t := by
  cases rest with
  | nil => rfl
  | cons r s => rw [tocPieces, if_neg (by decide), if_neg (by decide)]; rfl

end Docx

namespace Docx

set_option linter.unusedSimpArgs false

open Docx.Spec

theorem mem_dec (n : Nat) (c : Char) (h : c ∉ c!"0123456789") : c ∉ dec n :=
  fun hc => h (dec_digits n c hc)

theorem rangeText_notMem (r : Nat × Nat) (c : Char) (h : c ∉ c!"0123456789") (h2 : c ≠ '-') : c ∉ rangeText r := by
  intro hc
  simp only [rangeText, List.mem_append] at hc
  rcases hc with (hc | hc) | hc
  · exact mem_dec _ _ h hc
  · have : c ∈ ['-'] := hc
    simp [h2] at this
  · exact mem_dec _ _ h hc

theorem rangeText_plain (r : Nat × Nat) : PlainArg (rangeText r) :=
  ⟨rangeText_notMem r _ (by decide) (by decide), rangeText_notMem r _ (by decide) (by decide),
    rangeText_notMem r _ (by decide) (by decide)⟩

theorem parseLevelRange_quoted {q : Str} (hq : IsQuote q) (r : Nat × Nat) (h1 : r.1 < 2 ^ 64) (h2 : r.2 < 2 ^ 64) :
    parseLevelRange (q ++ rangeText r ++ q) = some r := by
  have hp := rangeText_plain r
  have e : splitOn '-' (rangeText r) = [dec r.1, dec r.2] := by
    have : rangeText r = dec r.1 ++ '-' :: dec r.2 := by simp only [rangeText, List.append_assoc]; rfl
    rw [this, splitOn_cons _ _ _ (mem_dec _ _ (by decide)), splitOn_word _ _ (mem_dec _ _ (by decide))]
  simp only [parseLevelRange, unquote_quoted hq _ hp.2.2 hp.2.1, e, parseUsize_dec _ h1, parseUsize_dec _ h2]

theorem stylePairs_join : ∀ (l : List (Str × Nat)), (∀ s ∈ l, s.2 < 2 ^ 64) →
    stylePairs (l.flatMap fun s => [s.1, dec s.2]) = l
  | [], _ => rfl
  | s :: l, h => by
    simp only [List.flatMap_cons, List.cons_append, List.nil_append, stylePairs, parseUsize_dec _ (h s (by simp))]
    rw [stylePairs_join l fun x hx => h x (by simp [hx])]

theorem joinComma_flat : ∀ (l : List (Str × Nat)),
    joinComma (l.map fun s => s.1 ++ c!"," ++ dec s.2) = joinComma (l.flatMap fun s => [s.1, dec s.2])
  | [] => rfl
  | [s] => by simp [joinComma]
  | s :: t :: l => by
    have ih := joinComma_flat (t :: l)
    simp only [List.map_cons, List.flatMap_cons, List.cons_append, List.nil_append, joinComma] at ih ⊢
    rw [ih]
    simp

theorem joinComma_notMem (c : Char) (hc : c ≠ ',') : ∀ (l : List Str), (∀ s ∈ l, c ∉ s) → c ∉ joinComma l
  | [], _ => by simp [joinComma]
  | [s], h => by simpa [joinComma] using h
  | s :: t :: l, h => by
    have ih := joinComma_notMem c hc (t :: l) fun x hx => h x (by simp [hx])
    have e : joinComma (s :: t :: l) = s ++ ',' :: joinComma (t :: l) := by simp [joinComma]
    rw [e]
    simp only [List.mem_append, List.mem_cons, not_or]
    exact ⟨h s (by simp), hc, ih⟩

theorem styles_notMem (l : List (Str × Nat)) (c : Char) (hc : c ≠ ',') (hd : c ∉ c!"0123456789")
    (h : ∀ s ∈ l, c ∉ s.1) : c ∉ joinComma (l.map fun s => s.1 ++ c!"," ++ dec s.2) := by
  rw [joinComma_flat]
  apply joinComma_notMem c hc
  intro s hs
  simp only [List.mem_flatMap, List.mem_cons, List.not_mem_nil, or_false] at hs
  obtain ⟨x, hx, rfl | rfl⟩ := hs
  · exact h x hx
  · exact mem_dec _ _ hd

theorem IsQuote.space {q : Str} (hq : IsQuote q) : ' ' ∉ q := by
  rcases hq with rfl | rfl <;> decide

theorem optArg_space {q sw : Str} (hq : IsQuote q) (hs : ' ' ∉ sw) (o : Option Str) (h : ∀ s, o = some s → ' ' ∉ s) :
    ∀ t ∈ optArg q sw o, ' ' ∉ t := by
  cases o with
  | none => simp [optArg]
  | some s =>
    intro t ht
    simp only [optArg, List.mem_cons, List.not_mem_nil, or_false] at ht
    rcases ht with rfl | rfl
    · exact hs
    · simp [hq.space, h s rfl]

theorem optFlag_space {sw : Str} (hs : ' ' ∉ sw) (b : Bool) : ∀ t ∈ optFlag sw b, ' ' ∉ t := by
  cases b <;> simp [optFlag, hs]

theorem stylesArg (l : List (Str × Nat)) (s : Str) (h : (if l ≠ [] then
      some (joinComma (l.map fun s => s.1 ++ c!"," ++ dec s.2)) else none) = some s) :
    l ≠ [] ∧ s = joinComma (l.map fun s => s.1 ++ c!"," ++ dec s.2) := by
  by_cases hl : l ≠ []
  · rw [if_pos hl] at h; exact ⟨hl, (Option.some.inj h).symm⟩
  · rw [if_neg hl] at h; cases h

theorem forall_append {P : Str → Prop} {a b : List Str} (ha : ∀ t ∈ a, P t) (hb : ∀ t ∈ b, P t) :
    ∀ t ∈ a ++ b, P t := by
  intro t ht
  rcases List.mem_append.1 ht with h | h
  · exact ha t h
  · exact hb t h

theorem range_space (o : Option (Nat × Nat)) : ∀ s, o.map rangeText = some s → ' ' ∉ s := by
  intro s h
  cases o with
  | none => cases h
  | some r => cases h; exact (rangeText_plain r).1

theorem toc_space {q : Str} (hq : IsQuote q) (i : InstrToC) (h : TocReadable i) :
    ∀ t ∈ tocHead q i ++ (tocF q i ++ tocTail q i), ' ' ∉ t := by
  refine forall_append ?_ (forall_append ?_ ?_)
  · exact forall_append (optArg_space hq (by decide) _ fun s e => (h.captionLabel s e).1)
      (forall_append (optArg_space hq (by decide) _ fun s e => (h.entryBookmarkName s e).1)
      (forall_append (optArg_space hq (by decide) _ fun s e => (h.captionLabelIncludingNumbers s e).1)
      (optArg_space hq (by decide) _ fun s e => (h.sequenceAndPageNumbersSeparator s e).1)))
  · have := h.tcFieldIdentifier
    unfold tocF
    rcases e : i.tcFieldIdentifier with _ | _ | s
    · simp
    · intro t ht; rw [List.mem_singleton.1 ht]; decide
    · exact optArg_space hq (by decide) (some s) fun s' e' => by cases e'; exact (this s e).1
  · refine forall_append (optArg_space hq (by decide) _ (range_space _))
      (forall_append (optArg_space hq (by decide) _ (range_space _))
      (forall_append (optArg_space hq (by decide) _ (range_space _))
      (forall_append (optArg_space hq (by decide) _ fun s e => (h.entryAndPageNumberSeparator s e).1)
      (forall_append (optArg_space hq (by decide) _ fun s e => (h.seqFieldIdentifierForPrefix s e).1)
      (forall_append (optArg_space hq (by decide) _ fun s e => ?_)
      (forall_append (optFlag_space (by decide) _) (forall_append (optFlag_space (by decide) _)
      (forall_append (optFlag_space (by decide) _) (forall_append (optFlag_space (by decide) _)
      (optFlag_space (by decide) _))))))))))
    obtain ⟨_, rfl⟩ := stylesArg _ _ e
    exact styles_notMem _ _ (by decide) (by decide) fun s hs => (h.stylesWithLevels s hs).1.1

theorem tocTail_head (q : Str) (i : InstrToC) (r : Str) (s : List Str) (h : tocTail q i = r :: s) :
    r.head? = some '\\' := by
  have key : ∀ t ∈ (tocTail q i).head?, t.head? = some '\\' := by
    have a1 : ∀ (sw : Str) (o : Option Str) (l : List Str), sw.head? = some '\\' →
        (∀ t ∈ l.head?, t.head? = some '\\') → ∀ t ∈ (optArg q sw o ++ l).head?, t.head? = some '\\' := by
      intro sw o l h1 h2
      cases o with
      | none => exact h2
      | some s => simpa [optArg] using h1
    have a2 : ∀ (sw : Str) (b : Bool) (l : List Str), sw.head? = some '\\' →
        (∀ t ∈ l.head?, t.head? = some '\\') → ∀ t ∈ (optFlag sw b ++ l).head?, t.head? = some '\\' := by
      intro sw b l h1 h2
      cases b with
      | false => exact h2
      | true => simpa [optFlag] using h1
    have a3 : ∀ (sw : Str) (b : Bool), sw.head? = some '\\' →
        ∀ t ∈ (optFlag sw b).head?, t.head? = some '\\' := by
      intro sw b h1
      cases b with
      | false => simp [optFlag]
      | true => simpa [optFlag] using h1
    unfold tocTail
    exact a1 _ _ _ rfl (a1 _ _ _ rfl (a1 _ _ _ rfl (a1 _ _ _ rfl (a1 _ _ _ rfl (a1 _ _ _ rfl
      (a2 _ _ _ rfl (a2 _ _ _ rfl (a2 _ _ _ rfl (a2 _ _ _ rfl (a3 _ _ rfl))))))))))
  rw [h] at key
  simpa using key

/-- What reading makes of the `\f` switch: it is lost when nothing follows, and an empty identifier is none. -/
def readF (i : InstrToC) : Option (Option Str) :=
  match i.tcFieldIdentifier with
  | some none => if tocTail [] i = [] then none else some none
  | some (some []) => some none
  | o => o

theorem tocTail_nil (q : Str) (i : InstrToC) : tocTail q i = [] ↔ tocTail [] i = [] := by
  have : ∀ sw o, optArg q sw o = [] ↔ optArg [] sw o = [] := by
    intro sw o; cases o <;> simp [optArg]
  simp only [tocTail, List.append_eq_nil_iff, this]

theorem quoted_head {q : Str} (hq : IsQuote q) (s : Str) : (q ++ s ++ q).head? ≠ some '\\' := by
  rcases hq with rfl | rfl
  · intro h
    have : (c!"&quot;" ++ s ++ c!"&quot;").head? = some '&' := by rw [List.append_assoc]; rfl
    rw [this] at h
    simp at h
  · simp

theorem tocPieces_f {q : Str} (hq : IsQuote q) (i : InstrToC) (h : TocReadable i) {x0 x1 x2 x3 x4 x5 x6 x7 x8 x9 x11 x12 x13 x14 x15} :
    tocPieces (tocF q i ++ tocTail q i) (.mk x0 x1 x2 x3 x4 x5 x6 x7 x8 x9 none x11 x12 x13 x14 x15) = tocPieces (tocTail q i) (.mk x0 x1 x2 x3 x4 x5 x6 x7 x8 x9 (readF i) x11 x12 x13 x14 x15) := by
  have hp := h.tcFieldIdentifier
  unfold tocF readF
  rcases e : i.tcFieldIdentifier with _ | _ | s
  · rfl
  · simp only
    by_cases hn : tocTail q i = []
    · rw [if_pos ((tocTail_nil q i).1 hn), hn]
      rfl
    · rw [if_neg (mt (tocTail_nil q i).2 hn)]
      cases hc : tocTail q i with
      | nil => exact absurd hc hn
      | cons r s =>
        simp only [List.cons_append, List.nil_append]
        rw [tocPieces, if_neg (by decide), if_pos rfl, if_pos (tocTail_head q i r s hc)]
  · have hs := hp s e
    simp only [List.cons_append, List.nil_append]
    rw [tocPieces, if_neg (by decide), if_pos rfl, if_neg (quoted_head hq s), unquote_quoted hq s hs.2.2 hs.2.1]
    cases s with
    | nil => rfl
    | cons c s => rfl

end Docx

namespace Docx

set_option linter.unusedSimpArgs false

open Docx.Spec

theorem toc_a {q : Str} (hq : IsQuote q) (o : Option Str) (h : ∀ s, o = some s → PlainArg s) (rest : List Str)
    {x0 x1 x2 x3 x4 x5 x6 x8 x9 x10 x11 x12 x13 x14 x15} :
    tocPieces (optArg q c!"\\a" o ++ rest) (.mk x0 x1 x2 x3 x4 x5 x6 none x8 x9 x10 x11 x12 x13 x14 x15) = tocPieces rest (.mk x0 x1 x2 x3 x4 x5 x6 o x8 x9 x10 x11 x12 x13 x14 x15) := by
  rw [tocPieces_arg _ _ _ _ _ (by decide)]
  congr 1
  cases o with
  | none => rfl
  | some s =>
    have hs := h s rfl
    simp only
    rw [tocArgument, if_pos rfl, unquote_quoted hq s hs.2.2 hs.2.1]

theorem toc_b {q : Str} (hq : IsQuote q) (o : Option Str) (h : ∀ s, o = some s → PlainArg s) (rest : List Str)
    {x0 x1 x2 x4 x5 x6 x7 x8 x9 x10 x11 x12 x13 x14 x15} :
    tocPieces (optArg q c!"\\b" o ++ rest) (.mk x0 x1 x2 none x4 x5 x6 x7 x8 x9 x10 x11 x12 x13 x14 x15) = tocPieces rest (.mk x0 x1 x2 o x4 x5 x6 x7 x8 x9 x10 x11 x12 x13 x14 x15) := by
  rw [tocPieces_arg _ _ _ _ _ (by decide)]
  congr 1
  cases o with
  | none => rfl
  | some s =>
    have hs := h s rfl
    simp only
    rw [tocArgument, if_neg (by decide), if_pos rfl, unquote_quoted hq s hs.2.2 hs.2.1]

theorem toc_c {q : Str} (hq : IsQuote q) (o : Option Str) (h : ∀ s, o = some s → PlainArg s) (rest : List Str)
    {x0 x1 x2 x3 x4 x5 x6 x7 x9 x10 x11 x12 x13 x14 x15} :
    tocPieces (optArg q c!"\\c" o ++ rest) (.mk x0 x1 x2 x3 x4 x5 x6 x7 none x9 x10 x11 x12 x13 x14 x15) = tocPieces rest (.mk x0 x1 x2 x3 x4 x5 x6 x7 o x9 x10 x11 x12 x13 x14 x15) := by
  rw [tocPieces_arg _ _ _ _ _ (by decide)]
  congr 1
  cases o with
  | none => rfl
  | some s =>
    have hs := h s rfl
    simp only
    rw [tocArgument, if_neg (by decide), if_neg (by decide), if_pos rfl, unquote_quoted hq s hs.2.2 hs.2.1]

theorem toc_d {q : Str} (hq : IsQuote q) (o : Option Str) (h : ∀ s, o = some s → PlainArg s) (rest : List Str)
    {x0 x1 x2 x3 x4 x5 x7 x8 x9 x10 x11 x12 x13 x14 x15} :
    tocPieces (optArg q c!"\\d" o ++ rest) (.mk x0 x1 x2 x3 x4 x5 none x7 x8 x9 x10 x11 x12 x13 x14 x15) = tocPieces rest (.mk x0 x1 x2 x3 x4 x5 o x7 x8 x9 x10 x11 x12 x13 x14 x15) := by
  rw [tocPieces_arg _ _ _ _ _ (by decide)]
  congr 1
  cases o with
  | none => rfl
  | some s =>
    have hs := h s rfl
    simp only
    rw [tocArgument, if_neg (by decide), if_neg (by decide), if_neg (by decide), if_pos rfl, unquote_quoted hq s hs.2.2 hs.2.1]

theorem toc_p {q : Str} (hq : IsQuote q) (o : Option Str) (h : ∀ s, o = some s → PlainArg s) (rest : List Str)
    {x0 x1 x2 x3 x4 x6 x7 x8 x9 x10 x11 x12 x13 x14 x15} :
    tocPieces (optArg q c!"\\p" o ++ rest) (.mk x0 x1 x2 x3 x4 none x6 x7 x8 x9 x10 x11 x12 x13 x14 x15) = tocPieces rest (.mk x0 x1 x2 x3 x4 o x6 x7 x8 x9 x10 x11 x12 x13 x14 x15) := by
  rw [tocPieces_arg _ _ _ _ _ (by decide)]
  congr 1
  cases o with
  | none => rfl
  | some s =>
    have hs := h s rfl
    simp only
    rw [tocArgument, if_neg (by decide), if_neg (by decide), if_neg (by decide), if_neg (by decide), if_neg (by decide), if_neg (by decide), if_neg (by decide), if_pos rfl, unquote_quoted hq s hs.2.2 hs.2.1]

theorem toc_s {q : Str} (hq : IsQuote q) (o : Option Str) (h : ∀ s, o = some s → PlainArg s) (rest : List Str)
    {x0 x1 x2 x3 x4 x5 x6 x7 x8 x10 x11 x12 x13 x14 x15} :
    tocPieces (optArg q c!"\\s" o ++ rest) (.mk x0 x1 x2 x3 x4 x5 x6 x7 x8 none x10 x11 x12 x13 x14 x15) = tocPieces rest (.mk x0 x1 x2 x3 x4 x5 x6 x7 x8 o x10 x11 x12 x13 x14 x15) := by
  rw [tocPieces_arg _ _ _ _ _ (by decide)]
  congr 1
  cases o with
  | none => rfl
  | some s =>
    have hs := h s rfl
    simp only
    rw [tocArgument, if_neg (by decide), if_neg (by decide), if_neg (by decide), if_neg (by decide), if_neg (by decide), if_neg (by decide), if_neg (by decide), if_neg (by decide), if_pos rfl, unquote_quoted hq s hs.2.2 hs.2.1]

theorem toc_l {q : Str} (hq : IsQuote q) (o : Option (Nat × Nat))
    (h : ∀ r, o = some r → r.1 < 2 ^ 64 ∧ r.2 < 2 ^ 64) (rest : List Str)
    {x0 x2 x3 x4 x5 x6 x7 x8 x9 x10 x11 x12 x13 x14 x15} :
    tocPieces (optArg q c!"\\l" (o.map rangeText) ++ rest) (.mk x0 none x2 x3 x4 x5 x6 x7 x8 x9 x10 x11 x12 x13 x14 x15) = tocPieces rest (.mk x0 o x2 x3 x4 x5 x6 x7 x8 x9 x10 x11 x12 x13 x14 x15) := by
  rw [tocPieces_arg _ _ _ _ _ (by decide)]
  congr 1
  cases o with
  | none => rfl
  | some r =>
    have hs := h r rfl
    simp only [Option.map_some]
    rw [tocArgument, if_neg (by decide), if_neg (by decide), if_neg (by decide), if_neg (by decide), if_pos rfl, parseLevelRange_quoted hq r hs.1 hs.2]
    rfl

theorem toc_n {q : Str} (hq : IsQuote q) (o : Option (Nat × Nat))
    (h : ∀ r, o = some r → r.1 < 2 ^ 64 ∧ r.2 < 2 ^ 64) (rest : List Str)
    {x0 x1 x3 x4 x5 x6 x7 x8 x9 x10 x11 x12 x13 x14 x15} :
    tocPieces (optArg q c!"\\n" (o.map rangeText) ++ rest) (.mk x0 x1 none x3 x4 x5 x6 x7 x8 x9 x10 x11 x12 x13 x14 x15) = tocPieces rest (.mk x0 x1 o x3 x4 x5 x6 x7 x8 x9 x10 x11 x12 x13 x14 x15) := by
  rw [tocPieces_arg _ _ _ _ _ (by decide)]
  congr 1
  cases o with
  | none => rfl
  | some r =>
    have hs := h r rfl
    simp only [Option.map_some]
    rw [tocArgument, if_neg (by decide), if_neg (by decide), if_neg (by decide), if_neg (by decide), if_neg (by decide), if_pos rfl, parseLevelRange_quoted hq r hs.1 hs.2]
    rfl

theorem toc_o {q : Str} (hq : IsQuote q) (o : Option (Nat × Nat))
    (h : ∀ r, o = some r → r.1 < 2 ^ 64 ∧ r.2 < 2 ^ 64) (rest : List Str)
    {x1 x2 x3 x4 x5 x6 x7 x8 x9 x10 x11 x12 x13 x14 x15} :
    tocPieces (optArg q c!"\\o" (o.map rangeText) ++ rest) (.mk none x1 x2 x3 x4 x5 x6 x7 x8 x9 x10 x11 x12 x13 x14 x15) = tocPieces rest (.mk o x1 x2 x3 x4 x5 x6 x7 x8 x9 x10 x11 x12 x13 x14 x15) := by
  rw [tocPieces_arg _ _ _ _ _ (by decide)]
  congr 1
  cases o with
  | none => rfl
  | some r =>
    have hs := h r rfl
    simp only [Option.map_some]
    rw [tocArgument, if_neg (by decide), if_neg (by decide), if_neg (by decide), if_neg (by decide), if_neg (by decide), if_neg (by decide), if_pos rfl, parseLevelRange_quoted hq r hs.1 hs.2]
    rfl

theorem toc_t {q : Str} (hq : IsQuote q) (l : List (Str × Nat))
    (h : ∀ s ∈ l, PlainArg s.1 ∧ ',' ∉ s.1 ∧ s.2 < 2 ^ 64) (rest : List Str)
    {x0 x1 x2 x3 x5 x6 x7 x8 x9 x10 x11 x12 x13 x14 x15} :
    tocPieces (optArg q c!"\\t" (if l ≠ [] then
      some (joinComma (l.map fun s => s.1 ++ c!"," ++ dec s.2)) else none) ++ rest) (.mk x0 x1 x2 x3 [] x5 x6 x7 x8 x9 x10 x11 x12 x13 x14 x15) =
      tocPieces rest (.mk x0 x1 x2 x3 l x5 x6 x7 x8 x9 x10 x11 x12 x13 x14 x15) := by
  rw [tocPieces_arg _ _ _ _ _ (by decide)]
  congr 1
  by_cases hl : l ≠ []
  · simp only [if_pos hl]
    rw [tocArgument, if_neg (by decide), if_neg (by decide), if_neg (by decide), if_neg (by decide), if_neg (by decide), if_neg (by decide), if_neg (by decide), if_neg (by decide), if_neg (by decide), if_pos rfl, unquote_quoted hq _
      (styles_notMem _ _ (by decide) (by decide) fun s hs => (h s hs).1.2.2)
      (styles_notMem _ _ (by decide) (by decide) fun s hs => (h s hs).1.2.1), List.nil_append, joinComma_flat,
      splitOn_joinComma, stylePairs_join _ fun s hs => (h s hs).2.2]
    · cases l with
      | nil => exact absurd rfl hl
      | cons a l => simp
    · intro s hs
      simp only [List.mem_flatMap, List.mem_cons, List.not_mem_nil, or_false] at hs
      obtain ⟨x, hx, rfl | rfl⟩ := hs
      · exact (h x hx).2.1
      · exact mem_dec _ _ (by decide)
  · have : l = [] := by simpa using hl
    subst this
    rfl

theorem toc_h (b : Bool) (rest : List Str) {x0 x1 x2 x3 x4 x5 x6 x7 x8 x9 x10 x12 x13 x14 x15} :
    tocPieces (optFlag c!"\\h" b ++ rest) (.mk x0 x1 x2 x3 x4 x5 x6 x7 x8 x9 x10 false x12 x13 x14 x15) = tocPieces rest (.mk x0 x1 x2 x3 x4 x5 x6 x7 x8 x9 x10 b x12 x13 x14 x15) := by
  rw [tocPieces_flag _ _ _ _ (by decide) (by decide)]
  congr 1
  cases b with
  | false => rfl
  | true => simp only [if_true]; rw [tocFlag, if_pos rfl]

theorem toc_u (b : Bool) (rest : List Str) {x0 x1 x2 x3 x4 x5 x6 x7 x8 x9 x10 x11 x12 x13 x15} :
    tocPieces (optFlag c!"\\u" b ++ rest) (.mk x0 x1 x2 x3 x4 x5 x6 x7 x8 x9 x10 x11 x12 x13 false x15) = tocPieces rest (.mk x0 x1 x2 x3 x4 x5 x6 x7 x8 x9 x10 x11 x12 x13 b x15) := by
  rw [tocPieces_flag _ _ _ _ (by decide) (by decide)]
  congr 1
  cases b with
  | false => rfl
  | true => simp only [if_true]; rw [tocFlag, if_neg (by decide), if_pos rfl]

theorem toc_w (b : Bool) (rest : List Str) {x0 x1 x2 x3 x4 x5 x6 x7 x8 x9 x10 x11 x13 x14 x15} :
    tocPieces (optFlag c!"\\w" b ++ rest) (.mk x0 x1 x2 x3 x4 x5 x6 x7 x8 x9 x10 x11 false x13 x14 x15) = tocPieces rest (.mk x0 x1 x2 x3 x4 x5 x6 x7 x8 x9 x10 x11 b x13 x14 x15) := by
  rw [tocPieces_flag _ _ _ _ (by decide) (by decide)]
  congr 1
  cases b with
  | false => rfl
  | true => simp only [if_true]; rw [tocFlag, if_neg (by decide), if_neg (by decide), if_pos rfl]

theorem toc_x (b : Bool) (rest : List Str) {x0 x1 x2 x3 x4 x5 x6 x7 x8 x9 x10 x11 x12 x14 x15} :
    tocPieces (optFlag c!"\\x" b ++ rest) (.mk x0 x1 x2 x3 x4 x5 x6 x7 x8 x9 x10 x11 x12 false x14 x15) = tocPieces rest (.mk x0 x1 x2 x3 x4 x5 x6 x7 x8 x9 x10 x11 x12 b x14 x15) := by
  rw [tocPieces_flag _ _ _ _ (by decide) (by decide)]
  congr 1
  cases b with
  | false => rfl
  | true => simp only [if_true]; rw [tocFlag, if_neg (by decide), if_neg (by decide), if_neg (by decide), if_pos rfl]

theorem toc_z (b : Bool) (rest : List Str) {x0 x1 x2 x3 x4 x5 x6 x7 x8 x9 x10 x11 x12 x13 x14} :
    tocPieces (optFlag c!"\\z" b ++ rest) (.mk x0 x1 x2 x3 x4 x5 x6 x7 x8 x9 x10 x11 x12 x13 x14 false) = tocPieces rest (.mk x0 x1 x2 x3 x4 x5 x6 x7 x8 x9 x10 x11 x12 x13 x14 b) := by
  rw [tocPieces_flag _ _ _ _ (by decide) (by decide)]
  congr 1
  cases b with
  | false => rfl
  | true => simp only [if_true]; rw [tocFlag, if_neg (by decide), if_neg (by decide), if_neg (by decide), if_neg (by decide), if_pos rfl]

theorem toc_reads {q : Str} (hq : IsQuote q) (i : InstrToC) (h : TocReadable i) :
    InstrToC.fromStr (c!"TOC" ++ spaced (tocHead q i ++ (tocF q i ++ tocTail q i))) =
      { i with tcFieldIdentifier := readF i } := by
  rw [InstrToC.fromStr, splitOn_spaced _ _ (by decide) (toc_space hq i h), tocPieces_skip]
  rw [tocHead]
  simp only [List.append_assoc]
  rw [toc_a hq _ h.captionLabel _, toc_b hq _ h.entryBookmarkName _,
    toc_c hq _ h.captionLabelIncludingNumbers _, toc_d hq _ h.sequenceAndPageNumbersSeparator _,
    tocPieces_f hq i h, tocTail,
    toc_l hq _ h.tcFieldLevelRange _, toc_n hq _ h.omitPageNumbersLevelRange _,
    toc_o hq _ h.headingStylesRange _, toc_p hq _ h.entryAndPageNumberSeparator _,
    toc_s hq _ h.seqFieldIdentifierForPrefix _, toc_t hq _ h.stylesWithLevels _,
    toc_h _ _, toc_u _ _, toc_w _ _, toc_x _ _]
  rw [← List.append_nil (optFlag c!"\\z" _), toc_z _ _]
  rfl

end Docx

namespace Docx

open Docx.Spec

/-- `a` is read as `b`. -/
def Dec (a b : Str) : Prop := decodeText a = some b

theorem Dec.append {a b a' b' : Str} (h : Dec a b) (h' : Dec a' b') : Dec (a ++ a') (b ++ b') := by
  unfold Dec decodeText at *
  rw [decodeFrom_append _ _ _ _ h, h']; rfl

theorem Dec.plain {a : Str} (h1 : '&' ∉ a) (h2 : '<' ∉ a) : Dec a a := decodeFrom_plainString a h1 h2

theorem Dec.quot : Dec c!"&quot;" ['"'] := by unfold Dec; decide

theorem Dec.nil : Dec [] [] := rfl

theorem Dec.spaced_arg (sw : Str) (o : Option Str) (hs : '&' ∉ sw ∧ '<' ∉ sw)
    (h : ∀ s, o = some s → '&' ∉ s ∧ '<' ∉ s) :
    Dec (spaced (optArg c!"&quot;" sw o)) (spaced (optArg ['"'] sw o)) := by
  rw [spaced_optArg, spaced_optArg]
  cases o with
  | none => exact .nil
  | some s =>
    have hs' := h s rfl
    have h1 : Dec (' ' :: sw) (' ' :: sw) := .plain (by simp [hs.1]) (by simp [hs.2])
    have h2 : Dec (' ' :: c!"&quot;") (' ' :: ['"']) := by unfold Dec; decide
    exact ((h1.append h2).append (.plain hs'.1 hs'.2)).append .quot

theorem Dec.spaced_flag (sw : Str) (b : Bool) (hs : '&' ∉ sw ∧ '<' ∉ sw) :
    Dec (spaced (optFlag sw b)) (spaced (optFlag sw b)) := by
  rw [spaced_optFlag]
  cases b with
  | false => exact .nil
  | true => exact .plain (by simp [hs.1]) (by simp [hs.2])

theorem toc_decodes (i : InstrToC) (h : TocReadable i) (hl : NoLess i) :
    Dec i.text (c!"TOC" ++ spaced (tocHead ['"'] i ++ (tocF ['"'] i ++ tocTail ['"'] i))) := by
  rw [toc_text]
  simp only [spaced_append, tocHead, tocTail]
  have hr : ∀ (o : Option (Nat × Nat)) s, o.map rangeText = some s → '&' ∉ s ∧ '<' ∉ s := by
    intro o s e
    cases o with
    | none => cases e
    | some r => cases e; exact ⟨(rangeText_plain r).2.2, rangeText_notMem r _ (by decide) (by decide)⟩
  refine Dec.append (.plain (by decide) (by decide)) (Dec.append ?_ (Dec.append ?_ ?_))
  · exact (Dec.spaced_arg _ _ (by decide) fun s e => ⟨(h.captionLabel s e).2.2, hl.captionLabel s e⟩).append
      ((Dec.spaced_arg _ _ (by decide) fun s e => ⟨(h.entryBookmarkName s e).2.2, hl.entryBookmarkName s e⟩).append
      ((Dec.spaced_arg _ _ (by decide) fun s e =>
        ⟨(h.captionLabelIncludingNumbers s e).2.2, hl.captionLabelIncludingNumbers s e⟩).append
      (Dec.spaced_arg _ _ (by decide) fun s e =>
        ⟨(h.sequenceAndPageNumbersSeparator s e).2.2, hl.sequenceAndPageNumbersSeparator s e⟩)))
  · have h1 := h.tcFieldIdentifier
    have h2 := hl.tcFieldIdentifier
    unfold tocF
    rcases e : i.tcFieldIdentifier with _ | _ | s
    · exact .nil
    · exact .plain (by decide) (by decide)
    · exact Dec.spaced_arg c!"\\f" (some s) (by decide) fun s' e' => by cases e'; exact ⟨(h1 s e).2.2, h2 s e⟩
  · refine (Dec.spaced_arg _ _ (by decide) (hr _)).append ((Dec.spaced_arg _ _ (by decide) (hr _)).append
      ((Dec.spaced_arg _ _ (by decide) (hr _)).append
      ((Dec.spaced_arg _ _ (by decide) fun s e =>
        ⟨(h.entryAndPageNumberSeparator s e).2.2, hl.entryAndPageNumberSeparator s e⟩).append
      ((Dec.spaced_arg _ _ (by decide) fun s e =>
        ⟨(h.seqFieldIdentifierForPrefix s e).2.2, hl.seqFieldIdentifierForPrefix s e⟩).append
      ((Dec.spaced_arg _ _ (by decide) fun s e => ?_).append
      ((Dec.spaced_flag _ _ (by decide)).append ((Dec.spaced_flag _ _ (by decide)).append
      ((Dec.spaced_flag _ _ (by decide)).append ((Dec.spaced_flag _ _ (by decide)).append
      (Dec.spaced_flag _ _ (by decide)))))))))))
    obtain ⟨_, rfl⟩ := stylesArg _ _ e
    exact ⟨styles_notMem _ _ (by decide) (by decide) fun s hs => (h.stylesWithLevels s hs).1.2.2,
      styles_notMem _ _ (by decide) (by decide) fun s hs => hl.stylesWithLevels s hs⟩

theorem tocTail_lone (i : InstrToC) (h : i.tcFieldIdentifier = some none) : tocTail [] i = [] ↔ LoneF i := by
  have h1 : ∀ sw o, optArg [] sw o = [] ↔ o = none := by intro sw o; cases o <;> simp [optArg]
  have h2 : ∀ sw b, optFlag sw b = [] ↔ b = false := by intro sw b; cases b <;> simp [optFlag]
  have h3 : (if i.stylesWithLevels ≠ [] then
      some (joinComma (i.stylesWithLevels.map fun s => s.1 ++ c!"," ++ dec s.2)) else none) = none ↔
      i.stylesWithLevels = [] := by
    by_cases hl : i.stylesWithLevels = [] <;> simp [hl]
  simp only [tocTail, List.append_eq_nil_iff, h1, h2, h3, Option.map_eq_none_iff, LoneF, h, true_and]

theorem readF_eq (i : InstrToC) : readF i =
    if LoneF i then none else if i.tcFieldIdentifier = some (some []) then some none else i.tcFieldIdentifier := by
  unfold readF
  rcases e : i.tcFieldIdentifier with _ | _ | _ | ⟨c, s⟩
  · simp [LoneF, e]
  · simp only
    by_cases h : LoneF i
    · rw [if_pos h, if_pos ((tocTail_lone i e).2 h)]
    · rw [if_neg h, if_neg (mt (tocTail_lone i e).1 h)]; simp
  · simp [LoneF, e]
  · simp [LoneF, e]

end Docx
