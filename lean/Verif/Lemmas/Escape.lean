import Verif.Model.Escape
import Verif.Spec.XmlText

namespace Docx

open Spec

theorem foldl_append_flatMap {α β} (f : α → List β) (s : List α) (acc : List β) :
    s.foldl (fun e c => e ++ f c) acc = acc ++ s.flatMap f := by
  induction s generalizing acc with
  | nil => simp
  | cons a s ih => simp [ih, List.append_assoc]

theorem escape_eq (s : Str) : escape s = s.flatMap escapeChar := by
  unfold escape; rw [foldl_append_flatMap]; rfl

@[simp] theorem escape_nil : escape [] = [] := rfl

theorem escape_cons (c : Char) (s : Str) : escape (c :: s) = escapeChar c ++ escape s := by
  simp [escape_eq]

theorem escape_append (s t : Str) : escape (s ++ t) = escape s ++ escape t := by
  simp [escape_eq]

theorem decodeFrom_plain {c : Char} (r : Str) (h1 : c ≠ '&') (h2 : c ≠ '<') :
    decodeFrom none (c :: r) = (decodeFrom none r).map (c :: ·) := by
  simp [decodeFrom, h1, h2]

theorem decodeFrom_ref (r : Str) (ch : Char) (name : Str)
    (hn : ∀ c ∈ name, c ≠ ';' ∧ c ≠ '&' ∧ c ≠ '<') (h : resolveRef name = some ch) :
    decodeFrom none ('&' :: (name ++ ';' :: r)) = (decodeFrom none r).map (ch :: ·) := by
  have key : ∀ acc : Str, ∀ n : Str, (∀ c ∈ n, c ≠ ';' ∧ c ≠ '&' ∧ c ≠ '<') → acc ++ n = name →
      decodeFrom (some acc) (n ++ ';' :: r) = (decodeFrom none r).map (ch :: ·) := by
    intro acc n
    induction n generalizing acc with
    | nil =>
      intro _ he
      simp only [List.append_nil] at he
      subst he
      simp [decodeFrom, h]
    | cons c n ih =>
      intro hs he
      have hc := hs c (by simp)
      have := ih (acc ++ [c]) (fun c' e => hs c' (by simp [e])) (by simpa using he)
      simpa [decodeFrom, hc] using this
  have := key [] name hn (by simp)
  simpa [decodeFrom] using this

/-- Decoding the escaped form of one character followed by anything. -/
theorem decode_escapeChar (c : Char) (r : Str) :
    decodeFrom none (escapeChar c ++ r) =
      if c = '\r' then decodeFrom none r else (decodeFrom none r).map (c :: ·) := by
  unfold escapeChar
  split
  · subst_vars; exact decodeFrom_ref r '&' c!"amp" (by decide) (by decide)
  split
  · subst_vars; exact decodeFrom_ref r '<' c!"lt" (by decide) (by decide)
  split
  · subst_vars; exact decodeFrom_ref r '>' c!"gt" (by decide) (by decide)
  split
  · subst_vars; exact decodeFrom_ref r '"' c!"quot" (by decide) (by decide)
  split
  · subst_vars; exact decodeFrom_ref r '\'' c!"apos" (by decide) (by decide)
  split
  · subst_vars; exact decodeFrom_ref r '\n' c!"#xA" (by decide) (by decide)
  split
  · subst_vars; simp
  · rename_i h1 h2 _ _ _ _ h3
    simp [decodeFrom_plain, h1, h2]

theorem decode_escape_append (s r : Str) :
    decodeFrom none (escape s ++ r) =
      (decodeFrom none r).map (s.filter (· ≠ '\r') ++ ·) := by
  induction s with
  | nil => cases h : decodeFrom none r <;> simp [h]
  | cons c s ih =>
    rw [escape_cons, List.append_assoc, decode_escapeChar, ih]
    by_cases h : c = '\r'
    · simp [h]
    · simp only [h, if_false, Option.map_map]
      simp [h]
      rfl

theorem escape_id_of_plain (s : Str) (h : s.any needsEscape = false) : escape s = s := by
  induction s with
  | nil => rfl
  | cons c s ih =>
    simp only [List.any_cons, Bool.or_eq_false_iff] at h
    rw [escape_cons, ih h.2]
    have hc := h.1
    simp [needsEscape] at hc
    simp [escapeChar, hc]

theorem escapeChar_no_delim (c : Char) :
    ∀ d ∈ escapeChar c, d ≠ '<' ∧ d ≠ '>' ∧ d ≠ '"' ∧ d ≠ '\'' ∧ d ≠ '\n' ∧ d ≠ '\r' := by
  intro d hd
  unfold escapeChar at hd
  repeat' split at hd
  all_goals first
    | (revert d; decide)
    | (simp at hd; subst hd; simp_all)

theorem escape_no_delim (s : Str) :
    ∀ d ∈ escape s, d ≠ '<' ∧ d ≠ '>' ∧ d ≠ '"' ∧ d ≠ '\'' ∧ d ≠ '\n' ∧ d ≠ '\r' := by
  intro d hd
  rw [escape_eq, List.mem_flatMap] at hd
  obtain ⟨c, _, hc⟩ := hd
  exact escapeChar_no_delim c d hc

theorem cons_eq_append_amp {c : Char} {s a b : Str} (h : c :: s = a ++ '&' :: b) :
    (c = '&' ∧ a = [] ∧ s = b) ∨ ∃ a', a = c :: a' ∧ s = a' ++ '&' :: b := by
  cases a with
  | nil => left; simp_all
  | cons d a => right; simp_all

/-- An escaped character is either nothing, one ordinary character, or `&` followed by a listed
reference with no further `&`. -/
theorem escapeChar_cases (c : Char) :
    escapeChar c = [] ∨ (escapeChar c = [c] ∧ c ≠ '&') ∨
      ∃ r ∈ references, escapeChar c = '&' :: r ∧ '&' ∉ r := by
  unfold escapeChar
  split
  · exact .inr (.inr ⟨c!"amp;", by decide, by decide, by decide⟩)
  split
  · exact .inr (.inr ⟨c!"lt;", by decide, by decide, by decide⟩)
  split
  · exact .inr (.inr ⟨c!"gt;", by decide, by decide, by decide⟩)
  split
  · exact .inr (.inr ⟨c!"quot;", by decide, by decide, by decide⟩)
  split
  · exact .inr (.inr ⟨c!"apos;", by decide, by decide, by decide⟩)
  split
  · exact .inr (.inr ⟨c!"#xA;", by decide, by decide, by decide⟩)
  split
  · exact .inl rfl
  · exact .inr (.inl ⟨rfl, by assumption⟩)

theorem amp_in_noamp_append {p s a b : Str} (hp : '&' ∉ p) (h : p ++ s = a ++ '&' :: b) :
    ∃ a', a = p ++ a' ∧ s = a' ++ '&' :: b := by
  induction p generalizing a with
  | nil => exact ⟨a, rfl, by simpa using h⟩
  | cons d p ih =>
    have hd : d ≠ '&' := fun e => hp (by simp [e])
    rcases cons_eq_append_amp (by simpa using h) with ⟨e, _⟩ | ⟨a', ha, hs⟩
    · exact absurd e hd
    · obtain ⟨a'', h1, h2⟩ := ih (fun e => hp (by simp [e])) hs
      exact ⟨a'', by simp [ha, h1], h2⟩

theorem escape_amp (s a b : Str) (h : escape s = a ++ '&' :: b) :
    ∃ r ∈ references, r <+: b := by
  induction s generalizing a with
  | nil => simp at h
  | cons c s ih =>
    rw [escape_cons] at h
    rcases escapeChar_cases c with e | ⟨e, hc⟩ | ⟨r, hr, e, hn⟩
    · rw [e] at h; exact ih a (by simpa using h)
    · rw [e] at h
      obtain ⟨a', _, hs⟩ := amp_in_noamp_append (p := [c]) (by simpa using fun e => hc e.symm) h
      exact ih a' hs
    · rw [e, List.cons_append] at h
      rcases cons_eq_append_amp h with ⟨_, _, hs⟩ | ⟨a', _, hs⟩
      · exact ⟨r, hr, ⟨escape s, hs⟩⟩
      · obtain ⟨a'', _, h2⟩ := amp_in_noamp_append hn hs
        exact ih a'' h2

/-! ### `replace_escaped` -/

theorem takeWhile_dropWhile_amp (s : Str) :
    s.takeWhile (fun c => decide (c ≠ '&')) ++ s.dropWhile (fun c => decide (c ≠ '&')) = s :=
  List.takeWhile_append_dropWhile

theorem entityAt_pos (s : Str) : 0 < (entityAt s).2 := by
  unfold entityAt; repeat' split
  all_goals simp

theorem replaceLoop_acc (n : Nat) (acc s : Str) :
    replaceLoop n acc s = acc ++ replaceLoop n [] s := by
  induction n generalizing acc s with
  | zero => simp [replaceLoop]
  | succ n ih =>
    unfold replaceLoop
    split
    · simp only
      rw [ih, ih (_ ++ _ ++ _) (List.drop _ _)]
      simp [List.append_assoc]
    · simp

theorem dropWhile_length (s : Str) :
    (s.dropWhile (fun c => decide (c ≠ '&'))).length ≤ s.length :=
  (List.dropWhile_suffix _).length_le

theorem dropWhile_amp_ne_nil {s : Str} (h : '&' ∈ s) :
    0 < (s.dropWhile (fun c => decide (c ≠ '&'))).length := by
  induction s with
  | nil => simp at h
  | cons c s ih =>
    by_cases hc : c = '&'
    · simp [List.dropWhile, hc]
    · have : '&' ∈ s := by
        rcases List.mem_cons.1 h with e | e
        · exact absurd e.symm hc
        · exact e
      simpa [List.dropWhile, hc] using ih this

/-- The fuel `text.length` is enough: more fuel changes nothing. -/
theorem replaceLoop_fuel (n m : Nat) (s : Str) (hn : s.length ≤ n) (hm : s.length ≤ m) :
    replaceLoop n [] s = replaceLoop m [] s := by
  induction n generalizing m s with
  | zero =>
    have : s = [] := List.length_eq_zero_iff.1 (by omega)
    subst this
    cases m <;> simp [replaceLoop]
  | succ n ih =>
    cases m with
    | zero =>
      have : s = [] := List.length_eq_zero_iff.1 (by omega)
      subst this
      simp [replaceLoop]
    | succ m =>
      unfold replaceLoop
      split
      · rename_i h
        simp only
        rw [replaceLoop_acc n, replaceLoop_acc m]
        congr 1
        have h1 := entityAt_pos (s.dropWhile (fun c => decide (c ≠ '&')))
        have h2 := dropWhile_length s
        have h3 := dropWhile_amp_ne_nil h
        apply ih <;> (rw [List.length_drop]; omega)
      · rfl

theorem replaceEscaped_no_amp (s : Str) (h : '&' ∉ s) : replaceEscaped s = s := by
  unfold replaceEscaped
  cases s with
  | nil => rfl
  | cons c s => simp [replaceLoop, h]

theorem takeWhile_noamp {p t : Str} (hp : '&' ∉ p) :
    (p ++ '&' :: t).takeWhile (fun c => decide (c ≠ '&')) = p ∧
    (p ++ '&' :: t).dropWhile (fun c => decide (c ≠ '&')) = '&' :: t := by
  induction p with
  | nil => simp
  | cons d p ih =>
    have hd : d ≠ '&' := fun e => hp (by simp [e])
    have := ih (fun e => hp (by simp [e]))
    simp only [List.cons_append, List.takeWhile, List.dropWhile, hd, ne_eq, not_false_eq_true,
      decide_true]
    exact ⟨by rw [this.1], this.2⟩

theorem noamp_split (s : Str) : '&' ∉ s ∨ ∃ p t, '&' ∉ p ∧ s = p ++ '&' :: t := by
  by_cases h : '&' ∈ s
  · right
    induction s with
    | nil => simp at h
    | cons c s ih =>
      by_cases hc : c = '&'
      · exact ⟨[], s, by simp, by simp [hc]⟩
      · have : '&' ∈ s := by
          rcases List.mem_cons.1 h with e | e
          · exact absurd e.symm hc
          · exact e
        obtain ⟨p, t, hp, hs⟩ := ih this
        refine ⟨c :: p, t, ?_, by simp [hs]⟩
        simp [hp]
        exact fun e => hc e.symm
  · exact .inl h

/-- One step of the loop: up to and including the first `&`. -/
theorem replaceEscaped_step (p t : Str) (hp : '&' ∉ p) :
    replaceEscaped (p ++ '&' :: t) =
      p ++ (entityAt ('&' :: t)).1.getD c!"&" ++
        replaceEscaped (('&' :: t).drop (entityAt ('&' :: t)).2) := by
  have hpos := entityAt_pos ('&' :: t)
  obtain ⟨h1, h2⟩ := takeWhile_noamp (t := t) hp
  unfold replaceEscaped
  have hlen : (p ++ '&' :: t).length = (p.length + t.length) + 1 := by simp; omega
  rw [hlen]
  rw [replaceLoop]
  rw [if_pos (by simp)]
  simp only [h1, h2]
  rw [replaceLoop_acc]
  congr 1
  apply replaceLoop_fuel <;> simp [List.length_drop] <;> omega

theorem replaceEscaped_prefix (p s : Str) (hp : '&' ∉ p) :
    replaceEscaped (p ++ s) = p ++ replaceEscaped s := by
  rcases noamp_split s with h | ⟨q, t, hq, rfl⟩
  · rw [replaceEscaped_no_amp s h, replaceEscaped_no_amp]
    simp [hp, h]
  · rw [← List.append_assoc, replaceEscaped_step _ _ (by simp [hp, hq]), replaceEscaped_step _ _ hq]
    simp [List.append_assoc]

theorem entityAt_of_prefix (e t : Str) (r : Option Str × Nat)
    (h : ∀ t, entityAt (e ++ t) = r) : entityAt (e ++ t) = r := h t

theorem replaceEscaped_entity (t : Str) :
    replaceEscaped (c!"&lt;" ++ t) = '<' :: replaceEscaped t ∧
    replaceEscaped (c!"&gt;" ++ t) = '>' :: replaceEscaped t ∧
    replaceEscaped (c!"&amp;" ++ t) = '&' :: replaceEscaped t ∧
    replaceEscaped (c!"&quot;" ++ t) = '"' :: replaceEscaped t ∧
    replaceEscaped (c!"&#39;" ++ t) = '\'' :: replaceEscaped t ∧
    replaceEscaped (c!"&apos;" ++ t) = '\'' :: replaceEscaped t ∧
    replaceEscaped (c!"&nbsp;" ++ t) = ' ' :: replaceEscaped t := by
  refine ⟨?_, ?_, ?_, ?_, ?_, ?_, ?_⟩
  all_goals
    simp only [String.reduceToList, List.cons_append, List.nil_append]
    have h := fun t => replaceEscaped_step [] t (by simp)
    simp only [List.nil_append] at h
    rw [h]
    simp [entityAt, List.isPrefixOf]

theorem replaceEscaped_other (t : Str) (h : (entityAt ('&' :: t)).1 = none) :
    replaceEscaped ('&' :: t) = '&' :: replaceEscaped t := by
  have hs := replaceEscaped_step [] t (by simp)
  simp only [List.nil_append] at hs
  rw [hs, h]
  have : (entityAt ('&' :: t)).2 = 1 := by
    revert h; unfold entityAt; repeat' split
    all_goals simp
  rw [this]; rfl

theorem replaceEscaped_length_aux (n : Nat) : ∀ s : Str, s.length ≤ n →
    (replaceEscaped s).length ≤ s.length := by
  induction n with
  | zero =>
    intro s h
    have : s = [] := List.length_eq_zero_iff.1 (by omega)
    subst this; decide
  | succ n ih =>
    intro s h
    rcases noamp_split s with hs | ⟨p, t, hp, rfl⟩
    · rw [replaceEscaped_no_amp s hs]
      exact Nat.le_refl _
    · rw [replaceEscaped_step p t hp]
      have hpos := entityAt_pos ('&' :: t)
      have hrec := ih (('&' :: t).drop (entityAt ('&' :: t)).2) (by
        simp [List.length_drop] at h ⊢; omega)
      have hr : ((entityAt ('&' :: t)).1.getD c!"&").length ≤ 1 := by
        unfold entityAt; repeat' split
        all_goals decide
      have hle : (entityAt ('&' :: t)).2 ≤ ('&' :: t).length := by
        unfold entityAt
        repeat' split
        all_goals first
          | (rename_i hh; exact (List.isPrefixOf_iff_prefix.1 hh).length_le)
          | simp
      simp only [List.length_append, List.length_drop, List.length_cons] at *
      omega

/-- What `replace_escaped` makes of the escaped form of one character. -/
theorem replaceEscaped_escapeChar (c : Char) (r : Str) :
    replaceEscaped (escapeChar c ++ r) =
      (if c = '\r' then [] else if c = '\n' then c!"&#xA;" else [c]) ++ replaceEscaped r := by
  have E := replaceEscaped_entity r
  unfold escapeChar
  split
  · subst_vars; simpa using E.2.2.1
  split
  · subst_vars; simpa using E.1
  split
  · subst_vars; simpa using E.2.1
  split
  · subst_vars; simpa using E.2.2.2.1
  split
  · subst_vars; simpa using E.2.2.2.2.2.1
  split
  · subst_vars
    have := replaceEscaped_other (c!"#xA;" ++ r) (by simp [entityAt, List.isPrefixOf])
    have h2 := replaceEscaped_prefix c!"#xA;" r (by decide)
    simp only [String.reduceToList, List.cons_append, List.nil_append] at this h2 ⊢
    rw [this, h2]
    simp
  split
  · subst_vars; simp
  · rename_i h1 _ _ _ _ h5 h6
    try simp only [h5, h6, if_false]
    exact replaceEscaped_prefix [c] r (by simpa using fun e => h1 e.symm)

end Docx
