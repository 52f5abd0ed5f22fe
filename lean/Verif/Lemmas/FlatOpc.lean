import Verif.Model.FlatOpc
import Verif.Spec.FlatOpc
import Mathlib.Data.List.Infix

/-!
# Cutting a text at the occurrences of a pattern
-/

namespace Docx.FlatOpc

open Docx.Spec

theorem occurs_iff {s t : Str} : Occurs s t ↔ s <:+: t :=
  ⟨fun ⟨a, b, h⟩ => ⟨a, b, h.symm⟩, fun ⟨a, b, h⟩ => ⟨a, b, h.symm⟩⟩

theorem cut_none {pat : Str} (hp : pat ≠ []) : ∀ {s : Str}, ¬ pat <:+: s → cut pat s = none
  | [], _ => rfl
  | c :: s, h => by
    rw [List.infix_cons_iff] at h
    push Not at h
    have h1 : pat.isPrefixOf (c :: s) = false := by
      rw [← Bool.not_eq_true, List.isPrefixOf_iff_prefix]; exact h.1
    rw [cut, h1, cut_none hp h.2]; rfl

theorem cut_some {pat : Str} (hp : pat ≠ []) (b : Str) :
    ∀ {a : Str}, ¬ pat <:+: a ++ pat.dropLast → cut pat (a ++ (pat ++ b)) = some (a, b)
  | [], _ => by
    match pat, hp with
    | x :: p, _ =>
      have : (x :: p).isPrefixOf ((x :: p) ++ b) = true := List.isPrefixOf_iff_prefix.2 (List.prefix_append _ _)
      rw [List.nil_append, List.cons_append, cut]
      rw [List.cons_append] at this
      rw [this]
      simp
  | c :: a, h => by
    rw [List.cons_append, List.infix_cons_iff] at h
    push Not at h
    have h1 : pat.isPrefixOf (c :: (a ++ (pat ++ b))) = false := by
      rw [← Bool.not_eq_true, List.isPrefixOf_iff_prefix]
      intro hh
      refine h.1 (List.prefix_of_prefix_length_le hh ?_ ?_)
      · rw [List.cons_prefix_cons]
        refine ⟨rfl, List.prefix_append_right_inj _ |>.2 ?_⟩
        exact (List.dropLast_prefix pat).trans (List.prefix_append _ _)
      · have : 0 < pat.length := List.length_pos_iff.2 hp
        simp only [List.length_cons, List.length_append, List.length_dropLast]
        omega
    rw [List.cons_append, cut, h1, cut_some hp b h.2]; rfl

/-- An occurrence of a pattern whose first character does not come again in it does not go across a
place where that character is. -/
theorem infix_split {x : Char} {p : Str} (hx : x ∉ p) {b : Str} :
    ∀ {a : Str}, (x :: p) <:+: a ++ x :: b → (x :: p) <:+: a ∨ (x :: p) <:+: x :: b
  | [], h => .inr h
  | c :: a, h => by
    rw [List.cons_append, List.infix_cons_iff] at h
    rcases h with h | h
    · by_cases hl : (x :: p).length ≤ (c :: a).length
      · exact .inl (List.prefix_of_prefix_length_le h (List.prefix_append (c :: a) _) hl).isInfix
      · exfalso
        have h2 : c :: a ++ [x] <+: x :: p := by
          refine List.prefix_of_prefix_length_le (l₃ := c :: (a ++ x :: b)) ?_ h ?_
          · exact ⟨b, by simp⟩
          · simp only [List.length_append, List.length_cons, List.length_nil] at hl ⊢; omega
        rw [List.cons_append, List.cons_prefix_cons] at h2
        exact hx (h2.2.subset (by simp))
    · rcases infix_split hx h with h | h
      · exact .inl (h.trans (List.suffix_cons c a).isInfix)
      · exact .inr h

theorem cut_head {x : Char} {p : Str} (hx : x ∉ p) (b : Str) {a : Str} (h : ¬ (x :: p) <:+: a) :
    cut (x :: p) (a ++ (x :: p ++ b)) = some (a, b) := by
  refine cut_some (by simp) b fun hh => ?_
  cases p with
  | nil => rw [List.dropLast_singleton, List.append_nil] at hh; exact h hh
  | cons y p =>
    rw [List.dropLast_cons_cons] at hh
    rcases infix_split hx hh with h1 | h1
    · exact h h1
    · have := h1.length_le
      simp only [List.length_cons, List.length_dropLast] at this
      omega

/-- A character that is not in the pattern parts the occurrences. -/
theorem infix_sep {pat : Str} {x : Char} (hx : x ∉ pat) {b : Str} :
    ∀ {a : Str}, pat <:+: a ++ x :: b → pat <:+: a ∨ pat <:+: b
  | [], h => by
    rw [List.nil_append, List.infix_cons_iff] at h
    rcases h with h | h
    · cases pat with
      | nil => exact .inl (List.nil_infix)
      | cons y p => rw [List.cons_prefix_cons] at h; exact absurd (by simp [h.1]) hx
    · exact .inr h
  | c :: a, h => by
    rw [List.cons_append, List.infix_cons_iff] at h
    rcases h with h | h
    · by_cases hl : pat.length ≤ (c :: a).length
      · exact .inl (List.prefix_of_prefix_length_le h (List.prefix_append (c :: a) _) hl).isInfix
      · exfalso
        have h2 : c :: a ++ [x] <+: pat := by
          refine List.prefix_of_prefix_length_le (l₃ := c :: (a ++ x :: b)) ?_ h ?_
          · exact ⟨b, by simp⟩
          · simp only [List.length_append, List.length_cons, List.length_nil] at hl ⊢; omega
        exact hx (h2.subset (by simp))
    · rcases infix_sep hx h with h | h
      · exact .inl (h.trans (List.suffix_cons c a).isInfix)
      · exact .inr h

theorem not_infix_of_head {x : Char} {p a : Str} (h : x ∉ a) : ¬ (x :: p) <:+: a :=
  fun hh => h (hh.subset (by simp))

theorem not_infix_of_mem {x : Char} {p a : Str} (hx : x ∈ p) (h : x ∉ a) : ¬ p <:+: a :=
  fun hh => h (hh.subset hx)

theorem blank_not {s : Str} (h : Blank s) {c : Char} (hc : isUnicodeSpace c = false) : c ∉ s :=
  fun hm => by rw [h c hm] at hc; cases hc

theorem infix_skip {x : Char} {p b : Str} : ∀ {a : Str}, x ∉ a → (x :: p) <:+: a ++ b → (x :: p) <:+: b
  | [], _, h => h
  | c :: a, hx, h => by
    rw [List.cons_append, List.infix_cons_iff, List.cons_prefix_cons] at h
    simp only [List.mem_cons, not_or] at hx
    rcases h with h | h
    · exact absurd h.1 hx.1
    · exact infix_skip hx.2 h

/-- The text of the start tag up to its `>`. -/
def head (p : FlatPart) : Str :=
  c!"<pkg:part pkg:name=\"" ++ p.name ++ c!"\" pkg:contentType=\"" ++ p.contentType ++ c!"\"" ++ p.more

theorem head_def (p : FlatPart) : head p = c!"<pkg:part pkg:name=\"" ++ p.name ++ c!"\" pkg:contentType=\"" ++
    p.contentType ++ c!"\"" ++ p.more := rfl

theorem text_def (p : FlatPart) : p.text = c!"<pkg:part pkg:name=\"" ++ p.name ++ c!"\" pkg:contentType=\"" ++
    p.contentType ++ c!"\"" ++ p.more ++ c!">" ++ p.gap ++ p.content.text ++ p.gap' ++ c!"</pkg:part>" := rfl

theorem xml_def (d : Str) : (FlatContent.xml d).text = c!"<pkg:xmlData>" ++ d ++ c!"</pkg:xmlData>" := rfl

theorem binary_def (b d a : Str) : (FlatContent.binary b d a).text =
    c!"<pkg:binaryData>" ++ b ++ d ++ a ++ c!"</pkg:binaryData>" := rfl

/-- The text from the end of the start tag to the end tag. -/
def inside (p : FlatPart) : Str := p.gap ++ p.content.text ++ p.gap'

theorem text_eq (p : FlatPart) : p.text = (head p ++ '>' :: inside p) ++ c!"</pkg:part>" := by
  simp only [text_def, head_def, inside, List.append_assoc, List.cons_append, List.nil_append, String.reduceToList]

theorem head_tail (p : FlatPart) (h : p.Fine) : ∃ t, head p = c!"<pkg:part " ++ t ∧ '<' ∉ t := by
  refine ⟨c!"pkg:name=\"" ++ p.name ++ c!"\" pkg:contentType=\"" ++ p.contentType ++ c!"\"" ++ p.more, by simp only [head_def, List.append_assoc, List.cons_append, List.nil_append, String.reduceToList], ?_⟩
  have h1 := h.name.less
  have h2 := h.contentType.less
  have h3 := h.more.1
  simp [h1, h2, h3]

theorem head_noDouble (p : FlatPart) (h : p.Fine) : ¬ c!"\"\"" <:+: head p := by
  intro hh
  obtain ⟨n, name, hn⟩ := List.exists_cons_of_ne_nil h.name.some
  obtain ⟨t, type, ht⟩ := List.exists_cons_of_ne_nil h.contentType.some
  have qn := h.name.quote
  have qt := h.contentType.quote
  have e : head p = c!"<pkg:part pkg:name=" ++ ('"' :: (p.name ++ ('"' :: (c!" pkg:contentType=" ++
    ('"' :: (p.contentType ++ ('"' :: p.more))))))) := by simp only [head_def, List.append_assoc, List.cons_append, List.nil_append, String.reduceToList]
  rw [e] at hh
  have two : (c!"\"\"" : Str) = ['"', '"'] := rfl
  rw [two] at hh
  have step : ∀ {s : Str}, ['"', '"'] <:+: '"' :: s → s.head? = some '"' ∨ ['"', '"'] <:+: s := by
    intro s hs
    rw [List.infix_cons_iff, List.cons_prefix_cons] at hs
    rcases hs with ⟨_, hs⟩ | hs
    · left
      obtain ⟨r, rfl⟩ := hs
      rfl
    · exact .inr hs
  replace hh := step (infix_skip (by decide) hh)
  rcases hh with hh | hh
  · rw [hn] at hh qn; simp at hh; simp [hh] at qn
  replace hh := step (infix_skip qn hh)
  rcases hh with hh | hh
  · revert hh; simp
  replace hh := step (infix_skip (by decide) hh)
  rcases hh with hh | hh
  · rw [ht] at hh qt; simp at hh; simp [hh] at qt
  replace hh := step (infix_skip qt hh)
  rcases hh with hh | hh
  · exact h.more.2.2 hh
  · exact h.more.2.1 (occurs_iff.2 hh)

theorem content_noKey {k : Str} (hp : 'p' ∈ k) (hq : '"' ∈ k) (hl : '<' ∉ k) (hg : '>' ∉ k) (p : FlatPart) (h : p.Fine)
    (hd : ∀ d, p.content = .xml d → ¬ k <:+: d) : ¬ k <:+: inside p ++ c!"</pkg:part>" := by
  intro hh
  have no : ∀ {s : Str}, '"' ∉ s → ¬ k <:+: s := fun hs => not_infix_of_mem hq hs
  have gap := no (blank_not h.gap (c := '"') (by decide))
  have gap' := no (blank_not h.gap' (c := '"') (by decide))
  have hf := h.content
  unfold inside at hh
  cases hc : p.content with
  | xml d =>
    have hd := hd d hc
    rw [hc] at hh
    have e : p.gap ++ (FlatContent.xml d).text ++ p.gap' ++ c!"</pkg:part>" =
        p.gap ++ '<' :: (c!"pkg:xmlData" ++ '>' :: (d ++ '<' :: (c!"/pkg:xmlData" ++ '>' :: (p.gap' ++ '<' ::
          c!"/pkg:part>")))) := by simp only [xml_def, binary_def, List.append_assoc, List.cons_append, List.nil_append, String.reduceToList]
    rw [e] at hh
    rcases infix_sep hl hh with hh | hh
    · exact gap hh
    rcases infix_sep hg hh with hh | hh
    · exact no (by decide) hh
    rcases infix_sep hl hh with hh | hh
    · exact hd hh
    rcases infix_sep hg hh with hh | hh
    · exact no (by decide) hh
    rcases infix_sep hl hh with hh | hh
    · exact gap' hh
    · exact no (by decide) hh
  | binary b d a =>
    rw [hc] at hh hf
    refine no ?_ hh
    have h1 := blank_not h.gap (c := '"') (by decide)
    have h2 := blank_not h.gap' (c := '"') (by decide)
    have h3 := blank_not hf.1 (c := '"') (by decide)
    have h4 := blank_not hf.2.1 (c := '"') (by decide)
    have h5 := hf.2.2.2.1
    simp [binary_def, h1, h2, h3, h4, h5]

theorem noDoubled {k : Str} (h2 : c!"\"\"" <:+: k) (hp : 'p' ∈ k) (hl : '<' ∉ k) (hg : '>' ∉ k) (p : FlatPart)
    (h : p.Fine) (hd : ∀ d, p.content = .xml d → ¬ k <:+: d) : ¬ k <:+: p.text := by
  intro hh
  rw [text_eq, List.append_assoc, List.cons_append] at hh
  rcases infix_sep hg hh with hh | hh
  · exact head_noDouble p h (h2.trans hh)
  · exact content_noKey hp (h2.subset (by decide)) hl hg p h hd hh

theorem attribute_name (p : FlatPart) (h : p.Fine) : attributeOf c!"pkg:name" p.text = .value p.name := by
  have h1 : cut (c!"pkg:name" ++ c!"=\"\"") p.text = none := by
    refine cut_none (by decide) (noDoubled ⟨c!"pkg:name=", [], rfl⟩ (by decide) (by decide) (by decide) p h ?_)
    intro d hd
    have := h.content
    rw [hd] at this
    exact fun hh => this.2.2.1 (occurs_iff.2 hh)
  have e : p.text = c!"<pkg:part " ++ ((c!"pkg:name" ++ c!"=\"") ++ (p.name ++ (c!"\"" ++ (c!" pkg:contentType=\"" ++
      p.contentType ++ c!"\"" ++ p.more ++ c!">" ++ p.gap ++ p.content.text ++ p.gap' ++ c!"</pkg:part>")))) := by
    simp only [text_def, List.append_assoc, List.cons_append, List.nil_append, String.reduceToList]
  unfold attributeOf
  rw [h1]
  rw [e, cut_some (by decide) _ (by decide +kernel)]
  simp only []
  rw [show (c!"\"" : Str) = ['"'] from rfl, cut_head (by simp) _ (not_infix_of_head h.name.quote)]

theorem attribute_type (p : FlatPart) (h : p.Fine) :
    attributeOf c!"pkg:contentType" p.text = .value p.contentType := by
  have h1 : cut (c!"pkg:contentType" ++ c!"=\"\"") p.text = none := by
    refine cut_none (by decide) (noDoubled ⟨c!"pkg:contentType=", [], rfl⟩ (by decide) (by decide) (by decide) p h ?_)
    intro d hd
    have := h.content
    rw [hd] at this
    exact fun hh => this.2.2.2 (occurs_iff.2 hh)
  have e : p.text = (c!"<pkg:part pkg:name=\"" ++ p.name ++ c!"\" ") ++ ((c!"pkg:contentType" ++ c!"=\"") ++
      (p.contentType ++ (c!"\"" ++ (p.more ++ c!">" ++ p.gap ++ p.content.text ++ p.gap' ++ c!"</pkg:part>")))) := by
    simp only [text_def, List.append_assoc, List.cons_append, List.nil_append, String.reduceToList]
  unfold attributeOf
  rw [h1, e, cut_some (by decide) _ ?_]
  · simp only []
    rw [show (c!"\"" : Str) = ['"'] from rfl, cut_head (by simp) _ (not_infix_of_head h.contentType.quote)]
  · intro hh
    have e2 : c!"<pkg:part pkg:name=\"" ++ p.name ++ c!"\" " ++ (c!"pkg:contentType" ++ c!"=\"").dropLast =
        c!"<pkg:part pkg:na" ++ 'm' :: ('e' :: '=' :: ('"' :: p.name ++ ['"']) ++ ' ' :: c!"pkg:contentType=") := by
      simp
    rw [e2] at hh
    rcases infix_sep (by decide) hh with hh | hh
    · revert hh; decide +kernel
    rcases infix_sep (by decide) hh with hh | hh
    · have h3 : ['p', 'e', '=', '"'] <:+: 'e' :: '=' :: ('"' :: p.name ++ ['"']) :=
        List.IsInfix.trans ⟨c!"pkg:contentTy", [], rfl⟩ hh
      rw [List.infix_cons_iff, List.infix_cons_iff] at h3
      rcases h3 with h3 | h3 | h3
      · rw [List.cons_prefix_cons] at h3; exact absurd h3.1 (by decide)
      · rw [List.cons_prefix_cons] at h3; exact absurd h3.1 (by decide)
      · have := h.name.equals
        exact not_infix_of_mem (x := '=') (by decide) (by simp [this]) h3
    · revert hh; decide +kernel

theorem head_no {pat : Str} {x : Char} (hx : x ≠ 'p') (p : FlatPart) (h : p.Fine) :
    ¬ ('<' :: x :: pat) <:+: head p ++ '>' :: p.gap := by
  obtain ⟨t, ht, hl⟩ := head_tail p h
  rw [ht, show (c!"<pkg:part " : Str) = '<' :: 'p' :: c!"kg:part " from rfl]
  simp only [List.cons_append]
  rw [List.infix_cons_iff, List.cons_prefix_cons, List.cons_prefix_cons]
  rintro (hh | hh)
  · exact hx hh.2.1
  · refine not_infix_of_head ?_ hh
    have := blank_not h.gap (c := '<') (by decide)
    simp [hl, this]

theorem head_no' {pat : Str} (p : FlatPart) (h : p.Fine) (hx : ∀ s, ¬ pat <+: c!"pkg:part " ++ s) :
    ¬ ('<' :: pat) <:+: head p ++ '>' :: p.gap := by
  obtain ⟨t, ht, hl⟩ := head_tail p h
  rw [ht, show (c!"<pkg:part " : Str) = '<' :: c!"pkg:part " from rfl]
  simp only [List.cons_append]
  rw [List.infix_cons_iff, List.cons_prefix_cons]
  rintro (hh | hh)
  · exact hx _ (by simpa using hh.2)
  · refine not_infix_of_head ?_ hh
    have := blank_not h.gap (c := '<') (by decide)
    simp [hl, this]

theorem trimStr_blank {b d a : Str} (hb : Blank b) (ha : Blank a) (h1 : ∀ c ∈ d.head?, isUnicodeSpace c = false)
    (h2 : ∀ c ∈ d.getLast?, isUnicodeSpace c = false) : trimStr (b ++ d ++ a) = d := by
  have key : ∀ {b r : Str}, Blank b → (∀ c ∈ r.head?, isUnicodeSpace c = false) → (b ++ r).dropWhile isUnicodeSpace = r := by
    intro b r hb hr
    rw [List.dropWhile_append_of_pos hb]
    cases r with
    | nil => rfl
    | cons c r => simp [hr c (by simp)]
  unfold trimStr
  cases hd : d with
  | nil =>
    have : Blank (b ++ [] ++ a) := by
      intro c hc
      simp only [List.append_nil, List.mem_append] at hc
      exact hc.elim (hb c) (ha c)
    have e := key (r := []) this (by simp)
    rw [List.append_nil] at e
    rw [e]; rfl
  | cons c d' =>
    rw [hd] at h1 h2
    rw [List.append_assoc, key hb (by simpa using h1), List.reverse_append,
      key (fun c hc => ha c (by simpa using hc)) (by rw [List.head?_reverse]; exact h2), List.reverse_reverse]

theorem part_data (p : FlatPart) (h : p.Fine) : partData p.text = some p.content.data := by
  have e : p.text = (head p ++ '>' :: p.gap) ++ (p.content.text ++ (p.gap' ++ c!"</pkg:part>")) := by
    simp only [text_def, head_def, List.append_assoc, List.cons_append, List.nil_append, String.reduceToList]
  have hf := h.content
  unfold partData
  rw [e]
  cases hc : p.content with
  | xml d =>
    rw [hc] at hf
    have e2 : (FlatContent.xml d).text ++ (p.gap' ++ c!"</pkg:part>") = '<' :: c!"pkg:xmlData>" ++
      (d ++ ('<' :: c!"/pkg:xmlData>" ++ (p.gap' ++ c!"</pkg:part>"))) := by simp only [xml_def, binary_def, List.append_assoc, List.cons_append, List.nil_append, String.reduceToList]
    rw [e2, show (c!"<pkg:xmlData>" : Str) = '<' :: c!"pkg:xmlData>" from rfl,
      cut_head (by decide) _ (head_no' (pat := c!"pkg:xmlData>") p h (by intro s; simp))]
    simp only []
    have hx : ¬ ('<' :: c!"/pkg:xmlData>") <:+: d := fun hh => hf.2.1 (occurs_iff.2 hh)
    rw [show (c!"</pkg:xmlData>" : Str) = '<' :: c!"/pkg:xmlData>" from rfl, cut_head (by decide) _ hx]
    rfl
  | binary b d a =>
    rw [hc] at hf
    have nl : '<' ∉ b ++ d ++ a := by
      simp [blank_not hf.1 (c := '<') (by decide), blank_not hf.2.1 (c := '<') (by decide), hf.2.2.1]
    have e2 : (FlatContent.binary b d a).text ++ (p.gap' ++ c!"</pkg:part>") = '<' :: c!"pkg:binaryData>" ++
      ((b ++ d ++ a) ++ ('<' :: c!"/pkg:binaryData>" ++ (p.gap' ++ c!"</pkg:part>"))) := by simp only [xml_def, binary_def, List.append_assoc, List.cons_append, List.nil_append, String.reduceToList]
    rw [e2, show (c!"<pkg:xmlData>" : Str) = '<' :: c!"pkg:xmlData>" from rfl, cut_none (by decide) ?_]
    · simp only []
      rw [show (c!"<pkg:binaryData>" : Str) = '<' :: c!"pkg:binaryData>" from rfl,
        cut_head (by decide) _ (head_no' (pat := c!"pkg:binaryData>") p h (by intro s; simp))]
      simp only []
      rw [show (c!"</pkg:binaryData>" : Str) = '<' :: c!"/pkg:binaryData>" from rfl,
        cut_head (by decide) _ (not_infix_of_head nl)]
      simp only [Option.map_some, trimStr_blank hf.1 hf.2.1 hf.2.2.2.2.1 hf.2.2.2.2.2, FlatContent.data]
    · intro hh
      rcases infix_split (by decide) hh with hh | hh
      · exact head_no' (pat := c!"pkg:xmlData>") p h (by intro s; simp) hh
      rw [List.infix_cons_iff] at hh
      rcases hh with hh | hh
      · revert hh; simp
      replace hh := infix_skip (a := c!"pkg:binaryData>") (by decide) hh
      replace hh := infix_skip nl hh
      rw [List.cons_append, List.infix_cons_iff] at hh
      rcases hh with hh | hh
      · revert hh; simp
      rw [← List.append_assoc] at hh
      replace hh := infix_skip (by
        have := blank_not h.gap' (c := '<') (by decide)
        simp [this]) hh
      revert hh; decide +kernel

theorem readPart_text (p : FlatPart) (h : p.Fine) :
    readPart p.text = some [⟨p.name, p.contentType, p.content.data⟩] := by
  unfold readPart
  rw [attribute_name p h, attribute_type p h, part_data p h]

theorem before_end (p : FlatPart) (h : p.Fine) : ¬ c!"</pkg:part>" <:+: head p ++ '>' :: inside p := by
  intro hh
  have hf := h.content
  have gap' := blank_not h.gap' (c := '<') (by decide)
  rw [show (c!"</pkg:part>" : Str) = '<' :: '/' :: c!"pkg:part>" from rfl] at hh
  cases hc : p.content with
  | xml d =>
    rw [hc] at hf
    have e : head p ++ '>' :: inside p = (head p ++ '>' :: p.gap) ++ '<' :: (c!"pkg:xmlData>" ++
        (d ++ '<' :: (c!"/pkg:xmlData>" ++ p.gap'))) := by simp only [inside, hc, xml_def, binary_def, List.append_assoc, List.cons_append, List.nil_append, String.reduceToList]
    rw [e] at hh
    rcases infix_split (by decide) hh with hh | hh
    · exact head_no (by decide) p h hh
    rw [List.infix_cons_iff] at hh
    rcases hh with hh | hh
    · revert hh; simp
    replace hh := infix_skip (by decide) hh
    rcases infix_split (by decide) hh with hh | hh
    · exact hf.1 (occurs_iff.2 hh)
    rw [List.infix_cons_iff] at hh
    rcases hh with hh | hh
    · revert hh; simp
    · exact not_infix_of_head (by simp [gap']) hh
  | binary b d a =>
    rw [hc] at hf
    have nl : '<' ∉ b ++ d ++ a := by
      simp [blank_not hf.1 (c := '<') (by decide), blank_not hf.2.1 (c := '<') (by decide), hf.2.2.1]
    have e : head p ++ '>' :: inside p = (head p ++ '>' :: p.gap) ++ '<' :: (c!"pkg:binaryData>" ++
        ((b ++ d ++ a) ++ '<' :: (c!"/pkg:binaryData>" ++ p.gap'))) := by simp only [inside, hc, xml_def, binary_def, List.append_assoc, List.cons_append, List.nil_append, String.reduceToList]
    rw [e] at hh
    rcases infix_split (by decide) hh with hh | hh
    · exact head_no (by decide) p h hh
    rw [List.infix_cons_iff] at hh
    rcases hh with hh | hh
    · revert hh; simp
    replace hh := infix_skip (by decide) hh
    replace hh := infix_skip nl hh
    rw [List.infix_cons_iff] at hh
    rcases hh with hh | hh
    · revert hh; simp
    · exact not_infix_of_head (by simp [gap']) hh

/-- What is expected of the parts of a text. -/
theorem extractLoop_flat (tail : Str) (ht : ¬ c!"<pkg:part" <:+: tail) :
    ∀ (ps : List (Str × FlatPart)) (fuel : Nat), ps.length < fuel →
      (∀ q ∈ ps, ¬ c!"<pkg:part" <:+: q.1 ∧ q.2.Fine) →
      extractLoop fuel (flatText ps tail) = some (ps.map fun q => ⟨q.2.name, q.2.contentType, q.2.content.data⟩)
  | [], fuel + 1, _, _ => by
    rw [flatText, extractLoop, cut_none (by decide) ht]; rfl
  | (before, p) :: ps, fuel + 1, hl, h => by
    have hb : ¬ ('<' :: c!"pkg:part") <:+: before := (h (before, p) (by simp)).1
    have hp := (h (before, p) (by simp)).2
    have ih := extractLoop_flat tail ht ps fuel (by simpa using hl) fun q hq => h q (by simp [hq])
    obtain ⟨t, hhead, _⟩ := head_tail p hp
    have e : flatText ((before, p) :: ps) tail = before ++ ('<' :: c!"pkg:part" ++
        (c!" " ++ t ++ '>' :: inside p ++ c!"</pkg:part>" ++ flatText ps tail)) := by
      rw [flatText, text_eq, hhead]; simp
    rw [e, extractLoop, show (c!"<pkg:part" : Str) = '<' :: c!"pkg:part" from rfl, cut_head (by decide) _ hb]
    simp only []
    have be : ¬ ('<' :: c!"/pkg:part>") <:+: head p ++ '>' :: inside p := before_end p hp
    have e2 : '<' :: c!"pkg:part" ++ (c!" " ++ t ++ '>' :: inside p ++ c!"</pkg:part>" ++ flatText ps tail) =
        (head p ++ '>' :: inside p) ++ ('<' :: c!"/pkg:part>" ++ flatText ps tail) := by rw [hhead]; simp
    rw [e2, show (c!"</pkg:part>" : Str) = '<' :: c!"/pkg:part>" from rfl, cut_head (by decide) _ be]
    simp only []
    rw [show ('<' :: c!"/pkg:part>" : Str) = c!"</pkg:part>" from rfl, ← text_eq, readPart_text p hp]
    simp only []
    rw [ih]
    rfl

theorem flatText_length (tail : Str) : ∀ ps : List (Str × FlatPart), ps.length ≤ (flatText ps tail).length
  | [] => by simp [flatText]
  | (before, p) :: ps => by
    have := flatText_length tail ps
    have h2 : 1 ≤ p.text.length := by rw [text_eq]; simp; omega
    simp only [flatText, List.length_append, List.length_cons]
    omega

end Docx.FlatOpc

namespace Docx.FlatOpc

open Docx.Spec

theorem cut_spec {pat : Str} : ∀ {s a b : Str}, cut pat s = some (a, b) → s = a ++ pat ++ b
  | [], _, _, h => by cases h
  | c :: s, a, b, h => by
    rw [cut] at h
    split at h
    next hp =>
      obtain ⟨t, ht⟩ := List.isPrefixOf_iff_prefix.1 hp
      cases h
      rw [← ht]; simp
    next hp =>
      cases hc : cut pat s with
      | none => rw [hc] at h; cases h
      | some r =>
        rw [hc] at h
        cases h
        rw [cut_spec hc]; simp

theorem attributeOf_panic {key s : Str} (h : attributeOf key s = .panic) : (key ++ c!"=\"\"") <:+: s := by
  unfold attributeOf at h
  cases hc : cut (key ++ c!"=\"\"") s with
  | some r => rw [cut_spec hc]; exact ⟨_, _, rfl⟩
  | none =>
    rw [hc] at h
    simp only [] at h
    split at h
    · split at h <;> cases h
    · cases h

/-- The loop ends before its bound is reached: a larger bound gives the same. -/
theorem extractLoop_fuel : ∀ (n m : Nat) (s : Str), s.length < n → s.length < m → extractLoop n s = extractLoop m s
  | 0, _, _, h, _ => absurd h (by omega)
  | _, 0, _, _, h => absurd h (by omega)
  | n + 1, m + 1, s, hn, hm => by
    rw [extractLoop, extractLoop]
    cases h : cut c!"<pkg:part" s with
    | none => rfl
    | some r =>
      obtain ⟨a, b⟩ := r
      have e := cut_spec h
      have l1 : (c!"<pkg:part" : Str).length = 9 := by decide
      have hs : s.length = a.length + 9 + b.length := by
        rw [e, List.length_append, List.length_append, l1]
      simp only []
      cases h2 : cut c!"</pkg:part>" (c!"<pkg:part" ++ b) with
      | some r =>
        obtain ⟨c, d⟩ := r
        have e2 := congrArg List.length (cut_spec h2)
        simp only [List.length_append, l1, show (c!"</pkg:part>" : Str).length = 11 from by decide] at e2
        simp only []
        cases readPart (c ++ c!"</pkg:part>") with
        | none => rfl
        | some ps => simp only []; rw [extractLoop_fuel n m d (by omega) (by omega)]
      | none =>
        simp only []
        have l2 : (c!"pkg:part" ++ b : Str).length = 8 + b.length := by
          rw [List.length_append, show (c!"pkg:part" : Str).length = 8 from by decide]
        exact extractLoop_fuel n m _ (by omega) (by omega)

theorem extractLoop_total : ∀ (n : Nat) (s : Str), ¬ c!"pkg:name=\"\"" <:+: s → ¬ c!"pkg:contentType=\"\"" <:+: s →
    ∃ ps, extractLoop n s = some ps
  | 0, _, _, _ => ⟨[], rfl⟩
  | n + 1, s, h1, h2 => by
    rw [extractLoop]
    cases h : cut c!"<pkg:part" s with
    | none => exact ⟨[], rfl⟩
    | some r =>
      obtain ⟨a, b⟩ := r
      have e := cut_spec h
      have suf : c!"<pkg:part" ++ b <:+: s := by rw [e, List.append_assoc]; exact (List.suffix_append _ _).isInfix
      simp only []
      cases hc : cut c!"</pkg:part>" (c!"<pkg:part" ++ b) with
      | some r =>
        obtain ⟨c, d⟩ := r
        have e2 := cut_spec hc
        rw [e2] at suf
        have inner : c ++ c!"</pkg:part>" <:+: s := (List.prefix_append _ _).isInfix.trans suf
        have rest : d <:+: s := (List.suffix_append _ _).isInfix.trans suf
        obtain ⟨ps, hps⟩ : ∃ ps, readPart (c ++ c!"</pkg:part>") = some ps := by
          unfold readPart
          cases ha : attributeOf c!"pkg:name" (c ++ c!"</pkg:part>") with
          | panic => exact absurd ((attributeOf_panic ha).trans inner) h1
          | missing => exact ⟨_, rfl⟩
          | value v =>
            simp only []
            cases hb : attributeOf c!"pkg:contentType" (c ++ c!"</pkg:part>") with
            | panic => exact absurd ((attributeOf_panic hb).trans inner) h2
            | missing => exact ⟨_, rfl⟩
            | value v =>
              simp only []
              cases partData (c ++ c!"</pkg:part>") with
              | none => exact ⟨_, rfl⟩
              | some d => exact ⟨_, rfl⟩
        obtain ⟨qs, hqs⟩ := extractLoop_total n d (fun hh => h1 (hh.trans rest)) fun hh => h2 (hh.trans rest)
        exact ⟨ps ++ qs, by simp only [hps, hqs]; rfl⟩
      | none =>
        have rest : c!"pkg:part" ++ b <:+: s :=
          List.IsInfix.trans (l₂ := c!"<pkg:part" ++ b) ⟨['<'], [], by simp⟩ suf
        exact extractLoop_total n _ (fun hh => h1 (hh.trans rest)) fun hh => h2 (hh.trans rest)

end Docx.FlatOpc
