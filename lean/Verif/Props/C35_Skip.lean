import Verif.Model.ReadBase
import Verif.Lemmas.XmlElement
import Verif.Spec.Balanced

/-!
# C35: skipping an element

The reader skips an element by passing over events up to the next end tag of that element. This is the
whole element exactly when no element of the same name is inside it.
-/

namespace Docx

open Docx.Xml Docx.Spec

theorem startNames_append (a b : List REvent) : startNames (a ++ b) = startNames a ++ startNames b := by
  induction a with
  | nil => rfl
  | cons e a ih => cases e <;> simp [startNames, ih]

theorem endNames_append (a b : List REvent) : endNames (a ++ b) = endNames a ++ endNames b := by
  induction a with
  | nil => rfl
  | cons e a ih => cases e <;> simp [endNames, ih]

theorem Spec.BalancedEvents.names {es : List REvent} (h : BalancedEvents es) (n : Str) :
    n ∈ endNames es ↔ n ∈ startNames es := by
  induction h with
  | nil => simp [startNames, endNames]
  | chars t _ ih => simpa [startNames, endNames] using ih
  | whitespace t _ ih => simpa [startNames, endNames] using ih
  | element q as _ _ ih ih' =>
    simp only [startNames, endNames, startNames_append, endNames_append, List.mem_cons, List.mem_append, ih, ih']
    constructor <;> rintro (h | h | h) <;> simp [h]

/-- Up to the first end tag with the name. -/
theorem skipTo_first (e : El) (q : QName) (hq : elementOf q.loc = e) (rest : List REvent) :
    ∀ (inner : List REvent) (n : Nat), (∀ m ∈ endNames inner, elementOf m ≠ e) → inner.length < n →
      skipTo n e (inner ++ .«end» q :: rest) = .ok () rest := by
  intro inner
  induction inner with
  | nil =>
    intro n _ hn
    obtain ⟨n, rfl⟩ : ∃ m, n = m + 1 := ⟨n - 1, by simp at hn; omega⟩
    simp [skipTo, nextEvent, hq]
  | cons v inner ih =>
    intro n h hn
    obtain ⟨n, rfl⟩ : ∃ m, n = m + 1 := ⟨n - 1, by simp at hn; omega⟩
    have hn' : inner.length < n := by simpa using hn
    cases v <;> simp only [List.cons_append, skipTo, nextEvent]
    case «end» p =>
      have hp : elementOf p.loc ≠ e := h _ (by simp [endNames])
      rw [if_neg hp]
      exact ih n (fun m hm => h m (by simp [endNames, hm])) hn'
    all_goals exact ih n (fun m hm => h m (by simpa [endNames] using hm)) hn'

/-- An end tag with the name splits the stream at the first such tag. -/
theorem endNames_split (e : El) : ∀ es : List REvent, (∃ m ∈ endNames es, elementOf m = e) →
    ∃ inner q rest, es = inner ++ .«end» q :: rest ∧ elementOf q.loc = e ∧ ∀ m ∈ endNames inner, elementOf m ≠ e := by
  intro es
  induction es with
  | nil => simp [endNames]
  | cons v es ih =>
    intro h
    by_cases hv : ∃ q, v = .«end» q ∧ elementOf q.loc = e
    · obtain ⟨q, rfl, hq⟩ := hv
      exact ⟨[], q, es, rfl, hq, by simp [endNames]⟩
    · have h' : ∃ m ∈ endNames es, elementOf m = e := by
        obtain ⟨m, hm, he⟩ := h
        cases v <;> simp only [endNames, List.mem_cons] at hm
        case «end» q =>
          rcases hm with rfl | hm
          · exact absurd ⟨q, rfl, he⟩ hv
          · exact ⟨m, hm, he⟩
        all_goals exact ⟨m, hm, he⟩
      obtain ⟨inner, q, rest, rfl, hq, hi⟩ := ih h'
      refine ⟨v :: inner, q, rest, rfl, hq, ?_⟩
      intro m hm
      cases v <;> simp only [endNames, List.mem_cons] at hm
      case «end» p =>
        rcases hm with rfl | hm
        · exact fun hp => hv ⟨p, rfl, hp⟩
        · exact hi m hm
      all_goals exact hi m hm

namespace Props

/-- Skipping an element that holds no element of the same name consumes its content and its end tag
and nothing more, whatever else is inside, however deep, and whatever follows. Missing from the full
property: content that holds an element of the same name, for which it fails
(`C35_skip_exact_iff`, `C35_nested_fails`). -/
theorem C35_skip_partial (el : El) (q : QName) (hq : elementOf q.loc = el) (inner rest : List REvent)
    (h : BalancedEvents inner) (hin : ∀ m ∈ startNames inner, elementOf m ≠ el) (n : Nat) (hn : inner.length < n) :
    ignoreElement n el el (inner ++ .«end» q :: rest) = .ok () rest := by
  rw [ignoreElement, if_pos rfl]
  exact skipTo_first el q hq rest inner n (fun m hm => hin m ((h.names m).1 hm)) hn

/-- Exactly when the element is skipped right: if and only if no element of the same name is inside. -/
theorem C35_skip_exact_iff (el : El) (q : QName) (hq : elementOf q.loc = el) (inner rest : List REvent)
    (h : BalancedEvents inner) (n : Nat) (hn : inner.length < n) :
    ignoreElement n el el (inner ++ .«end» q :: rest) = .ok () rest ↔ ∀ m ∈ startNames inner, elementOf m ≠ el := by
  refine ⟨fun hs m hm he => ?_, fun hin => C35_skip_partial el q hq inner rest h hin n hn⟩
  obtain ⟨i₁, p, i₂, rfl, hp, hi⟩ := endNames_split el inner ⟨m, (h.names m).2 hm, he⟩
  rw [ignoreElement, if_pos rfl, List.append_assoc, List.cons_append,
    skipTo_first el p hp _ i₁ n hi (by simp at hn; omega)] at hs
  injection hs with _ hs
  have := congrArg List.length hs
  simp at this
  omega

/-- An element of another name is not touched. -/
theorem C35_others_untouched (n : Nat) (el ignore : El) (h : ignore ≠ el) (es : List REvent) :
    ignoreElement n el ignore es = .ok () es := by
  rw [ignoreElement, if_neg h]

/-- The property fails for every element with an element of the same name inside: the skip ends at the
inner end tag, and the rest of the content is read as if it stood behind the element. -/
theorem C35_nested_fails (el : El) (q : QName) (hq : elementOf q.loc = el) (as : List (QName × Str))
    (a b c rest : List REvent) (ha : BalancedEvents a) (hb : BalancedEvents b)
    (hna : ∀ m ∈ startNames a, elementOf m ≠ el) (hnb : ∀ m ∈ startNames b, elementOf m ≠ el)
    (n : Nat) (hn : a.length + b.length + 1 < n) :
    ignoreElement n el el (a ++ .start q as :: (b ++ .«end» q :: (c ++ .«end» q :: rest))) =
      .ok () (c ++ .«end» q :: rest) := by
  rw [ignoreElement, if_pos rfl]
  have := skipTo_first el q hq (c ++ .«end» q :: rest) (a ++ .start q as :: b) n (by
    intro m hm
    simp only [endNames_append, endNames, List.mem_append] at hm
    rcases hm with hm | hm
    · exact hna m ((ha.names m).1 hm)
    · exact hnb m ((hb.names m).1 hm)) (by simp; omega)
  simpa using this

/-- Without an end tag of the element the skip never ends. -/
theorem C35_unclosed_never_ends (el : El) (n : Nat) (es : List REvent) (h : ∀ m ∈ endNames es, elementOf m ≠ el) :
    ignoreElement n el el es = .running := by
  rw [ignoreElement, if_pos rfl]
  induction n generalizing es with
  | zero => rfl
  | succ n ih =>
    cases es with
    | nil => simpa [skipTo, nextEvent] using ih [] h
    | cons v es =>
      cases v <;> simp only [skipTo, nextEvent]
      case «end» q =>
        rw [if_neg (h _ (by simp [endNames]))]
        exact ih es fun m hm => h m (by simp [endNames, hm])
      all_goals exact ih es fun m hm => h m (by simpa [endNames] using hm)

/-- The hypotheses are met: a changed run property with formatting, nested and with text. -/
example : BalancedEvents [.whitespace c!" ", .start ⟨some c!"w", c!"rPr"⟩ [], .start ⟨some c!"w", c!"b"⟩ [],
      .«end» ⟨some c!"w", c!"b"⟩, .«end» ⟨some c!"w", c!"rPr"⟩] ∧
    elementOf c!"rPrChange" = .runPropertyChange ∧
    ∀ m ∈ startNames [.whitespace c!" ", .start ⟨some c!"w", c!"rPr"⟩ [], .start ⟨some c!"w", c!"b"⟩ [],
      .«end» ⟨some c!"w", c!"b"⟩, .«end» ⟨some c!"w", c!"rPr"⟩], elementOf m ≠ .runPropertyChange := by
  refine ⟨.whitespace _ (.element ⟨some c!"w", c!"rPr"⟩ [] (inner := [.start ⟨some c!"w", c!"b"⟩ [],
    .«end» ⟨some c!"w", c!"b"⟩]) (es := []) (.element ⟨some c!"w", c!"b"⟩ [] (inner := []) (es := []) .nil .nil) .nil),
    by simp [-String.reduceToList], ?_⟩
  intro m hm
  simp only [startNames, List.mem_cons, List.not_mem_nil, or_false] at hm
  rcases hm with rfl | rfl <;> simp [-String.reduceToList]

/-- A concrete failure: `moveFrom` inside `moveFrom`. The run that is still inside the skipped element
is left to be read. -/
example : ignoreElement 10 .moveFrom .moveFrom
    [.start ⟨some c!"w", c!"moveFrom"⟩ [], .«end» ⟨some c!"w", c!"moveFrom"⟩,
      .start ⟨some c!"w", c!"r"⟩ [], .«end» ⟨some c!"w", c!"r"⟩, .«end» ⟨some c!"w", c!"moveFrom"⟩] =
    .ok () [.start ⟨some c!"w", c!"r"⟩ [], .«end» ⟨some c!"w", c!"r"⟩, .«end» ⟨some c!"w", c!"moveFrom"⟩] := by
  have := C35_nested_fails .moveFrom ⟨some c!"w", c!"moveFrom"⟩ (by simp [-String.reduceToList]) [] [] []
    [.start ⟨some c!"w", c!"r"⟩ [], .«end» ⟨some c!"w", c!"r"⟩] [] .nil .nil (by simp [startNames]) (by simp [startNames])
    10 (by simp)
  simpa using this

end Props

end Docx
