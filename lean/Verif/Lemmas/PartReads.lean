import Verif.Lemmas.Reading
import Verif.Lemmas.Collect
import Verif.Props.C45_Parts

/-!
# Reading written parts and elements back
-/

namespace Docx

open Docx.Spec Docx.Xml Docx.Props

theorem flat_some {n : N} {g : Gen} {ts : List Tag} {g' : Gen} (h : flat n g = some (ts, g')) :
    ∃ f, n g = some (f, g') ∧ ts = tagsForest f := by
  unfold flat at h
  cases e : n g with
  | none => rw [e] at h; simp at h
  | some r =>
    obtain ⟨f, g1⟩ := r
    rw [e] at h
    simp only [Option.some.injEq, Prod.mk.injEq] at h
    exact ⟨f, by rw [h.2], h.1.symm⟩

theorem noGt : '>' ∉ (c!"1.0" : Str) ∧ ∀ e, some (c!"UTF-8" : Str) = some e → '>' ∉ e := by
  refine ⟨by decide, fun e h => ?_⟩
  cases h
  decide

/-- A part read back. -/
theorem writePart_reads {n : N} {g g' : Gen} {sa : Option Bool} {out : Str} (hn : OkN n)
    (h : writePart sa (flat n) g = some (.ok out, g')) :
    ∃ f, n g = some (f, g') ∧ OkF f ∧ readEvents out = expect [] none (tagsForest f) := by
  unfold writePart at h
  cases e : flat n g with
  | none => rw [e] at h; simp at h
  | some r =>
    obtain ⟨ts, g1⟩ := r
    rw [e] at h
    simp only [Option.some.injEq, Prod.mk.injEq] at h
    obtain ⟨f, hf, rfl⟩ := flat_some e
    have ho := hn _ _ _ hf
    obtain ⟨out', h1, h2⟩ := C06_read_write_declared c!"1.0" (some c!"UTF-8") sa f noGt.1 noGt.2 ho
    have h3 := h.1
    rw [declarationEvent, h1] at h3
    refine ⟨f, by rw [← h.2]; exact hf, ho, ?_⟩
    cases h3
    exact h2

/-- An element read back. -/
theorem buildElement_reads {n : N} {g g' : Gen} {out : Str} (hn : OkN n)
    (h : buildElement (flat n) g = some (.ok out, g')) :
    ∃ f, n g = some (f, g') ∧ OkF f ∧ readEvents out = expect [] none (tagsForest f) := by
  unfold buildElement at h
  cases e : flat n g with
  | none => rw [e] at h; simp at h
  | some r =>
    obtain ⟨ts, g1⟩ := r
    rw [e] at h
    simp only [Option.some.injEq, Prod.mk.injEq] at h
    obtain ⟨f, hf, rfl⟩ := flat_some e
    have ho := hn _ _ _ hf
    have h1 := C05_writes_canonical f
    have h3 := h.1
    rw [h1] at h3
    refine ⟨f, by rw [← h.2]; exact hf, ho, ?_⟩
    cases h3
    exact C06_read_print f ho

/-- An element that is not a panic is written. -/
theorem buildElement_ok {n : N} {g g' : Gen} {f : List Node} (h : n g = some (f, g')) :
    buildElement (flat n) g = some (.ok (printForest f), g') := by
  have h1 := C05_writes_canonical f
  simp only [buildElement, flat, h, h1]

end Docx
