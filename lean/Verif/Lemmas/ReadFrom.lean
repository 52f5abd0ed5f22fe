import Verif.Lemmas.ReadTree
import Verif.Lemmas.PartReads
import Verif.Lemmas.BuildTotal

/-!
# Reading what was written
-/

namespace Docx

open Docx.Xml Docx.Spec

/-- Writing `b` gives one element `tag`, and the reader `F`, given what follows its start tag, returns `q` and
leaves nothing but the end of the text, for all large enough numbers of steps. -/
def ReadFrom {α : Type} (x : ReadEnv) (b : B) (tag : Str) (F : Readers → List REvent → Read α) (q : α) : Prop :=
  ∀ g, ∃ out g' es, buildElement b g = some (.ok out, g') ∧
    readEvents out = .start ⟨some c!"w", tag⟩ [] :: es ∧
    ∃ k, ∀ d, k ≤ d → F (readers x d) es = .ok q [.endDocument]

theorem ReadFrom.of {α : Type} {x : ReadEnv} {b : B} {n : N} {name tag : Str} {F : Readers → List REvent → Read α} {q : α}
    (ht : splitQName name = ⟨some c!"w", tag⟩) (hn : flat n = b) (ho : OkN n) (tot : ∀ g, ∃ f g', n g = some (f, g'))
    (hr : ∀ g f g', n g = some (f, g') → ∃ body, f = [.elem name [] body] ∧ Returns x F name body q) :
    ReadFrom x b tag F q := by
  subst hn
  intro g
  obtain ⟨f, g', e⟩ := tot g
  obtain ⟨body, rfl, hr⟩ := hr g f g' e
  have hb := buildElement_ok e
  obtain ⟨f', h1, h2, h3⟩ := buildElement_reads ho hb
  rw [e] at h1
  simp only [Option.some.injEq, Prod.mk.injEq, and_true] at h1
  subst h1
  refine ⟨_, g', expect [name] none (tagsForest body ++ [.cls]), hb, ?_, ?_⟩
  · have := expect_elem [] name [] body []
    rw [List.append_nil] at this
    rw [h3, this]; simp only [ht, expectAttrs_nil]
  · obtain ⟨k, hk⟩ := hr [] []
    exact ⟨k, fun d hd => hk d hd⟩

/-- What is read is one thing only. -/
theorem ReadFrom.unique {α : Type} {x : ReadEnv} {b : B} {tag : Str} {F : Readers → List REvent → Read α} {q q' : α}
    (h : ReadFrom x b tag F q) (h' : ReadFrom x b tag F q') : q = q' := by
  obtain ⟨out, g1, es, h1, h2, k, h3⟩ := h {}
  obtain ⟨out', g1', es', h1', h2', k', h3'⟩ := h' {}
  rw [h1] at h1'
  simp only [Option.some.injEq, Prod.mk.injEq, Except.ok.injEq] at h1'
  obtain ⟨rfl, _⟩ := h1'
  rw [h2] at h2'
  simp only [List.cons.injEq, true_and] at h2'
  subst h2'
  have a := h3 (max k k') (by omega)
  have b := h3' (max k k') (by omega)
  rw [a] at b
  simpa using b

end Docx
