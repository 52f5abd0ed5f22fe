import Verif.Lemmas.XmlWriter

/-! # C05: the XML event writer balances tags -/

namespace Docx.Props

open Docx Docx.Spec Docx.Xml

/-- **C05.** Writing any sequence of tags fails exactly when some prefix closes more elements than
it opened, and then with the unbalanced-end-tag error (never with an out-of-range slice). -/
theorem C05_error_iff (ts : List Tag) :
    (render (ts.map tagEvent) = .error .unbalancedEndTag ↔ ¬ NeverUnderflows ts) ∧
    render (ts.map tagEvent) ≠ .error .slicePanic := by
  have key := run_depth ts {} (by simp [StackInv])
  simp only [List.length_nil] at key
  have hd := depth_none 0 ts
  have hu : ¬ NeverUnderflows ts ↔ depth 0 ts = none := by
    rw [hd]; simp [NeverUnderflows]
  rw [hu]
  cases h : depth 0 ts with
  | none => simp only [h] at key; simp [render, key, Bind.bind, Except.bind]
  | some d =>
    simp only [h] at key
    obtain ⟨w', e, _⟩ := key
    simp [render, e, Bind.bind, Except.bind]

/-- **C05.** The writer's output for the tags of a sequence of nodes is their canonical text:
each end tag names the element it closes and an element without content is self-closing. -/
theorem C05_writes_canonical (f : List Node) :
    render ((tagsForest f).map tagEvent) = .ok (printForest f) := by
  cases f with
  | nil => rfl
  | cons n ns =>
    have := run_forest (n :: ns) {} (by simp) (by rfl)
    simp only [render, this, Bind.bind, Except.bind, Writer.emit, Writer.flushPending]
    simp

/-- **C05.** Every sequence of tags that never underflows and closes everything it opens is the
tag sequence of some nodes, so its output is their canonical, properly nested text. -/
theorem C05_balanced_output (ts : List Tag) (h : NeverUnderflows ts) (hb : opens ts = closes ts) :
    ∃ f, ts = tagsForest f ∧ render (ts.map tagEvent) = .ok (printForest f) := by
  have hd : depth 0 ts ≠ none := by
    rw [Ne, depth_none]; simpa [NeverUnderflows] using h
  obtain ⟨d, hd⟩ := Option.ne_none_iff_exists'.1 hd
  have h0 := depth_some 0 d ts hd
  have : d = 0 := by omega
  subst this
  obtain ⟨f, e⟩ := (forest_of_depth ts).2 hd
  exact ⟨f, e, e ▸ C05_writes_canonical f⟩

/-- **C05.** The XML declaration written first does not disturb what follows. -/
theorem C05_declaration (v : Str) (e : Option Str) (s : Option Bool) (f : List Node) :
    render (.startDocument v e s :: (tagsForest f).map tagEvent) =
      .ok (declaration v e s ++ printForest f) := by
  cases f with
  | nil => simp [render, Writer.run, Writer.write, tagsForest, printForest, Bind.bind, Except.bind]
  | cons n ns =>
    have := run_forest (n :: ns) { out := declaration v e s } (by simp) (by rfl)
    simp only [render, Writer.run, Writer.write, List.nil_append, Bind.bind, Except.bind] at this ⊢
    rw [this]
    simp [Writer.emit, Writer.flushPending]

/-! Concrete cases. -/
def sampleTags : List Tag :=
  [.opn c!"w:p" [(c!"w14:paraId", c!"00000001")], .opn c!"w:pPr" [], .cls,
   .opn c!"w:r" [], .opn c!"w:t" [(c!"xml:space", c!"preserve")], .txt c!"a&amp;b", .cls, .cls, .cls]

example : NeverUnderflows sampleTags ∧ opens sampleTags = closes sampleTags :=
  ⟨by
    intro k
    by_cases h : k ≤ 9
    · revert h; revert k; decide
    · have : sampleTags.take k = sampleTags := List.take_of_length_le (by simp [sampleTags]; omega)
      rw [this]; decide, by decide⟩
example : render (sampleTags.map tagEvent) = .ok
    c!"<w:p w14:paraId=\"00000001\"><w:pPr /><w:r><w:t xml:space=\"preserve\">a&amp;b</w:t></w:r></w:p>" := rfl
example : render ([.opn c!"a" [], .cls, .cls].map tagEvent) = .error .unbalancedEndTag := rfl

end Docx.Props
