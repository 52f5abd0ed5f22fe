import Verif.Lemmas.PackageBuild
import Verif.Lemmas.Alike
import Verif.Spec.Package

/-!
# The two ways of writing a package agree
-/

namespace Docx

open Docx.Spec Docx.Xml Docx.Props

/-- `p` has one text only. -/
def Part.Fixed (p : Part) : Prop := ∀ s t, PartText p s → PartText p t → s = t

/-- The texts of `p` differ at most in generated ids. -/
def Part.Alike (p : Part) : Prop := ∀ s t, PartText p s → PartText p t → SameButIds s t

theorem Part.Const.fixed {p : Part} {s : Str} (h : p.Const s) : p.Fixed := by
  rintro a b ⟨g, g', e⟩ ⟨h1, h2, e'⟩
  rw [h g] at e
  rw [h h1] at e'
  simp only [Option.some.injEq, Prod.mk.injEq, Except.ok.injEq] at e e'
  rw [← e.1, ← e'.1]

theorem writePart_text {sa : Option Bool} {n : N} {s : Str} (h : PartText (writePart sa (flat n)) s) :
    ∃ g f g', n g = some (f, g') ∧ s = declaration c!"1.0" (some c!"UTF-8") sa ++ printForest f := by
  obtain ⟨g, g', e⟩ := h
  unfold writePart at e
  cases e1 : flat n g with
  | none => rw [e1] at e; exact absurd e (by simp)
  | some r =>
    obtain ⟨ts, g1⟩ := r
    rw [e1] at e
    obtain ⟨f, h1, rfl⟩ := flat_some e1
    simp only [declarationEvent, C05_declaration, Option.some.injEq, Prod.mk.injEq, Except.ok.injEq] at e
    exact ⟨g, f, g1, h1, e.1.symm⟩

theorem buildElement_text {n : N} {s : Str} (h : PartText (buildElement (flat n)) s) :
    ∃ g f g', n g = some (f, g') ∧ s = printForest f := by
  obtain ⟨g, g', e⟩ := h
  unfold buildElement at e
  cases e1 : flat n g with
  | none => rw [e1] at e; exact absurd e (by simp)
  | some r =>
    obtain ⟨ts, g1⟩ := r
    rw [e1] at e
    obtain ⟨f, h1, rfl⟩ := flat_some e1
    simp only [C05_writes_canonical, Option.some.injEq, Prod.mk.injEq, Except.ok.injEq] at e
    exact ⟨g, f, g1, h1, e.1.symm⟩

theorem writePart_alike {n : N} (h : Docx.Alike n) (sa : Option Bool) : Part.Alike (writePart sa (flat n)) := by
  intro s t hs ht
  obtain ⟨g, f, g', e, rfl⟩ := writePart_text hs
  obtain ⟨h1, f', h2, e', rfl⟩ := writePart_text ht
  exact ⟨_, f, f', rfl, rfl, h _ _ _ _ _ _ e e'⟩

theorem buildElement_alike {n : N} (h : Docx.Alike n) : Part.Alike (buildElement (flat n)) := by
  intro s t hs ht
  obtain ⟨g, f, g', e, rfl⟩ := buildElement_text hs
  obtain ⟨h1, f', h2, e', rfl⟩ := buildElement_text ht
  exact ⟨[], f, f', rfl, rfl, h _ _ _ _ _ _ e e'⟩

theorem header_alike (h : Header) : Part.Alike h.writeHeader := by
  have := writePart_alike (h.alike c!"w:hdr") (some true)
  rw [Header_build_flat] at this
  exact this
theorem footer_alike (h : Header) : Part.Alike h.writeFooter := by
  have := writePart_alike (h.alike c!"w:ftr") (some true)
  rw [Header_build_flat] at this
  exact this
theorem document_alike (d : Document) : Part.Alike d.write := by
  have := writePart_alike d.alike (some true)
  rw [Document_build_flat] at this
  exact this
theorem writeComments_alike (l : List Comment) : Part.Alike (writeComments l) := by
  have := writePart_alike (comments_alike l) (some true)
  rw [commentsB_flat] at this
  exact this
theorem writeFootnotes_alike (l : List Footnote) : Part.Alike (writeFootnotes l) := by
  have := writePart_alike (footnotes_alike l) (some true)
  rw [footnotesB_flat] at this
  exact this
theorem stylesPart_alike (d : DocxFile) : d.stylesPart.Alike := by
  have := buildElement_alike d.styles.alike
  rw [Styles_build_flat] at this
  exact this
theorem numberingPart_alike (d : DocxFile) : d.numberingPart.Alike := by
  have := writePart_alike d.numberings.alike (some true)
  rw [Numberings_build_flat] at this
  exact this

/-- The entries a step can make are the same entry. -/
def ZipStep.Same : ZipStep → Prop
  | .write n p => p.Fixed ∨ (holdsContent n ∧ p.Alike)
  | _ => True

def AllSame (ss : List ZipStep) : Prop := ∀ s ∈ ss, s.Same

theorem AllSame.nil : AllSame [] := by intro s h; simp at h
theorem AllSame.cons {s : ZipStep} {a : List ZipStep} (h1 : s.Same) (h2 : AllSame a) : AllSame (s :: a) := by
  intro x hx
  rcases List.mem_cons.1 hx with rfl | hx
  · exact h1
  · exact h2 x hx
theorem AllSame.append {a b : List ZipStep} (h1 : AllSame a) (h2 : AllSame b) : AllSame (a ++ b) := by
  intro x hx
  rcases List.mem_append.1 hx with hx | hx
  · exact h1 x hx
  · exact h2 x hx
theorem AllSame.ite {c : Prop} [Decidable c] {a b : List ZipStep} (h1 : AllSame a) (h2 : AllSame b) :
    AllSame (if c then a else b) := by
  split <;> assumption
theorem AllSame.directory {n : Str} {a : List ZipStep} (h2 : AllSame a) : AllSame (.directory n :: a) := .cons trivial h2
theorem AllSame.fixed {n : Str} {p : Part} {a : List ZipStep} (h1 : p.Fixed) (h2 : AllSame a) : AllSame (.write n p :: a) :=
  .cons (.inl h1) h2
theorem AllSame.content {n : Str} {p : Part} {a : List ZipStep} (h : holdsContent n) (h1 : p.Alike) (h2 : AllSame a) :
    AllSame (.write n p :: a) := .cons (.inr ⟨h, h1⟩) h2

theorem same_entries {ss : List ZipStep} {es es' : List Entry} (h : AllSame ss) (h1 : List.Forall₂ ZipStep.Fits ss es)
    (h2 : List.Forall₂ ZipStep.Fits ss es') : List.Forall₂ SameEntry es es' := by
  induction h1 generalizing es' with
  | nil => cases h2; exact .nil
  | @cons s e ss es hs _ ih =>
    cases h2 with
    | @cons _ e' _ es' hs' ht =>
      refine .cons ?_ (ih (fun x hx => h x (by simp [hx])) ht)
      have hsame := h s (by simp)
      cases s with
      | directory n => exact .inl (by rw [show e = _ from hs, show e' = _ from hs'])
      | store n b => exact .inl (by rw [show e = _ from hs, show e' = _ from hs'])
      | write n p =>
        obtain ⟨s1, g1, g2, rfl, e1⟩ := hs
        obtain ⟨s2, g3, g4, rfl, e2⟩ := hs'
        rcases hsame with hf | ⟨hn, ha⟩
        · exact .inl (by rw [hf s1 s2 ⟨_, _, e1⟩ ⟨_, _, e2⟩])
        · exact .inr ⟨hn, rfl, s1, s2, rfl, rfl, ha s1 s2 ⟨_, _, e1⟩ ⟨_, _, e2⟩⟩

theorem partSteps_same (kind : Str) (write : Header → Part) (hk : ∀ n, holdsContent (partName kind n)) (hw : ∀ h, (write h).Alike) :
    ∀ (hs : List Header) (i : Nat) (rs : List (Nat × List (Str × Str))), AllSame (partSteps kind write i hs rs)
  | [], i, rs => by simp only [partSteps]; exact .nil
  | h :: hs, i, [] => by
    simp only [partSteps]
    exact .content (hk _) (hw h) (partSteps_same kind write hk hw hs _ _)
  | h :: hs, i, (j, r) :: rs => by
    simp only [partSteps]
    refine .content (hk _) (hw h) ?_
    split
    · exact .fixed (imageRels_const r).fixed (partSteps_same kind write hk hw hs _ _)
    · exact partSteps_same kind write hk hw hs _ _

theorem indexed_fixed {α : Type} (l : List α) (i : Nat) (f : α → Part) (hf : ∀ a, (f a).Fixed) : (indexed l i f).Fixed := by
  unfold indexed
  split
  · exact hf _
  · rintro s t ⟨g, g', e⟩; exact absurd e (by simp)

theorem customItemSteps_same (d : DocxFile) : ∀ (xs : List (List XmlData)) (i : Nat), AllSame (customItemSteps d i xs)
  | [], i => .nil
  | x :: xs, i => by
    simp only [customItemSteps, List.cons_append, List.nil_append]
    exact .fixed (indexed_fixed _ _ _ fun n => (customItemRels_const n).fixed) (.fixed (customItem_const x).fixed
      (.fixed (indexed_fixed _ _ _ fun n => (customItemProps_const n).fixed) (customItemSteps_same d xs (i + 1))))

theorem webExtensionSteps_same : ∀ (es : List WebExtension) (i : Nat), AllSame (webExtensionSteps i es)
  | [], i => .nil
  | e :: es, i => .fixed (webExtension_const e).fixed (webExtensionSteps_same es (i + 1))

theorem header_prefix (kind : Str) (n : Nat) : c!"word/" ++ kind <+: partName kind n := by
  unfold partName
  rw [List.append_assoc, List.append_assoc]
  rw [← List.append_assoc]
  exact List.prefix_append _ _

theorem zipDocxSteps_same (env : Env) (d : DocxFile) (p : PackageMetadata) : AllSame (zipDocxSteps env d p) := by
  unfold zipDocxSteps
  refine .append (.append (.append (.append (.append (.append ?_ ?_) ?_) ?_) ?_) ?_) (customItemSteps_same d _ _)
  · refine .directory (.directory (.directory (.directory ?_)))
    exact .fixed (contentTypes_const d).fixed (.fixed (rels_const d).fixed (.fixed app_const.fixed
      (.fixed (core_const d).fixed (.fixed (custom_const env d).fixed (.fixed (documentRels_const d).fixed
      (.content (.inl (by decide)) (document_alike _) (.content (.inl (by decide)) (stylesPart_alike d) (.fixed (settings_const d).fixed
      (.fixed fontTable_const.fixed (.content (.inl (by decide)) (writeComments_alike _)
      (.content (.inl (by decide)) (numberingPart_alike d)
      (.fixed (commentsExtended_const d).fixed (.content (.inl (by decide)) (writeFootnotes_alike _) .nil)))))))))))))
  · exact partSteps_same _ _ (fun n => .inr (.inl (header_prefix c!"header" n))) header_alike _ _ _
  · exact partSteps_same _ _ (fun n => .inr (.inr (header_prefix c!"footer" n))) footer_alike _ _ _
  · refine .ite .nil (.directory ?_)
    intro s h
    rw [List.mem_map] at h
    obtain ⟨m, _, rfl⟩ := h
    trivial
  · refine .ite (.append ?_ (webExtensionSteps_same _ _)) .nil
    exact .directory (.fixed taskpanes_const.fixed (.directory (.fixed (taskpanesRels_const d).fixed .nil)))
  · exact .ite .nil (.directory .nil)

end Docx
