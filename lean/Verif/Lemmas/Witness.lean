import Verif.Lemmas.Packs
import Verif.Lemmas.Entries
import Verif.Spec.Relations

/-!
# Written documents, for examples

A series of calls whose result is written, shown without writing it.
-/

namespace Docx

open Docx.Spec

/-- An environment: all checksums are 0, maps yield their entries in order. -/
def anEnv : Env := ⟨fun _ => 0, id, id⟩

theorem anEnv_links (l : List (Str × Str)) : (anEnv.links l).Perm l := List.Perm.refl l

/-- Nothing in the document is unsupported. -/
def writableB (d : DocxFile) : Bool :=
  (walkDocument d.document).all (fun x => !x.2.unwritable) &&
  d.comments.all (fun c => (walkComment [.comments] c).all fun x => !x.2.unwritable) &&
  d.footnotes.all (fun f => (walkParagraphs [.footnotes] f.content).all fun x => !x.2.unwritable)

theorem writableB_spec {d : DocxFile} (h : writableB d = true) : Writable d := by
  simp only [writableB, Bool.and_eq_true, List.all_eq_true, Bool.not_eq_true'] at h
  exact ⟨h.1.1, h.1.2, h.2⟩

/-- The calls succeed, the document can be written, and it and the names of the entries satisfy `r`. -/
def packs (r : DocxFile → List Str → Bool) (cs : List Call) : Bool :=
  match DocxFile.new.calls cs with
  | none => false
  | some d => writableB d && r d ((zipDocxSteps anEnv (d.preparePackage anEnv {}).1 (d.preparePackage anEnv {}).2.1).map ZipStep.name)

theorem packs_spec {r : DocxFile → List Str → Bool} {cs : List Call} (h : packs r cs = true) :
    ∃ d es, DocxFile.new.calls cs = some d ∧ Packed anEnv d {} es ∧ r d (es.map Entry.name) = true := by
  unfold packs at h
  cases e : DocxFile.new.calls cs with
  | none => rw [e] at h; cases h
  | some d =>
    rw [e] at h
    dsimp only at h
    rw [Bool.and_eq_true] at h
    have hs := calls_sound e
    obtain ⟨es, w', e'⟩ := writable_packs anEnv d {} (writableB_spec h.1) (by rw [hs.crels, List.length_replicate]; exact Nat.le_refl _)
      (by rw [hs.props]; exact Nat.le_refl _)
    have hp : Packed anEnv d {} es := .inl ⟨w', e'⟩
    refine ⟨d, es, rfl, hp, ?_⟩
    rw [fits_names (packed_fits hp)]
    exact h.2

/-- Some content. -/
def aText (s : Str) : RunChild := .text s
def aRun (s : Str) : Run := { children := [.text s] }
def aParagraph (s : Str) : Paragraph := { id := s, children := [.run (aRun s)] }
def aHeader (s : Str) : Header := { children := [.paragraph (aParagraph s)] }

end Docx
