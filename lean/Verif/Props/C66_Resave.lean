import Verif.Lemmas.Resaved
import Verif.Props.C37_Body
import Verif.Props.C65_Succeeds

/-!
# C66: saving what was read

A body is written, read, written again as it was read, and read again.
-/

namespace Docx.Props

open Docx.Spec Docx.Xml

/-- **C66, in part.** Take a body of `BodyItem`s that is written, and read as `d`. If no text that was read is empty or has a `<`, `&`, `"`,
tab or line end, then `d` can be written as it is, and is read again as exactly `d`: saving what was read changes nothing that a reader
sees. Full statement: for every text; it is false, see `C66_fails_text`. -/
theorem C66_steady_partial (x : ReadEnv) (items : List BodyItem) (h : KeptItems items)
    (ht : ∀ t ∈ textsOf (afterItems items), t ≠ [] ∧ PlainValue t) (g : Gen) :
    ∃ out g' d, (bodyOf items).write g = some (.ok out, g') ∧ (∃ k, ∀ n, k ≤ n → readDocument x n out = .ok d []) ∧
      seenItems d = some (afterItems items) ∧
      ∀ f, ∃ again f', d.write f = some (.ok again, f') ∧ ∃ k, ∀ n, k ≤ n → readDocument x n again = .ok d [] := by
  have hf := fineDocument x h
  have hd := steadyDocument x h ht
  have hw := C45_document (bodyOf items) g
  rw [← all_okIn, hf.walk] at hw
  obtain ⟨attrs, cs, g', e, _⟩ : ∃ attrs cs g', _ ∧ _ := hw
  refine ⟨_, g', _, e, reads_document (bodyOf items) hf.strings hf.read e, hf.seen, fun f => ?_⟩
  have hw := C45_document ((bodyOf items).reread x) f
  rw [← all_okIn, hd.walk] at hw
  obtain ⟨attrs, cs, f', e, _⟩ : ∃ attrs cs f', _ ∧ _ := hw
  obtain ⟨k, hk⟩ := reads_document _ hd.strings hd.read e
  refine ⟨_, f', e, k, fun n hn => ?_⟩
  rw [hk n hn, hd.same]

/-- A paragraph with one text. -/
private def line (t : Str) : BodyItem := .paragraph c!"00000001" {} [.run ({}, [.text t])]

private theorem line_kept (t : Str) : KeptItem (line t) := by
  rw [line, KeptItem]
  refine ⟨plain_lit (by decide), kept_default, ?_⟩
  intro p hp
  simp only [List.mem_singleton] at hp
  subst hp
  exact kept_empty

private theorem lines_kept (t : Str) : KeptItems [line t] := by
  rw [KeptItems, KeptItems]
  exact ⟨line_kept t, trivial⟩

/-- Whether a part is broken: its text is no XML, and reading it gives an error. -/
private def broken (d : Document) : Bool :=
  match d.write {} with
  | some (.ok again, _) => (readEvents again).any (fun | .error => true | _ => false) &&
      match readDocument aReader.x 30 again with
      | .err _ => true
      | _ => false
  | _ => false

private theorem broken_spec {d : Document} (h : broken d = true) :
    ∃ again f', d.write {} = some (.ok again, f') ∧ .error ∈ readEvents again ∧ ∃ rest, readDocument aReader.x 30 again = .err rest := by
  unfold broken at h
  split at h
  · next again f' e =>
    rw [Bool.and_eq_true, List.any_eq_true] at h
    obtain ⟨⟨v, hv, h1⟩, h2⟩ := h
    refine ⟨again, f', e, ?_, ?_⟩
    · split at h1
      · exact hv
      · cases h1
    · split at h2
      · exact ⟨_, by assumption⟩
      · cases h2
  · cases h

private theorem breaks {t : Str} (h : broken ((bodyOf [line t]).reread aReader.x) = true) :
    ∃ out g' d again f', (bodyOf [line t]).write {} = some (.ok out, g') ∧ (∃ k, ∀ n, k ≤ n → readDocument aReader.x n out = .ok d []) ∧
      d.write {} = some (.ok again, f') ∧ .error ∈ readEvents again ∧ ∃ rest, readDocument aReader.x 30 again = .err rest := by
  have hf := fineDocument aReader.x (lines_kept t)
  have hw := C45_document (bodyOf [line t]) {}
  rw [← all_okIn, hf.walk] at hw
  obtain ⟨attrs, cs, g', e, _⟩ : ∃ attrs cs g', _ ∧ _ := hw
  obtain ⟨again, f', h⟩ := broken_spec h
  exact ⟨_, g', _, again, f', e, reads_document _ hf.strings hf.read e, h⟩

private theorem broken_and : broken ((bodyOf [line c!"a & b"]).reread aReader.x) = true := by decide +kernel
private theorem broken_less : broken ((bodyOf [line c!"a < b"]).reread aReader.x) = true := by decide +kernel

/-- **C66 fails** for a text with `&` or `<`: the paragraph is written and read as it should be, but what was read holds the text without its
escapes, so that writing it again gives a part that is no XML and that cannot be read. -/
theorem C66_fails_text : ∀ t ∈ [c!"a & b", c!"a < b"],
    ∃ out g' d again f', (bodyOf [line t]).write {} = some (.ok out, g') ∧ (∃ k, ∀ n, k ≤ n → readDocument aReader.x n out = .ok d []) ∧
      d.write {} = some (.ok again, f') ∧ .error ∈ readEvents again ∧ ∃ rest, readDocument aReader.x 30 again = .err rest := by
  have h1 := breaks broken_and
  have h2 := breaks broken_less
  intro t ht
  rcases List.mem_cons.1 ht with e | ht
  · rw [e]; exact h1
  · rcases List.mem_cons.1 ht with e | ht
    · rw [e]; exact h2
    · cases ht

/-- A body with a table, tracked changes, a bookmark and a link meets the hypotheses. -/
example (x : ReadEnv) (g : Gen) :
    let items := [ .paragraph c!"00000001" {} [.run ({ bold := some true, boldCs := some true }, [.text c!"one", .tab, .brk .page]), .bookmarkStart 3 c!"here",
        .link c!"here" [({}, [.text c!"there"])], .bookmarkEnd 3],
      .table [[[line c!"1", line c!"2"], [.table [[[line c!"3"]]], line c!"4"]], []],
      .paragraph c!"00000002" {} [.inserted c!"me" c!"2020-01-01T00:00:00Z" [({}, [.text c!"new"])],
        .deleted c!"me" c!"2020-01-01T00:00:00Z" [({}, [.deletedText c!"old", .carriageReturn])]] ]
    ∃ out g' d, (bodyOf items).write g = some (.ok out, g') ∧ (∃ k, ∀ n, k ≤ n → readDocument x n out = .ok d []) ∧
      seenItems d = some items ∧
      ∀ f, ∃ again f', d.write f = some (.ok again, f') ∧ ∃ k, ∀ n, k ≤ n → readDocument x n again = .ok d [] := by
  intro items
  have hb : RunProperty.Kept { bold := some true, boldCs := some true } := kept_apply kept_empty .bold trivial
  have hk : KeptItems items := by
    have q1 : PlainValue c!"00000001" := plain_lit (by decide)
    have q2 : PlainValue c!"00000002" := plain_lit (by decide)
    have q3 : PlainValue c!"here" := plain_lit (by decide)
    have q4 : PlainValue c!"2020-01-01T00:00:00Z" := plain_lit (by decide)
    have q5 : KeptPart.PlainName c!"me" := ⟨plain_lit (by decide), by decide, by decide⟩
    have q6 : ∀ ps, KeptRun ({}, ps) := fun _ => kept_empty
    have q7 : ∀ ps, KeptRun ({ bold := some true, boldCs := some true }, ps) := fun _ => hb
    simp only [items, KeptItems, KeptItem, KeptRows, KeptCells, List.forall_mem_cons, Spec.KeptPart, line_kept, kept_default, q1, q2, q3, q4, q5, q6, q7,
      and_true, true_and]
    simp [line]
  have ht : ∀ t ∈ textsOf items, BodyText t ∧ t ≠ [] ∧ PlainValue t := by
    have : ∀ t ∈ [c!"one", c!"there", c!"1", c!"2", c!"3", c!"4", c!"new", c!"old"], BodyText t ∧ t ≠ [] ∧ PlainValue t := by
      unfold BodyText NoEntity PlainValue
      decide +kernel
    intro t ht
    refine this t ?_
    simpa [items, textsOf, textsOfRows, textsOfCells, line, ParagraphPart.texts, RunPiece.texts, or_assoc] using ht
  have hsame : afterItems items = items := (items_same items).2 fun t h => (ht t h).1
  have := C66_steady_partial x items hk (by rw [hsame]; exact fun t h => (ht t h).2) g
  rwa [hsame] at this

end Docx.Props
