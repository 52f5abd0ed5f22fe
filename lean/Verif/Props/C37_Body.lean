import Verif.Lemmas.AfterBody
import Verif.Props.C45_Parts

/-!
# C37: the content of a body survives writing and reading
-/

namespace Docx.Props

open Docx.Spec

/-- The document part of the body put together from `items` is written, and a reader with enough steps finds `seen` in it. -/
def BodyReadAs (x : ReadEnv) (items seen : List BodyItem) : Prop :=
  ∀ g, ∃ out g', (bodyOf items).write g = some (.ok out, g') ∧
    ∃ k, ∀ n, k ≤ n → ∃ d, readDocument x n out = .ok d [] ∧ seenItems d = some seen

/-- **C37.** What is read back from the part of any document whose strings are ready to be written and that holds nothing the
reader does not know. -/
theorem C37_read_back (x : ReadEnv) (d : Document) (hs : AllS d.strings) (h : d.Readable) (g g' : Gen) (out : Str)
    (e : d.write g = some (.ok out, g')) : ∃ k, ∀ n, k ≤ n → readDocument x n out = .ok (d.reread x) [] :=
  reads_document d hs h e

theorem bodyReadAs_of {x : ReadEnv} {items seen : List BodyItem} (h : FineDocument x (bodyOf items) seen) : BodyReadAs x items seen := by
  intro g
  have hw := C45_document (bodyOf items) g
  rw [← all_okIn, h.walk] at hw
  obtain ⟨attrs, cs, g', e, _⟩ : ∃ attrs cs g', _ ∧ _ := hw
  obtain ⟨k, hk⟩ := reads_document (bodyOf items) h.strings h.read e
  exact ⟨_, g', e, k, fun n hn => ⟨_, hk n hn, h.seen⟩⟩

theorem bodyReadAs_unique {x : ReadEnv} {items a b : List BodyItem} (ha : BodyReadAs x items a) (hb : BodyReadAs x items b) : a = b := by
  obtain ⟨out, g', e, k, hk⟩ := ha {}
  obtain ⟨out', g'', e', k', hk'⟩ := hb {}
  rw [e] at e'
  simp only [Option.some.injEq, Prod.mk.injEq, Except.ok.injEq] at e'
  obtain ⟨rfl, rfl⟩ := e'
  obtain ⟨d, h1, h2⟩ := hk (max k k') (Nat.le_max_left _ _)
  obtain ⟨d', h1', h2'⟩ := hk' (max k k') (Nat.le_max_right _ _)
  rw [h1] at h1'
  obtain ⟨rfl⟩ : d = d' := by simpa using h1'
  rw [h2] at h2'
  simpa using h2'

/-- **C37.** Reading a written body gives back the same paragraphs with the same formatting, the same runs, tracked changes,
bookmarks and links, and the same tables, rows and cells, in the same order; a text comes back as `afterText` says. -/
theorem C37_items (x : ReadEnv) (items : List BodyItem) (h : KeptItems items) : BodyReadAs x items (afterItems items) :=
  bodyReadAs_of (fineDocument x h)

/-- **C37, in part.** The body comes back the same, texts included, exactly if no text is empty, has a line end or shows an
entity reference. Full statement: always; it is false, see `C37_fails_entity` and `C37_fails_empty`. -/
theorem C37_same_partial (x : ReadEnv) (items : List BodyItem) (h : KeptItems items) :
    BodyReadAs x items items ↔ ∀ t ∈ textsOf items, BodyText t := by
  rw [← items_same]
  constructor
  · exact fun hi => bodyReadAs_unique (C37_items x items h) hi
  · intro e
    have := C37_items x items h
    rwa [e] at this

theorem kept_default : ParagraphProperty.Kept {} := by
  show ParagraphProperty.Kept ⟨{}, none⟩
  rw [ParagraphProperty.Kept]
  exact ⟨base_default_kept, trivial⟩

/-- A paragraph with one text. -/
private def line (t : Str) : BodyItem := .paragraph c!"00000001" {} [.run ({}, [.text t])]

private theorem line_kept (t : Str) : KeptItem (line t) := by
  rw [line, KeptItem]
  refine ⟨plain_lit (by decide), kept_default, ?_⟩
  intro p hp
  simp only [List.mem_singleton] at hp
  subst hp
  exact kept_empty

private theorem lines_kept (t : Str) : KeptItems [line t] := by
  rw [KeptItems, KeptItems]
  exact ⟨line_kept t, trivial⟩

private theorem line_after (t u : Str) (h : afterText t = [u]) : afterItems [line t] = [line u] := by
  simp [line, afterItems, ParagraphPart.after, afterRun, RunPiece.after, h]

private theorem lineItems (x : ReadEnv) {t u : Str} (h : afterText t = [u]) : BodyReadAs x [line t] [line u] :=
  line_after t u h ▸ C37_items x _ (lines_kept t)

/-- **C37 fails**: the reader decodes the text a second time, so `&lt;` comes back as `<`. -/
theorem C37_fails_entity (x : ReadEnv) : BodyReadAs x [line c!"&lt;"] [line c!"<"] ∧ ¬ BodyReadAs x [line c!"&lt;"] [line c!"&lt;"] := by
  refine ⟨lineItems x (by decide), ?_⟩
  rw [C37_same_partial x _ (lines_kept _)]
  intro h
  exact (h c!"&lt;" (by simp [textsOf, line, ParagraphPart.texts, RunPiece.texts])).2.2.2 c!"&lt;" (by decide) (List.infix_refl _)

/-- **C37 fails** for an empty text, which is left out. -/
theorem C37_fails_empty (x : ReadEnv) : BodyReadAs x [line []] [.paragraph c!"00000001" {} [.run ({}, [])]] ∧
    ¬ BodyReadAs x [line []] [line []] := by
  have := C37_items x _ (lines_kept [])
  rw [show afterItems [line []] = _ by simp [line, afterItems, ParagraphPart.after, afterRun, RunPiece.after, afterText]; rfl] at this
  refine ⟨this, ?_⟩
  rw [C37_same_partial x _ (lines_kept _)]
  intro h
  exact (h [] (by simp [textsOf, line, ParagraphPart.texts, RunPiece.texts])).1 rfl

/-- Bodies with tables, tracked changes, bookmarks, links and characters that are escaped meet the hypothesis of `C37_items`,
and come back the same. -/
example (x : ReadEnv) : BodyReadAs x
    [ .paragraph c!"00000001" {} [.run ({ bold := some true, boldCs := some true }, [.text c!"a < b & c", .tab, .brk .page]), .bookmarkStart 3 c!"here",
        .link c!"here" [({}, [.text c!"\"there\""])], .bookmarkEnd 3],
      .table [[[line c!"1", line c!"2"], [.table [[[line c!"3"]]], line c!"4"]], []],
      .paragraph c!"00000002" {} [.inserted c!"me" c!"2020-01-01T00:00:00Z" [({}, [.text c!"new"])],
        .deleted c!"me" c!"2020-01-01T00:00:00Z" [({}, [.deletedText c!"old", .carriageReturn])]] ]
    [ .paragraph c!"00000001" {} [.run ({ bold := some true, boldCs := some true }, [.text c!"a < b & c", .tab, .brk .page]), .bookmarkStart 3 c!"here",
        .link c!"here" [({}, [.text c!"\"there\""])], .bookmarkEnd 3],
      .table [[[line c!"1", line c!"2"], [.table [[[line c!"3"]]], line c!"4"]], []],
      .paragraph c!"00000002" {} [.inserted c!"me" c!"2020-01-01T00:00:00Z" [({}, [.text c!"new"])],
        .deleted c!"me" c!"2020-01-01T00:00:00Z" [({}, [.deletedText c!"old", .carriageReturn])]] ] := by
  have hb : RunProperty.Kept { bold := some true, boldCs := some true } := kept_apply kept_empty .bold trivial
  refine (C37_same_partial x _ ?_).2 ?_
  · have q1 : PlainValue c!"00000001" := plain_lit (by decide)
    have q2 : PlainValue c!"00000002" := plain_lit (by decide)
    have q3 : PlainValue c!"here" := plain_lit (by decide)
    have q4 : PlainValue c!"2020-01-01T00:00:00Z" := plain_lit (by decide)
    have q5 : KeptPart.PlainName c!"me" := ⟨plain_lit (by decide), by decide, by decide⟩
    have q6 : ∀ ps, KeptRun ({}, ps) := fun _ => kept_empty
    have q7 : ∀ ps, KeptRun ({ bold := some true, boldCs := some true }, ps) := fun _ => hb
    simp only [KeptItems, KeptItem, KeptRows, KeptCells, List.forall_mem_cons, KeptPart, line_kept, kept_default, q1, q2, q3, q4, q5, q6, q7,
      and_true, true_and]
    simp [line]
  · have : ∀ t ∈ [c!"a < b & c", c!"\"there\"", c!"1", c!"2", c!"3", c!"4", c!"new", c!"old"], BodyText t := by
      unfold BodyText NoEntity
      decide +kernel
    intro t ht
    refine this t ?_
    simpa [textsOf, textsOfRows, textsOfCells, line, ParagraphPart.texts, RunPiece.texts, or_assoc] using ht

end Docx.Props
