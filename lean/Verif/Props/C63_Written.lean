import Verif.Lemmas.WrittenHarmless
import Verif.Props.C61_ReadFile
import Verif.Props.C63_Ends

/-!
# C45, C63, C64: all texts of a written package are well-formed, reading it ends, and it does not panic
-/

namespace Docx.Props

open Docx Docx.Spec Docx.Xml

/-- **C45.** In a package that was written, every part that is a text is well-formed XML, whatever the document holds, if the strings that are
not escaped can be copied into XML and the custom items are well-formed. -/
theorem C45_package (cs : List Call) (d : DocxFile) (env : Env) (w : World) (es : List Entry) (hc : DocxFile.new.calls cs = some d)
    (hl : ∀ l, (env.links l).Perm l) (hp : ∀ l, (env.props l).Perm l) (hm : Made d.document) (hm' : MadePictures d.document)
    (hs : AllCopied d) (h : Packed env d w es) : ∀ e ∈ es, ∀ s, e.content = .text s → WellFormed s := by
  intro e he s hs'
  rcases packed_fromTree hm' h (fun _ h => h) (trees_ok hc hl hp hm hs h) imageRels_accept e he s hs' with ⟨_, _, _, hg, hr, _⟩ | ⟨_, _, hw⟩
  · exact wellFormed_of hg hr
  · exact hw.1

/-- **C63.** A package that was written is read to its end: from some number of steps on, reading gives a document, an error or a panic. -/
theorem C63_written (cs : List Call) (d : DocxFile) (env : Env) (w : World) (es : List Entry) (e : FileEnv)
    (hc : DocxFile.new.calls cs = some d) (hl : ∀ l, (env.links l).Perm l) (hp : ∀ l, (env.props l).Perm l) (hm : Made d.document)
    (hm' : MadePictures d.document) (hs : AllCopied d) (h : Packed env d w es) : ∃ k, ∀ n, k ≤ n → readDocx e n es ≠ .running := by
  obtain ⟨k, hk⟩ := comes_docx e (packed_tidy hc hl hp hm hm' hs h)
  refine ⟨k, fun n hn hr => ?_⟩
  have := hk n hn
  rw [hr] at this
  exact this

/-- **C64.** Reading a package that was written does not panic, if no reader would panic at the elements in its custom items: from some number
of steps on, reading gives a document or an error. -/
theorem C64_written (cs : List Call) (d : DocxFile) (env : Env) (w : World) (es : List Entry) (e : FileEnv)
    (hc : DocxFile.new.calls cs = some d) (hl : ∀ l, (env.links l).Perm l) (hp : ∀ l, (env.props l).Perm l) (hm : Made d.document)
    (hm' : MadePictures d.document) (hs : AllCopied d) (hi : ∀ i ∈ d.customItems, Calm e.x (readEvents (formatAll i)))
    (h : Packed env d w es) : ∃ k, ∀ n, k ≤ n → readDocx e n es = .err ∨ ∃ r, readDocx e n es = .ok r :=
  C64_no_panic e es (packed_tidy hc hl hp hm hm' hs h) (packed_harmless hc hl hp hm hm' hs hi h)

/-! ## Witness -/

def nestedB : List Str → List REvent → Bool
  | st, [] => st.isEmpty
  | st, .start q _ :: es => nestedB (q.loc :: st) es
  | st, .«end» q :: es =>
    match st with
    | [] => false
    | n :: st => decide (q.loc = n) && nestedB st es
  | st, .chars _ :: es => nestedB st es
  | st, .whitespace _ :: es => nestedB st es
  | st, .endDocument :: es => st.isEmpty && es.isEmpty
  | _, .error :: _ => false

theorem nestedB_spec : ∀ (es : List REvent) (st : List Str), nestedB st es = true → Nested st es
  | [], st, h => by simpa [nestedB, Nested] using h
  | .start q _ :: es, st, h => by unfold Nested; exact nestedB_spec es _ h
  | .«end» q :: es, [], h => by cases h
  | .«end» q :: es, n :: st, h => by
    unfold nestedB at h
    rw [Bool.and_eq_true, decide_eq_true_eq] at h
    exact ⟨h.1, nestedB_spec es _ h.2⟩
  | .chars _ :: es, st, h => by unfold Nested; exact nestedB_spec es _ h
  | .whitespace _ :: es, st, h => by unfold Nested; exact nestedB_spec es _ h
  | .endDocument :: es, st, h => by simpa [nestedB, Nested] using h
  | .error :: _, _, h => by cases h

def allCopiedB (d : DocxFile) : Bool :=
  copiedB d && decide ((∀ s ∈ d.styles.strings, Stored s) ∧ (∀ s ∈ d.numberings.strings, Stored s) ∧ (∀ s ∈ d.settings.strings, Stored s) ∧
    (∀ s ∈ d.core.strings, Stored s) ∧ (∀ v ∈ d.custom, Stored v.1 ∧ Stored v.2) ∧ (∀ e ∈ d.webExtensions, ∀ s ∈ e.strings, Stored s) ∧
    (∀ i ∈ d.customItemProps, Stored i)) && d.customItems.all fun x => nestedB [] (readEvents (formatAll x))

theorem allCopiedB_spec {d : DocxFile} (h : allCopiedB d = true) : AllCopied d := by
  simp only [allCopiedB, Bool.and_eq_true, decide_eq_true_eq] at h
  obtain ⟨⟨h0, h1, h2, h3, h4, h5, h6, h7⟩, h8⟩ := h
  exact { toCopied := copiedB_spec h0, styles := h1, numberings := h2, settings := h3, core := h4, custom := h5, webExtensions := h6, itemIds := h7,
          items := fun x hx => nestedB_spec _ _ (List.all_eq_true.1 h8 x hx) }

/-- A body with a comment, a table and a picture, headers, footers, a custom property, a style, a numbering, a task pane and a custom item. -/
def manyCalls : List Call :=
  wholeCalls ++ [.addParagraph { id := c!"z", children := [.commentStart 1 { id := 1, author := c!"A", date := c!"D", children := [.paragraph (aParagraph c!"a")] },
      .run { children := [.picture { id := createPicRid 1, image := [1, 2], size := (3, 4) }] }, .commentEnd 1] },
    .webExtension { id := c!"w", referenceId := c!"r", version := c!"1", store := c!"s", storeType := c!"OMEX" },
    .addCustomItem c!"06AC5857-5C65-A94A-BCEC-37356A209BC3" c!"<root xmlns=\"https://example.com\"><item name=\"a\">b</item></root>"]

theorem many_pack : packs (fun d _ => allCopiedB d && decide (bodyLinks d.document = [] ∧
    (∀ p ∈ partPictures (walkDocument d.document), p.id = createPicRid 1) ∧
    (Side.ofDocument .header d.document).flatMap (fun h => partPictures (walkHeader [] h)) = [] ∧
    (Side.ofDocument .footer d.document).flatMap (fun h => partPictures (walkHeader [] h)) = [] ∧ (bodyComments d.document).length = 1 ∧
    d.customItems.length = 1)) manyCalls = true := by decide +kernel

/-- It meets the hypotheses of `C45_package` and `C63_written`. -/
theorem many_meets : ∃ d es, DocxFile.new.calls manyCalls = some d ∧ Made d.document ∧ MadePictures d.document ∧ AllCopied d ∧ Packed anEnv d {} es ∧
    (bodyComments d.document).length = 1 ∧ d.customItems.length = 1 := by
  obtain ⟨d, es, h1, h2, h3⟩ := packs_spec many_pack
  rw [Bool.and_eq_true, decide_eq_true_eq] at h3
  obtain ⟨hc, l1, p1, p2, p3, n1, n2⟩ := h3
  have hparts : ∀ side : Side, ∀ h ∈ side.ofDocument d.document, ∀ p ∈ partPictures (walkHeader [] h), ∃ n, p.id = createPicRid n := by
    intro side h hh p hp
    have : p ∈ (side.ofDocument d.document).flatMap (fun h => partPictures (walkHeader [] h)) := List.mem_flatMap.2 ⟨h, hh, hp⟩
    cases side
    · rw [p2] at this; cases this
    · rw [p3] at this; cases this
  exact ⟨d, es, h1, ⟨fun p hp => ⟨1, p1 p hp⟩, by rw [l1]; exact fun _ h => (by cases h)⟩, ⟨fun p hp => ⟨1, p1 p hp⟩, hparts⟩,
    allCopiedB_spec hc, h2, n1, n2⟩

example (e : FileEnv) : ∃ d es, DocxFile.new.calls manyCalls = some d ∧ Packed anEnv d {} es ∧ ∃ k, ∀ n, k ≤ n → readDocx e n es ≠ .running := by
  obtain ⟨d, es, h1, hm, hm', hs, h, _⟩ := many_meets
  exact ⟨d, es, h1, h, C63_written manyCalls d anEnv {} es e h1 (fun _ => .refl _) (fun _ => .refl _) hm hm' hs h⟩

/-- Elements that no reader cares about. -/
def carelessB : List REvent → Bool
  | [] => true
  | .start q _ :: es => decide (elementOf q.loc ∉ needAttribute ∧ elementOf q.loc ∉ needWidth ∧ elementOf q.loc ≠ .comment ∧
      elementOf q.loc ≠ .commentExtended) && carelessB es
  | _ :: es => carelessB es

theorem carelessB_spec (x : ReadEnv) : ∀ (es : List REvent), carelessB es = true → Calm x es
  | [], _ => fun _ h => (by cases h)
  | .start q as :: es, h => by
    simp only [carelessB, Bool.and_eq_true, decide_eq_true_eq] at h
    obtain ⟨⟨h1, h2, h3, h4⟩, h5⟩ := h
    intro e he
    rcases List.mem_cons.1 he with rfl | he
    · exact ⟨fun h => absurd h h1, fun h => absurd h h2, fun h => absurd h h3, fun h => absurd h h4⟩
    · exact carelessB_spec x es h5 e he
  | .«end» _ :: es, h | .chars _ :: es, h | .whitespace _ :: es, h | .endDocument :: es, h | .error :: es, h => by
    intro e he
    rcases List.mem_cons.1 he with rfl | he
    · trivial
    · exact carelessB_spec x es h e he

theorem many_items : (DocxFile.new.calls manyCalls).all (fun d => d.customItems.all fun i => carelessB (readEvents (formatAll i))) = true := by
  decide +kernel

/-- The same file meets the hypotheses of `C64_written`. -/
example (e : FileEnv) : ∃ d es, DocxFile.new.calls manyCalls = some d ∧ Packed anEnv d {} es ∧ d.customItems.length = 1 ∧
    ∃ k, ∀ n, k ≤ n → readDocx e n es = .err ∨ ∃ r, readDocx e n es = .ok r := by
  obtain ⟨d, es, h1, hm, hm', hs, h, _, hi⟩ := many_meets
  have ha := many_items
  rw [h1] at ha
  exact ⟨d, es, h1, h, hi, C64_written manyCalls d anEnv {} es e h1 (fun _ => .refl _) (fun _ => .refl _) hm hm' hs
    (fun i hi => carelessB_spec _ _ (List.all_eq_true.1 ha i hi)) h⟩

end Docx.Props
