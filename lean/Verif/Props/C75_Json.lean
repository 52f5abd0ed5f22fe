import Verif.Lemmas.JsonRead
import Verif.Lemmas.JsonSame
import Verif.Lemmas.JsonOk
import Verif.Lemmas.JsonSeen
import Verif.Props.C61_ReadFile

/-!
# C75: the JSON form of a document says what is in the document

Full statement: `json` returns one JSON value. The texts in its `document` are the texts of the document, in order, character for
character. Two documents with the same JSON form have the same content.

It fails: the texts of footnotes are left out, and texts given to the building interface are found escaped. Proved: what is left when the texts of
footnotes are left out; the JSON forms of formatting and other leaves are not modelled, and only as much of them is compared as they
say themselves.
-/

namespace Docx.Props

open Docx Docx.Spec

/-- The document among the fields of a file. -/
private theorem document_field {before after : List (Str × Json)} {v : Json} (h : ∀ f ∈ before, f.1 ≠ c!"document") :
    Json.field c!"document" (.obj (before ++ (c!"document", v) :: after)) = some v := by
  rw [Json.field]
  induction before with
  | nil => simp [List.lookup]
  | cons f fs ih =>
    obtain ⟨k, x⟩ := f
    have : (c!"document" == k) = false := by
      have := h (k, x) (by simp)
      simpa using Ne.symm this
    rw [List.cons_append, List.lookup, this]
    exact ih fun f hf => h f (by simp [hf])

/-- **C75.** The JSON form of a file is one JSON value with nothing after it. Its `document` has the texts of the document, in order, character for
character; whatever the other fields and the leaves are, as long as numbers are written as numbers. -/
theorem C75_valid (P : Leaves) (before after : List (Str × Json)) (d : DocxFile) (hP : Leaves.Ok P) (hb : fieldsOk before) (ha : fieldsOk after)
    (hn : ∀ f ∈ before, f.1 ≠ c!"document") :
    ∃ v doc, (∃ k, ∀ n ≥ k, readJson n (d.json P before after) = some (v, [])) ∧ Json.field c!"document" v = some doc ∧
      Json.texts doc = keptTexts d.document := by
  refine ⟨_, documentJson P d.document, ?_, document_field (v := documentJson P d.document) (after := after) hn, documentJson_texts P d.document⟩
  have hok : Json.Ok (.obj (before ++ (c!"document", documentJson P d.document) :: after)) := by
    rw [Json.Ok, fieldsOk_append, fieldsOk]
    exact ⟨hb, documentJson_ok hP _, ha⟩
  obtain ⟨k, hk⟩ := readJson_pretty _ hok
  refine ⟨k, fun n hn => ?_⟩
  have := hk n hn 0 [] [] (fun _ h => (by cases h)) (fun c s h => by cases h)
  simpa [DocxFile.json] using this

/-- **C75.** Two files with the same JSON form have the same document, up to the texts of footnotes and to what the JSON forms of the leaves
do not say. -/
theorem C75_determines_partial (P : Leaves) (B : Blur) (before before' after after' : List (Str × Json)) (d d' : DocxFile) (hP : Leaves.Ok P)
    (hs : Leaves.Say P B) (hx : Leaves.Apart P) (hb : fieldsOk before) (hb' : fieldsOk before') (ha : fieldsOk after) (ha' : fieldsOk after')
    (hn : ∀ f ∈ before, f.1 ≠ c!"document") (hn' : ∀ f ∈ before', f.1 ≠ c!"document")
    (h : d.json P before after = d'.json P before' after') : blurDocument B d.document = blurDocument B d'.document := by
  have hok : ∀ (x : List (Str × Json)) (d : DocxFile) (y : List (Str × Json)), fieldsOk x → fieldsOk y → Json.Ok (.obj (x ++ (c!"document", documentJson P d.document) :: y)) := by
    intro x d y h1 h2
    rw [Json.Ok, fieldsOk_append, fieldsOk]
    exact ⟨h1, documentJson_ok hP _, h2⟩
  obtain ⟨k, hk⟩ := readJson_pretty _ (hok before d after hb ha)
  obtain ⟨k', hk'⟩ := readJson_pretty _ (hok before' d' after' hb' ha')
  have e := hk (k + k') (by omega) 0 [] [] (fun _ h => (by cases h)) (fun c s h => by cases h)
  have e' := hk' (k + k') (by omega) 0 [] [] (fun _ h => (by cases h)) (fun c s h => by cases h)
  unfold DocxFile.json at h
  rw [h] at e
  rw [e] at e'
  have e2 := congrArg (fun x => x.bind fun y => Json.field c!"document" y.1) e'
  simp only [Option.bind_some, document_field hn, document_field hn', Option.some.injEq] at e2
  exact documentJson_inj hs hx _ _ e2

/-- **C75.** Whatever the JSON forms of the leaves are: two files with the same JSON form have the same paragraphs, tables, links, tracked
changes, bookmarks, comments, text boxes, sections, headers and footers with the same texts, up to formatting and to the texts of footnotes. -/
theorem C75_content_partial (P : Leaves) (before before' after after' : List (Str × Json)) (d d' : DocxFile) (hP : Leaves.Ok P)
    (hx : Leaves.Apart P) (hb : fieldsOk before) (hb' : fieldsOk before') (ha : fieldsOk after) (ha' : fieldsOk after')
    (hn : ∀ f ∈ before, f.1 ≠ c!"document") (hn' : ∀ f ∈ before', f.1 ≠ c!"document")
    (h : d.json P before after = d'.json P before' after') : blurDocument .leaves d.document = blurDocument .leaves d'.document :=
  C75_determines_partial P .leaves before before' after after' d d' hP
    ⟨fun _ _ _ => rfl, fun _ _ _ => rfl, fun _ _ _ => rfl, fun _ _ _ => rfl, fun _ _ _ => rfl, fun _ _ _ => rfl, fun _ _ _ => rfl, fun _ _ _ => rfl,
      fun _ _ _ => rfl, fun _ _ _ => rfl, fun _ _ _ => rfl, fun _ _ _ => rfl, fun _ _ _ => rfl, fun _ _ _ => rfl⟩
    hx hb hb' ha ha' hn hn' h

/-- **C75.** A file that calls make out of things that are kept is packed and read: the texts in the JSON form of what is read are the texts that
were given, in order, each as C55 says it comes back. -/
theorem C75_read_back (P : Leaves) (hP : Leaves.Ok P) (e : FileEnv) (cs : List Call) (d : DocxFile) (env : Env) (w : World) (es : List Entry)
    (items : List BodyItem) (S : Sendable cs d env) (h : Packed env d w es) (hb : d.document.children = (bodyOf items).children)
    (hk : KeptItems items) (hn : bodyComments d.document = []) (hx : ∀ l, .commentsExtended l ∉ cs) :
    ∃ k, ∀ n, k ≤ n → ∃ r, readDocx e n es = .ok r ∧ ∀ before after, fieldsOk before → fieldsOk after → (∀ f ∈ before, f.1 ≠ c!"document") →
      ∃ v doc, (∃ k, ∀ n ≥ k, readJson n (r.file.json P before after) = some (v, [])) ∧ Json.field c!"document" v = some doc ∧
        Json.texts doc = textsOf (afterItems items) := by
  obtain ⟨k, hk⟩ := C61_read_file e cs d env w es items S h hb hk hn hx
  refine ⟨k, fun n hn => ?_⟩
  obtain ⟨r, h1, h2, _⟩ := hk n hn
  refine ⟨r, h1, fun before after b1 b2 b3 => ?_⟩
  obtain ⟨v, doc, h4, h5, h6⟩ := C75_valid P before after r.file hP b1 b2 b3
  refine ⟨v, doc, h4, h5, ?_⟩
  simp only [Option.map_eq_some_iff] at h2
  obtain ⟨is, h2, h3⟩ := h2
  rw [h6, seen_texts h2, ← dropIds_texts is, h3, dropIds_texts]

/-! ## What is not in the JSON form -/

/-- A document of one paragraph with one run. -/
def ofRun (r : Run) : DocxFile :=
  { DocxFile.new with document := Document.addParagraph {} (({ id := c!"00000001" } : Paragraph).addRun r) }

/-- A run with a footnote. -/
def noted (t : Str) : Run :=
  (Run.addText {} c!"see").addFootnoteReference ⟨1, [({ id := c!"00000002" } : Paragraph).addRun (Run.addText {} t)]⟩

/-- **C75 fails** for footnotes: two documents whose footnotes differ have the same JSON form. -/
theorem C75_fails_footnotes : ∃ d d' : DocxFile, partFootnotes (walkDocument d.document) ≠ partFootnotes (walkDocument d'.document) ∧
    ∀ P before after, d.json P before after = d'.json P before after := by
  refine ⟨ofRun (noted c!"one"), ofRun (noted c!"two"), ?_, fun P before after => rfl⟩
  intro h
  have := congrArg (fun l => l.flatMap fun f => f.content.flatMap fun p => p.children.flatMap fun
    | .run r => r.children.flatMap (fun | .text t => [t] | _ => [])
    | _ => []) h
  exact absurd this (by decide +kernel)

/-- **C75 fails** for what is built: a text that is given to the building interface is found escaped. -/
theorem C75_fails_escaped : ∃ t, ∀ P before after, Leaves.Ok P → fieldsOk before → fieldsOk after → (∀ f ∈ before, f.1 ≠ c!"document") →
    ∃ v doc, (∃ k, ∀ n ≥ k, readJson n ((ofRun (Run.addText {} t)).json P before after) = some (v, [])) ∧
      Json.field c!"document" v = some doc ∧ Json.texts doc ≠ [t] := by
  refine ⟨c!"a<b", fun P before after h1 h2 h3 h4 => ?_⟩
  obtain ⟨v, doc, e1, e2, e3⟩ := C75_valid P before after (ofRun (Run.addText {} c!"a<b")) h1 h2 h3 h4
  refine ⟨v, doc, e1, e2, ?_⟩
  rw [e3]
  decide +kernel

/-! ## Witnesses -/

/-- Leaves of which only the style of a paragraph is written. -/
def styleLeaves : Leaves where
  run _ := .null
  paragraph p := jopt Json.str p.base.style
  sdt _ := .null
  table _ := .null
  row _ := .null
  cell _ := .null
  section' _ := [(c!"pageSize", .null)]
  ptab _ := .null
  picture _ := .null
  box := []
  shape _ := .null
  instr _ := .null
  deleteInstr _ := .null
  tocInstr _ := .null
  shading _ := .null

/-- Of the leaves, the styles of paragraphs are compared. -/
def styleBlur : Blur := { Blur.leaves with paragraph := fun p => { base := { style := p.base.style } } }

/-- These meet the hypotheses of the theorems. -/
theorem styleLeaves_example : Leaves.Ok styleLeaves ∧ Leaves.Apart styleLeaves ∧ Leaves.Say styleLeaves styleBlur ∧
    (∀ f ∈ [(c!"media", Json.arr []), (c!"count", jnat 12)], f.1 ≠ c!"document") ∧ fieldsOk [(c!"media", Json.arr []), (c!"count", jnat 12)] := by
  have n : Json.Ok .null := by simp [Json.Ok]
  refine ⟨⟨fun _ => n, fun p => jopt_ok str_ok _, fun _ => n, fun _ => n, fun _ => n, fun _ => n, fun _ => ?_, fun _ => n, fun _ => n, ?_, fun _ => n, fun _ => n,
    fun _ => n, fun _ => n, fun _ => n⟩, ?_, ⟨fun _ _ _ => rfl, fun a b h => ?_, fun _ _ _ => rfl, fun _ _ _ => rfl, fun _ _ _ => rfl, fun _ _ _ => rfl,
    fun _ _ _ => rfl, fun _ _ _ => rfl, fun _ _ _ => rfl, fun _ _ _ => rfl, fun _ _ _ => rfl, fun _ _ _ => rfl, fun _ _ _ => rfl, fun _ _ _ => rfl⟩, ?_, ?_⟩
  · simp [styleLeaves, fieldsOk, n]
  · simp [styleLeaves, fieldsOk]
  · intro b f hf
    simp only [styleLeaves, List.mem_singleton] at hf
    subst hf
    simp only []
    decide
  · simp only [styleBlur, jopt_str_inj h]
  · simp only [List.mem_cons, List.not_mem_nil, or_false, forall_eq_or_imp, forall_eq]
    decide
  · simp [fieldsOk, Json.Ok, allOk, jnat_ok]

/-- A run whose text has a quote, a backslash and a control character. -/
def quoted : Run := (Run.addText {} ['a', '"', '\\', Char.ofNat 1, 'é']).addTab.addDeleteText c!"gone"

/-- Its texts. -/
example : keptTexts (ofRun quoted).document = [c!"a&quot;" ++ ['\\', Char.ofNat 1, 'é'], c!"gone"] := by decide +kernel

/-- The printer escapes what has to be escaped. -/
example : jsonStr ['a', '"', '\\', Char.ofNat 1, '\n', 'é'] = c!"\"a\\\"\\\\\\u0001\\né\"" := by decide +kernel

/-- Documents with different texts, or with different styles, are told apart. -/
example : blurDocument .leaves (ofRun (Run.addText {} c!"x")).document ≠ blurDocument .leaves (ofRun (Run.addText {} c!"y")).document := by
  intro h
  have := congrArg keptTexts h
  exact absurd this (by decide +kernel)

/-- The whole file of C61 meets the hypotheses of `C75_read_back`. -/
example : ∃ d es, Sendable wholeCalls d anEnv ∧ Packed anEnv d {} es ∧ d.document.children = (bodyOf exampleBody).children ∧
    KeptItems exampleBody ∧ bodyComments d.document = [] ∧ (∀ l, Call.commentsExtended l ∉ wholeCalls) := by
  obtain ⟨d, es, h1, h2, h3, h4, h5, h6, _⟩ := whole_example
  exact ⟨d, es, h1, h2, h3, h4, h5, h6⟩

end Docx.Props
