import Verif.Lemmas.Instr
import Verif.Lemmas.PartReads
import Verif.Props.C07_C08_Strings

/-!
# C30: instructions of tables of contents survive writing and reading
-/

namespace Docx.Props

open Docx Docx.Spec Docx.Xml

set_option linter.unusedSimpArgs false

/-- What reading the instruction gives: everything, except that a lone `\f` at the end is lost and that an empty
identifier is read as no identifier. -/
def tocRead (i : InstrToC) : InstrToC :=
  { i with tcFieldIdentifier :=
      if LoneF i then none else if i.tcFieldIdentifier = some (some []) then some none else i.tcFieldIdentifier }

/-- **C30.** Parsing the instruction text that is written. -/
theorem C30_parse (i : InstrToC) (h : TocReadable i) : InstrToC.fromStr i.text = tocRead i := by
  rw [toc_text, toc_reads (.inl rfl) i h, readF_eq]
  rfl

/-- **C30.** Parsing gives the same instruction, when the only two switches that are not kept are not used. -/
theorem C30_parse_partial (i : InstrToC) (h : TocReadable i) (h1 : ¬ LoneF i)
    (h2 : i.tcFieldIdentifier ≠ some (some [])) : InstrToC.fromStr i.text = i := by
  rw [C30_parse i h, tocRead, if_neg h1, if_neg h2]

/-- The two conditions cannot be dropped. -/
theorem C30_parse_iff (i : InstrToC) (h : TocReadable i) :
    InstrToC.fromStr i.text = i ↔ ¬ LoneF i ∧ i.tcFieldIdentifier ≠ some (some []) := by
  refine ⟨fun e => ?_, fun hh => C30_parse_partial i h hh.1 hh.2⟩
  rw [C30_parse i h] at e
  have e2 := congrArg InstrToC.tcFieldIdentifier e
  simp only [tocRead] at e2
  by_cases h1 : LoneF i
  · rw [if_pos h1, h1.1] at e2; cases e2
  · rw [if_neg h1] at e2
    refine ⟨h1, fun h2 => ?_⟩
    rw [if_pos h2, h2] at e2; cases e2

theorem noLess_of_decodes (s : Str) : ∀ o, (decodeFrom o s).isSome → '<' ∉ s := by
  induction s with
  | nil => simp
  | cons c s ih =>
    intro o h
    cases o with
    | none =>
      simp only [decodeFrom] at h
      split at h
      · rename_i hc; subst hc; simpa using ih _ h
      · split at h
        · simp at h
        · rename_i h1 h2
          simp only [Option.isSome_map] at h
          simp only [List.mem_cons, not_or]
          exact ⟨Ne.symm h2, ih _ h⟩
    | some acc =>
      simp only [decodeFrom] at h
      split at h
      · rename_i hc
        subst hc
        cases e : resolveRef acc with
        | none => rw [e] at h; simp at h
        | some ch =>
          rw [e] at h
          simp only [Option.bind_some, Option.isSome_map] at h
          simpa using ih _ h
      · split at h
        · simp at h
        · rename_i h1 h2
          simp only [List.mem_cons, not_or]
          exact ⟨fun e => h2 (.inr e.symm), ih _ h⟩

theorem noLess (i : InstrToC) (hs : ∀ s ∈ i.strings, Stored s) : NoLess i := by
  have key : ∀ s ∈ i.strings, '<' ∉ s := fun s h => noLess_of_decodes s _ (hs s h).1
  simp only [InstrToC.strings, List.mem_append, optS, Option.mem_toList] at key
  constructor
  · exact fun s e => key s (by simp [e])
  · exact fun s e => key s (by simp [e])
  · exact fun s e => key s (by simp [e])
  · exact fun s e => key s (by simp [e])
  · exact fun s e => key s (by simp [e])
  · exact fun s e => key s (by simp [e])
  · exact fun s e => key s (by simp [e])
  · intro s hm
    exact key s.1 (by simp only [List.mem_map]; exact .inl (.inl (.inl (.inl (.inl (.inl (.inr ⟨s, hm, rfl⟩)))))))

/-- **C30.** The instruction in a file: a reader finds one instruction text, and parsing it gives the
instruction. -/
theorem C30_written (i : InstrToC) (h : TocReadable i) (hs : ∀ s ∈ i.strings, Stored s) (g g' : Gen) (out : Str)
    (hb : buildElement (InstrText.build (.toc i)) g = some (.ok out, g')) :
    ∃ t, eventTexts (w c!"instrText") (readEvents out) = [t] ∧ InstrToC.fromStr t = tocRead i := by
  rw [← InstrText_build_flat] at hb
  obtain ⟨f, h1, h2, h3⟩ := buildElement_reads (InstrText.ok _ (show AllS (InstrText.toc i).strings from hs)) hb
  have e1 : w c!"instrText" = splitQName c!"w:instrText" := by decide
  refine ⟨c!"TOC" ++ spaced (tocHead ['"'] i ++ (tocF ['"'] i ++ tocTail ['"'] i)), ?_, ?_⟩
  · rw [h3, e1, eventTexts_tags _ _ h2]
    have : f = [.elem c!"w:instrText" [] [.text i.text]] := by
      have : some ([Node.elem c!"w:instrText" [] [.text i.text]], g) = some (f, g') := h1
      exact ((Prod.mk.inj (Option.some.inj this)).1).symm
    subst this
    have hd : decodeText i.text = _ := toc_decodes i h (noLess i hs)
    simp only [collectForest, Node.collect, List.append_nil]
    rw [textIn, if_pos rfl]
    simp only [plainText, hd, List.append_nil, Option.toList_some]
  · rw [toc_reads (.inr rfl) i h, readF_eq]
    rfl

/-- **C30.** A lone `\f` is lost. -/
theorem C30_fails_lone_f :
    InstrToC.fromStr (InstrToC.text { tcFieldIdentifier := some none }) = {} := by decide

/-- **C30.** The condition on spaces is needed: an argument with a space is cut off, and the rest is read as a
switch. -/
theorem C30_fails_space :
    InstrToC.fromStr (InstrToC.text { captionLabel := some c!"List of \\h figures" }) =
      { captionLabel := some c!"List", hyperlink := true } := by decide

/-- **C30.** The condition on commas is needed: the name of a style is cut off, and what follows is lost. -/
theorem C30_fails_comma :
    InstrToC.fromStr (InstrToC.text { stylesWithLevels := [(c!"A", 1), (c!"Title,x", 2), (c!"B", 3)] }) =
      { stylesWithLevels := [(c!"A", 1)] } := by decide

theorem tcPieces_text : ∀ (n : Nat) (l : List Str) (t : InstrTC), l.length ≤ n → (tcPieces l t).text = t.text := by
  intro n
  induction n with
  | zero => intro l t h; cases l with
    | nil => rfl
    | cons a l => simp at h
  | succ n ih =>
    intro l t h
    match l with
    | [] => rfl
    | [i] => rw [tcPieces]; split <;> rfl
    | i :: r :: s =>
      simp only [List.length_cons] at h
      rw [tcPieces]
      split
      · rw [ih _ _ (by omega)]
      · split
        · rw [ih _ _ (by omega)]
        · split
          · rw [ih _ _ (by simp; omega)]
          · rw [ih _ _ (by simp; omega)]

/-- **C30.** For entries of a table of contents the text is never read: whatever was written, the text is `TC`. -/
theorem C30_entry_text_lost (i : InstrTC) : (InstrTC.fromStr i.instr).text = c!"TC" := by
  have : ∃ r, i.instr = c!"TC" ++ ' ' :: r := ⟨_, by simp only [InstrTC.instr, List.append_assoc]; rfl⟩
  obtain ⟨r, e⟩ := this
  rw [InstrTC.fromStr, e, splitOn_cons _ _ _ (by decide)]
  simp only
  rw [tcPieces_text _ _ _ (Nat.le_refl _)]
  decide

/-- The theorems apply to an instruction with every switch. -/
def tocSample : InstrToC :=
  { captionLabel := some c!"Figure", entryBookmarkName := some c!"b", captionLabelIncludingNumbers := some c!"t",
    sequenceAndPageNumbersSeparator := some c!"-", tcFieldIdentifier := some none, tcFieldLevelRange := some (1, 3),
    omitPageNumbersLevelRange := some (2, 4), headingStylesRange := some (1, 9), entryAndPageNumberSeparator := some [],
    seqFieldIdentifierForPrefix := some c!"\\h", stylesWithLevels := [(c!"A", 1), (c!"Título", 20)], hyperlink := true,
    useAppliedParagraphLineLevel := true, preserveTab := true, preserveNewLine := true,
    hideTabAndPageNumbersInWebview := true }

theorem C30_example : TocReadable tocSample ∧ (∀ s ∈ tocSample.strings, Stored s) ∧ ¬ LoneF tocSample ∧
    InstrToC.fromStr tocSample.text = tocSample ∧
    tocSample.text = c!"TOC \\a &quot;Figure&quot; \\b &quot;b&quot; \\c &quot;t&quot; \\d &quot;-&quot; \\f \\l &quot;1-3&quot; \\n &quot;2-4&quot; \\o &quot;1-9&quot; \\p &quot;&quot; \\s &quot;\\h&quot; \\t &quot;A,1,Título,20&quot; \\h \\u \\w \\x \\z" := by
  have h : TocReadable tocSample := by
    unfold tocSample
    constructor <;> intro s e <;> first | (simp only [Option.some.injEq, reduceCtorEq] at e; done) | (simp only [Option.some.injEq, reduceCtorEq] at e; subst e; (first | (unfold PlainArg; decide) | decide)) | skip
    revert s
    unfold PlainArg
    decide
  exact ⟨h, by decide +kernel, by decide, C30_parse_partial _ h (by decide) (by decide), by decide +kernel⟩

end Docx.Props
