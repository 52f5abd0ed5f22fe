import Verif.Lemmas.ReadEnds

/-!
# C63, C64: reading ends, and where it panics
-/

namespace Docx.Props

open Docx Docx.Spec Docx.Xml

/-- **C63.** Reading an archive ends, whatever is in it and however it is nested, if its texts are well-formed XML, its parts for
relationships have `Relationships` as their root and its parts for styles `styles`: from some number of steps on it gives a document, an
error or a panic. -/
theorem C63_ends (e : FileEnv) (es : List Entry) (h : Tidy es) : ∃ k, ∀ n, k ≤ n → readDocx e n es ≠ .running := by
  obtain ⟨k, hk⟩ := comes_docx e h
  refine ⟨k, fun n hn hr => ?_⟩
  have := hk n hn
  rw [hr] at this
  exact this

/-- **C64.** If moreover every declaration of a content type has two attributes, every element of the kinds the readers take the first
attribute of has one, widths are numbers, and comments and their records have their ids, then reading does not panic: it gives a document
or an error. -/
theorem C64_no_panic (e : FileEnv) (es : List Entry) (h : Tidy es) (hh : Harmless e.x es) :
    ∃ k, ∀ n, k ≤ n → readDocx e n es = .err ∨ ∃ r, readDocx e n es = .ok r := by
  obtain ⟨k, hk⟩ := comes_docx e h
  refine ⟨k, fun n hn => ?_⟩
  have := hk n hn
  cases hr : readDocx e n es with
  | ok r => exact .inr ⟨r, rfl⟩
  | err => exact .inl rfl
  | panic =>
    rw [hr] at this
    exact absurd hh this
  | running =>
    rw [hr] at this
    exact this.elim

/-! ## Without these conditions -/

theorem run_over {σ : Type} {L : Loop σ} (h : L.atEnd = false) : ∀ (n : Nat) (s : σ), L.run n s [] = .running
  | 0, _ => rfl
  | n + 1, s => by
    unfold Loop.run
    simp only [nextEvent, h]
    exact run_over h n s

theorem run_ended {σ : Type} {L : Loop σ} (h : L.atEnd = false) (n : Nat) (s : σ) : L.run n s [.endDocument] = .running := by
  cases n with
  | zero => rfl
  | succ n =>
    unfold Loop.run
    simp only [nextEvent, h]
    exact run_over h n s

/-- An archive with these relationships of the main document, this main document, and another part. -/
def smallArchive (rels document : Str) (more : List Entry) : List Entry :=
  [⟨c!"[Content_Types].xml", .text c!"<Types/>"⟩, ⟨c!"_rels/.rels", .text c!"<Relationships/>"⟩,
   ⟨c!"word/_rels/document.xml.rels", .text rels⟩, ⟨c!"word/document.xml", .text document⟩] ++ more

theorem small_reads (e : FileEnv) (n : Nat) (es : List Entry) (rels : Str) (t1 : readText es c!"[Content_Types].xml" = some c!"<Types/>")
    (t2 : readText es c!"_rels/.rels" = some c!"<Relationships/>") (t3 : readText es c!"word/_rels/document.xml.rels" = some rels)
    (h : ∀ m, (readRelsXml n c!"word" rels).got = .ok m → readDocxFrom e n es c!"word/document.xml" [] m = .running)
    (hr : (readRelsXml n c!"word" rels).got = .running ∨ ∃ m, (readRelsXml n c!"word" rels).got = .ok m) :
    readDocx e n es = .running := by
  have t4 : contentTypesFromXml c!"<Types/>" = some [] := by decide +kernel
  unfold readDocx
  rw [t1]
  dsimp only [Got.ofOption, Got.bind]
  rw [t4, t2]
  dsimp only [Got.ofOption, Got.bind]
  have he : readEvents c!"<Relationships/>" = [.start ⟨none, c!"Relationships"⟩ [], .«end» ⟨none, c!"Relationships"⟩, .endDocument] := by decide +kernel
  have hp : (readPackageRels n c!"<Relationships/>").got = .running ∨ (readPackageRels n c!"<Relationships/>").got = .ok ⟨[]⟩ := by
    unfold readPackageRels
    rw [he]
    match n with
    | 0 => exact .inl rfl
    | 1 => exact .inl rfl
    | 2 => exact .inl rfl
    | n + 3 => exact .inr rfl
  rcases hp with hp | hp
  · rw [hp]
  · rw [hp]
    dsimp only
    have hc : readCustom e.x n es ⟨[]⟩ = .ok [] := rfl
    have hd : documentPath ⟨[]⟩ = c!"word/document.xml" := rfl
    rw [hc, hd]
    dsimp only
    have hq : readPartRels n es c!"word/document.xml" = (readRelsXml n c!"word" rels).got := by
      unfold readPartRels
      have p1 : pathParent c!"word/document.xml" = some c!"word" := by decide +kernel
      have p2 : relsFileName c!"word/document.xml" = some c!"word/_rels/document.xml.rels" := by decide +kernel
      rw [p1, p2]
      dsimp only [Got.ofOption, Got.bind]
      rw [t3]
    rw [hq]
    rcases hr with hr | ⟨m, hr⟩
    · rw [hr]
    · rw [hr]
      exact h m hr

/-- **C63.** An archive whose part for the relationships of the main document is empty is never read to its end. -/
theorem C63_empty_rels_runs_forever (e : FileEnv) (n : Nat) : readDocx e n (smallArchive [] c!"<w:document/>" []) = .running := by
  have hr : (readRelsXml n c!"word" []).got = .running := by
    have he : readEvents [] = [.endDocument] := by decide +kernel
    unfold readRelsXml
    rw [he, run_ended rfl]
    rfl
  exact small_reads e n _ [] (by decide +kernel) (by decide +kernel) (by decide +kernel) (fun m h => by rw [hr] at h; cases h) (.inl hr)

theorem rels_none (n : Nat) : (readRelsXml n c!"word" c!"<Relationships/>").got = .running ∨ (readRelsXml n c!"word" c!"<Relationships/>").got = .ok [] := by
  have he : readEvents c!"<Relationships/>" = [.start ⟨none, c!"Relationships"⟩ [], .«end» ⟨none, c!"Relationships"⟩, .endDocument] := by decide +kernel
  unfold readRelsXml
  rw [he]
  match n with
  | 0 => exact .inl rfl
  | 1 => exact .inl rfl
  | n + 2 => exact .inr rfl

/-- **C63.** An archive whose main document is cut off in a paragraph is never read to its end. -/
theorem C63_cut_off_runs_forever (e : FileEnv) (n : Nat) :
    readDocx e n (smallArchive c!"<Relationships/>" c!"<w:document><w:body><w:p>" []) = .running := by
  refine small_reads e n _ _ (by decide +kernel) (by decide +kernel) (by decide +kernel) (fun m hm => ?_) ((rels_none n).imp_right fun h => ⟨_, h⟩)
  have hm' : m = [] := by
    rcases rels_none n with h | h
    · exact absurd (h.symm.trans hm) (by simp)
    · exact (Got.ok.inj (h.symm.trans hm)).symm
  subst hm'
  unfold readDocxFrom
  have t : readText (smallArchive c!"<Relationships/>" c!"<w:document><w:body><w:p>" []) c!"word/document.xml" = some c!"<w:document><w:body><w:p>" := by decide +kernel
  rw [t]
  have h1 : (readDocument e.x n c!"<w:document><w:body><w:p>").got = .running := by
    have he : readEvents c!"<w:document><w:body><w:p>" =
      [.start ⟨some c!"w", c!"document"⟩ [], .start ⟨some c!"w", c!"body"⟩ [], .start ⟨some c!"w", c!"p"⟩ [], .endDocument] := by decide +kernel
    have hp : ∀ s, readParagraph e.x (readers e.x n) [] [.endDocument] = s → s = .running := by
      intro s hs
      subst hs
      unfold readParagraph
      exact run_ended rfl _ _
    unfold readDocument
    rw [he]
    have hp' := hp _ rfl
    match n with
    | 0 => rfl
    | 1 => rfl
    | 2 => rfl
    | n + 3 =>
      have : (documentLoop e.x (readers e.x (n + 3))).run (n + 3) {} [.start ⟨some c!"w", c!"document"⟩ [], .start ⟨some c!"w", c!"body"⟩ [],
        .start ⟨some c!"w", c!"p"⟩ [], .endDocument] =
        ((readParagraph e.x (readers e.x (n + 3)) [] [.endDocument]).map ({} : Document).addParagraph).bind fun s es =>
          (documentLoop e.x (readers e.x (n + 3))).run n s es := rfl
      rw [this, hp']
      rfl
  exact congrArg (fun g => Got.bind g _) h1

/-- Relationships with one part for styles. -/
def stylesRels : Str :=
  c!"<Relationships><Relationship Id=\"rId1\" Type=\"http://schemas.openxmlformats.org/officeDocument/2006/relationships/styles\" Target=\"styles.xml\"/></Relationships>"

set_option maxRecDepth 20000 in
theorem rels_styles (n : Nat) : (readRelsXml n c!"word" stylesRels).got = .running ∨
    (readRelsXml n c!"word" stylesRels).got = .ok [(officeType c!"styles", [⟨c!"rId1", c!"word/styles.xml", none⟩])] := by
  have he : readEvents stylesRels = [.start ⟨none, c!"Relationships"⟩ [],
    .start ⟨none, c!"Relationship"⟩ [(⟨none, c!"Id"⟩, c!"rId1"), (⟨none, c!"Type"⟩, officeType c!"styles"), (⟨none, c!"Target"⟩, c!"styles.xml")],
    .«end» ⟨none, c!"Relationship"⟩, .«end» ⟨none, c!"Relationships"⟩, .endDocument] := by decide +kernel
  unfold readRelsXml
  rw [he]
  match n with
  | 0 => exact .inl rfl
  | 1 => exact .inl rfl
  | 2 => exact .inl rfl
  | 3 => exact .inl rfl
  | n + 4 => exact .inr rfl

/-- Where there is nothing but a main document and a part for styles that is read forever. -/
theorem from_styles (e : FileEnv) (n : Nat) (es : List Entry) (m : ReadRels) (part s path t : Str)
    (h1 : m.targets (officeType c!"header") = none) (h2 : m.targets (officeType c!"footer") = none) (h3 : m.targets (officeType c!"theme") = none)
    (h4 : firstTarget m c!"http://schemas.microsoft.com/office/2011/relationships/commentsExtended" = none)
    (h5 : firstTarget m (officeType c!"comments") = none) (h6 : readText es part = some s)
    (h7 : (readDocument e.x n s).got = .running ∨ (readDocument e.x n s).got = .ok {})
    (h8 : firstTarget m (officeType c!"styles") = some ⟨c!"rId1", path, none⟩) (h9 : readText es path = some t)
    (h10 : (readStyles e.x n t).got = .running) : readDocxFrom e n es part [] m = .running := by
  have ho : ∀ {α : Type} (ty : Str) (a : α) (read : Str → Got α), firstTarget m ty = none → readOptional es m ty a read = .ok a := by
    intro α ty a read h
    unfold readOptional
    rw [h]
    rfl
  have hs : ∀ r put, readNeeded es m (officeType c!"styles") r (fun s => (readStyles e.x n s).got) put = .running := by
    intro r put
    unfold readNeeded
    rw [h8]
    dsimp only
    rw [h9]
    dsimp only [Got.ofOption, Got.bind]
    rw [h10]
  unfold readDocxFrom readPartsOf
  rw [h1, h2, h3, ho _ _ _ h4]
  dsimp only [Option.getD, readPartsFrom, readThemesFrom, Got.bind]
  rw [ho _ _ _ h5, h6]
  dsimp only [Got.ofOption]
  rcases h7 with h7 | h7
  · rw [h7]
  · rw [h7]
    dsimp only
    have ha : ∃ r, assignParts e es [] [] { file := { DocxFile.new with custom := [] }.setDocument {} } = .ok r := ⟨_, rfl⟩
    obtain ⟨r, ha⟩ := ha
    rw [ha]
    dsimp only
    rw [hs]

/-- An archive whose part for styles has another root. -/
def otherRoot : List Entry := smallArchive stylesRels c!"<w:document/>" [⟨c!"word/styles.xml", .text c!"<w:other/>"⟩]

set_option maxRecDepth 20000 in
/-- **C63.** An archive whose part for styles does not have `styles` as its root is never read to its end, though all its texts are
well-formed. -/
theorem C63_other_root_runs_forever (e : FileEnv) (n : Nat) : readDocx e n otherRoot = .running := by
  refine small_reads e n otherRoot stylesRels (by decide +kernel) (by decide +kernel) (by decide +kernel) (fun m hm => ?_)
    ((rels_styles n).imp_right fun h => ⟨_, h⟩)
  have hm' : m = [(officeType c!"styles", [⟨c!"rId1", c!"word/styles.xml", none⟩])] := by
    rcases rels_styles n with h | h
    · exact absurd (h.symm.trans hm) (by simp)
    · exact (Got.ok.inj (h.symm.trans hm)).symm
  subst hm'
  refine from_styles e n otherRoot _ _ c!"<w:document/>" c!"word/styles.xml" c!"<w:other/>" (by decide +kernel) (by decide +kernel) (by decide +kernel)
    (by decide +kernel) (by decide +kernel) (by decide +kernel) ?_ (by decide +kernel) (by decide +kernel) ?_
  · clear hm
    have he : readEvents c!"<w:document/>" = [.start ⟨some c!"w", c!"document"⟩ [], .«end» ⟨some c!"w", c!"document"⟩, .endDocument] := by decide +kernel
    unfold readDocument
    rw [he]
    match n with
    | 0 => exact .inl rfl
    | 1 => exact .inl rfl
    | 2 => exact .inl rfl
    | n + 3 => exact .inr rfl
  · clear hm
    have he : readEvents c!"<w:other/>" = [.start ⟨some c!"w", c!"other"⟩ [], .«end» ⟨some c!"w", c!"other"⟩, .endDocument] := by decide +kernel
    unfold readStyles
    rw [he]
    match n with
    | 0 => rfl
    | 1 => rfl
    | n + 2 => exact congrArg Read.got (run_ended (L := stylesLoop e.x (readers e.x (n + 2))) rfl n _)

/-- Whether reading panics. -/
def panics {α : Type} : Got α → Bool
  | .panic => true
  | _ => false

/-- An environment for reading. -/
def aReader : FileEnv := { x := ⟨fun _ => none, fun _ => none, fun _ => none, c!"0"⟩, decode := fun _ => none }

/-- **C64.** Reading panics at an alignment without a value, at a width that is not a number, at a comment without an id, and at a content
type without attributes. -/
theorem C64_panics :
    readDocx aReader 20 (smallArchive c!"<Relationships/>" c!"<w:document><w:body><w:p><w:pPr><w:jc/></w:pPr></w:p></w:body></w:document>" []) = .panic ∧
    readDocx aReader 20 (smallArchive c!"<Relationships/>"
      c!"<w:document><w:body><w:tbl><w:tblPr><w:tblW w:w=\"auto\"/></w:tblPr></w:tbl></w:body></w:document>" []) = .panic ∧
    readDocx aReader 20 (smallArchive
      c!"<Relationships><Relationship Id=\"rId1\" Type=\"http://schemas.openxmlformats.org/officeDocument/2006/relationships/comments\" Target=\"comments.xml\"/></Relationships>"
      c!"<w:document/>" [⟨c!"word/comments.xml", .text c!"<w:comments><w:comment/></w:comments>"⟩]) = .panic ∧
    readDocx aReader 20 [⟨c!"[Content_Types].xml", .text c!"<Types><Default/></Types>"⟩] = .panic := by
  have key : ∀ g : Got ReadFile, panics g = true → g = .panic := by
    intro g h
    cases g <;> first | rfl | cases h
  exact ⟨key _ (by decide +kernel), key _ (by decide +kernel), key _ (by decide +kernel), key _ (by decide +kernel)⟩

end Docx.Props
