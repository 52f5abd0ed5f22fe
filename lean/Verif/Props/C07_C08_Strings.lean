import Verif.Lemmas.PartReads
import Verif.Lemmas.Collectors
import Verif.Model.Api

/-!
# C07, C08: user text and user attribute values

`Spec/Strings.lean` lists the strings a part copies into the file and says which of them are safe to copy
(`Stored`). `Spec/Reading.lean` says what a reader finds in the text of a part. `Spec/DocXml.lean` is the
element tree a part should consist of.
-/

namespace Docx.Props

open Docx Docx.Spec Docx.Xml

/-- The name of text elements. -/
abbrev wT : QName := ⟨some c!"w", c!"t"⟩
/-- The name of deleted text elements. -/
abbrev wDelText : QName := ⟨some c!"w", c!"delText"⟩
/-- Any name with the prefix `w`. -/
abbrev w (s : Str) : QName := ⟨some c!"w", s⟩

theorem wT_eq : wT = splitQName c!"w:t" := by decide
theorem wDelText_eq : wDelText = splitQName c!"w:delText" := by decide

/-- What is left of a text after `add_text`: line feeds and carriage returns are dropped. -/
def visibleText (s : Str) : Str := s.filter fun c => c ≠ '\n' && c ≠ '\r'

/-- What a reader makes of a string written as an attribute value: carriage returns are dropped and tabs are
read as spaces. -/
def attrValue (s : Str) : Str := (s.filter (· ≠ '\r')).map fun c => if c = '\t' then ' ' else c

theorem addText_decodes (s : Str) : decodeText (escapeOwned (dropLineFeeds s)) = some (visibleText s) := by
  rw [C03_escape_owned, C01_escape_decodes]
  simp only [dropLineFeeds, List.filter_filter, visibleText]
  congr 2
  funext c
  by_cases h1 : c = '\n' <;> by_cases h2 : c = '\r' <;> simp [h1, h2]

theorem escapeOwned_attr (s : Str) : decodeAttr (escapeOwned s) = some (attrValue s) := by
  rw [C03_escape_owned]; exact C01_escape_attribute s

theorem escapeOwned_stored (s : Str) : Stored (escapeOwned s) := by
  rw [C03_escape_owned]; exact escape_stored s

/-! ## C07 -/

/-- The decoded texts of the run content. -/
def childText : RunChild → List Str
  | .text t => (decodeText t).toList
  | _ => []

theorem collect_childText (c : RunChild) (g f g') (h : c.nodes g = some (f, g')) :
    collectForest (textIn c!"w:t") f = childText c := by
  cases c with
  | text t =>
    simp only [RunChild.nodes, emitN, Option.some.injEq, Prod.mk.injEq] at h
    rw [← h.1]
    simp only [childText, collectForest, Node.collect, textIn, if_true, plainText, List.append_nil]
    cases decodeText t <;> simp
  | _ => exact RunChild.collect_nil (textIn_onName _) (by decide) _ (by simp only [RunChild.contentNames]; decide) _ _ _ h

theorem collect_childTexts (cs : List RunChild) : ∀ g f g', eachN RunChild.nodes cs g = some (f, g') →
    collectForest (textIn c!"w:t") f = cs.flatMap childText := by
  induction cs with
  | nil =>
    intro g f g' h
    simp only [eachN, emitN, Option.some.injEq, Prod.mk.injEq] at h
    rw [← h.1]; rfl
  | cons c cs ih =>
    intro g f g' h
    simp only [eachN, N.thenN] at h
    split at h
    · exact absurd h (by simp)
    · rename_i f1 g1 e1
      split at h
      · exact absurd h (by simp)
      · rename_i f2 g2 e2
        simp only [Option.some.injEq, Prod.mk.injEq] at h
        rw [← h.1, collectForest_append, collect_childText c _ _ _ e1, ih _ _ _ e2, List.flatMap_cons]

theorem collect_runText (r : Run) (g f g') (h : r.nodes g = some (f, g')) :
    collectForest (textIn c!"w:t") f = r.children.flatMap childText := by
  simp only [Run.nodes, elemN, catN, N.thenN] at h
  split at h
  · exact absurd h (by simp)
  · rename_i cs g1 e
    simp only [Option.some.injEq, Prod.mk.injEq] at h
    rw [← h.1]
    split at e
    · exact absurd e (by simp)
    · rename_i f1 g2 e1
      split at e
      · exact absurd e (by simp)
      · rename_i f2 g3 e2
        simp only [Option.some.injEq, Prod.mk.injEq] at e
        split at e2
        · exact absurd e2 (by simp)
        · rename_i f3 g4 e3
          simp only [emitN, Option.some.injEq, Prod.mk.injEq] at e2
          have hq := collectForest_quiet (textIn c!"w:t") ((textIn_onName c!"w:t").quiet (by decide)) f1
            (r.property.quiet _ _ _ e1)
          have hc := collect_childTexts _ _ _ _ e3
          have e0 : textIn c!"w:t" c!"w:r" [] cs = [] := rfl
          simp only [collectForest, Node.collect, List.append_nil, e0, List.nil_append]
          rw [← e.1, collectForest_append, hq, ← e2.1, collectForest_append, hc]
          simp [collectForest]

/-- **C07.** The texts a reader finds in a written run are exactly the texts of the run, in order, each in
an element of its own. -/
theorem C07_run_texts (r : Run) (hs : ∀ s ∈ r.strings, Stored s) (g g' : Gen) (out : Str)
    (h : buildElement r.build g = some (.ok out, g')) :
    eventTexts wT (readEvents out) = r.children.flatMap childText := by
  rw [← Run_build_flat] at h
  obtain ⟨f, h1, h2, h3⟩ := buildElement_reads (r.ok hs) h
  rw [h3, wT_eq, eventTexts_tags _ _ h2]
  exact collect_runText r _ _ _ h1

/-- **C07.** After `add_text(s)` a reader finds one more text at the end of the run: `s` without its line
feeds and carriage returns and otherwise unchanged, for every string `s`. -/
theorem C07_add_text (r : Run) (s : Str) (hs : ∀ s ∈ r.strings, Stored s) (g g' : Gen) (out : Str)
    (h : buildElement (r.addText s).build g = some (.ok out, g')) :
    eventTexts wT (readEvents out) = r.children.flatMap childText ++ [visibleText s] := by
  have hs' : ∀ x ∈ (r.addText s).strings, Stored x := by
    intro x hx
    simp only [Run.addText, Run.strings, List.flatMap_append, List.mem_append] at hx hs
    rcases hx with hx | hx | hx
    · exact hs x (.inl hx)
    · exact hs x (.inr hx)
    · simp only [List.flatMap_cons, List.flatMap_nil, List.append_nil, RunChild.strings, List.mem_singleton] at hx
      rw [hx]; exact escapeOwned_stored _
  rw [C07_run_texts _ hs' g g' out h]
  simp [Run.addText, List.flatMap_append, childText, addText_decodes]

/-- A run holding the given texts. -/
def runOf (ss : List Str) : Run := ss.foldl Run.addText {}

theorem foldl_addText_children (ss : List Str) (r : Run) :
    (ss.foldl Run.addText r).children = r.children ++ ss.map fun s => .text (escapeOwned (dropLineFeeds s)) := by
  induction ss generalizing r with
  | nil => simp
  | cons s ss ih => simp [ih, Run.addText]
theorem foldl_addText_property (ss : List Str) (r : Run) :
    (ss.foldl Run.addText r).property = r.property := by
  induction ss generalizing r with
  | nil => rfl
  | cons s ss ih => simp only [List.foldl_cons, ih]; rfl

theorem runOf_eq (ss : List Str) :
    runOf ss = { children := ss.map fun s => .text (escapeOwned (dropLineFeeds s)) } := by
  have h1 := foldl_addText_children ss {}
  have h2 := foldl_addText_property ss {}
  unfold runOf
  generalize ss.foldl Run.addText {} = r at *
  cases r
  simp_all

/-- **C07.** `add_text` called any number of times on a new run: writing it succeeds, and a reader finds the
texts, in order, and no others. -/
theorem C07_add_texts (ss : List Str) (g : Gen) :
    ∃ out g', buildElement (runOf ss).build g = some (.ok out, g') ∧
      eventTexts wT (readEvents out) = ss.map visibleText := by
  have hs : ∀ x ∈ (runOf ss).strings, Stored x := by
    intro x hx
    rw [runOf_eq] at hx
    simp only [Run.strings, List.mem_append, List.mem_flatMap, List.mem_map] at hx
    rcases hx with hx | ⟨c, ⟨s, _, rfl⟩, hc⟩
    · have e : ({} : RunProperty).strings = [] := rfl
      rw [e] at hx; simp at hx
    · simp only [RunChild.strings, List.mem_singleton] at hc
      rw [hc]; exact escapeOwned_stored _
  have hw : ∃ f g', (runOf ss).nodes g = some (f, g') := by
    have ht := (runOf ss).total_of_children (by
      intro c hc
      rw [runOf_eq] at hc
      simp only [List.mem_map] at hc
      obtain ⟨s, _, rfl⟩ := hc
      exact fun g => rfl) g
    obtain ⟨⟨f, g'⟩, e⟩ := Option.isSome_iff_exists.1 ht
    exact ⟨f, g', e⟩
  obtain ⟨f, g', e⟩ := hw
  have hb := buildElement_ok e
  rw [Run_build_flat] at hb
  refine ⟨_, _, hb, ?_⟩
  rw [C07_run_texts _ hs _ _ _ hb, runOf_eq]
  simp only [List.flatMap_map, childText, addText_decodes]
  have key : ∀ l : List Str, l.flatMap (fun a => (some (visibleText a)).toList) = l.map visibleText := by
    intro l
    induction l with
    | nil => rfl
    | cons s l ih => rw [List.flatMap_cons, ih]; rfl
  exact key ss

theorem part_texts {n : N} {R : List Str → List Str → Prop} {name : Str} {l : List Str} {sa : Option Bool}
    {g g' : Gen} {out : Str} (hok : OkN n) (hc : Col (textIn name) R n l)
    (h : writePart sa (flat n) g = some (.ok out, g')) :
    R l (eventTexts (splitQName name) (readEvents out)) := by
  obtain ⟨f, h1, h2, h3⟩ := writePart_reads hok h
  rw [h3, eventTexts_tags _ _ h2]
  exact hc _ _ _ h1

theorem part_attrs {n : N} {R : List Str → List Str → Prop} {name attr : Str} {l : List Str} {sa : Option Bool}
    {g g' : Gen} {out : Str} (hok : OkN n) (hc : Col (attrIn name attr) R n l)
    (h : writePart sa (flat n) g = some (.ok out, g')) :
    R l (eventAttrs (splitQName name) (splitQName attr) (readEvents out)) := by
  obtain ⟨f, h1, h2, h3⟩ := writePart_reads hok h
  rw [h3, eventAttrs_tags _ _ _ h2]
  exact hc _ _ _ h1

theorem bodyItems_eq (d : Document) : bodyItems d = here elsewhereBody (walkDocument d) := by
  unfold bodyItems here Walk.within
  congr 2
  funext x
  have key : ∀ l : List Place, inPart l = !l.any elsewhereBody := by
    intro l
    induction l with
    | nil => rfl
    | cons p l ih =>
      rw [List.any_cons, Bool.not_or, ← ih]
      cases p <;> simp [inPart, elsewhereBody]
  exact key _

/-- **C07.** Every text of the body of a document is found, in document order and with its multiplicity, in
the written `word/document.xml` (page number fields and tables of contents add texts of their own). -/
theorem C07_document (d : Document) (hs : ∀ s ∈ d.strings, Stored s) (g g' : Gen) (out : Str)
    (h : d.write g = some (.ok out, g')) :
    ((bodyItems d).flatMap Item.text).Sublist (eventTexts wT (readEvents out)) := by
  rw [Document.write, ← Document_build_flat] at h
  rw [bodyItems_eq, wT_eq]
  exact part_texts (d.ok hs) (gathers_text.document d) h

/-- **C07.** As `C07_document`, for headers. -/
theorem C07_header (x : Header) (hs : ∀ s ∈ x.strings, Stored s) (g g' : Gen) (out : Str)
    (h : x.writeHeader g = some (.ok out, g')) :
    ((headerPartItems x).flatMap Item.text).Sublist (eventTexts wT (readEvents out)) := by
  rw [Header.writeHeader, ← Header_build_flat] at h
  rw [wT_eq]
  exact part_texts (x.ok (by decide) hs) (gathers_text.header (by decide) x [.header] (by rfl)) h

/-- **C07.** As `C07_document`, for footers. -/
theorem C07_footer (x : Header) (hs : ∀ s ∈ x.strings, Stored s) (g g' : Gen) (out : Str)
    (h : x.writeFooter g = some (.ok out, g')) :
    ((footerPartItems x).flatMap Item.text).Sublist (eventTexts wT (readEvents out)) := by
  rw [Header.writeFooter, ← Header_build_flat] at h
  rw [wT_eq]
  exact part_texts (x.ok (by decide) hs) (gathers_text.header (by decide) x [.footer] (by rfl)) h

/-- **C07.** As `C07_document`, for the comments part. -/
theorem C07_comments (cs : List Comment) (hs : ∀ c ∈ cs, ∀ s ∈ c.strings, Stored s) (g g' : Gen) (out : Str)
    (h : writeComments cs g = some (.ok out, g')) :
    ((commentPartItems cs).flatMap Item.text).Sublist (eventTexts wT (readEvents out)) := by
  rw [writeComments, ← commentsB_flat] at h
  rw [wT_eq]
  exact part_texts (commentsN_ok cs hs) (gathers_text.comments (fun _ _ => List.nil_sublist _) cs) h

/-- **C07.** As `C07_document`, for the footnotes part. -/
theorem C07_footnotes (fs : List Footnote) (hs : ∀ c ∈ fs, ∀ s ∈ c.strings, Stored s) (g g' : Gen) (out : Str)
    (h : writeFootnotes fs g = some (.ok out, g')) :
    ((footnotePartItems fs).flatMap Item.text).Sublist (eventTexts wT (readEvents out)) := by
  rw [writeFootnotes, ← footnotesB_flat] at h
  rw [wT_eq]
  exact part_texts (footnotesN_ok fs hs) (gathers_text.footnotes (fun _ _ => List.nil_sublist _) fs) h

/-- **C07.** The deleted texts of the body are exactly the ones found in the written part, in order. -/
theorem C07_document_deleted (d : Document) (hs : ∀ s ∈ d.strings, Stored s) (g g' : Gen) (out : Str)
    (h : d.write g = some (.ok out, g')) :
    eventTexts wDelText (readEvents out) = (bodyItems d).flatMap Item.deletedText := by
  rw [Document.write, ← Document_build_flat] at h
  rw [bodyItems_eq, wDelText_eq]
  exact (part_texts (d.ok hs) (gathers_deletedText.document d) h).symm

/-! ## C08 -/

theorem reads_starts {n : N} {g g' : Gen} {f : List Node} (hok : OkN n) (h : n g = some (f, g')) :
    ∃ out, buildElement (flat n) g = some (.ok out, g') ∧ eventStarts (readEvents out) = collectForest startOf f := by
  have hb := buildElement_ok h
  refine ⟨_, hb, ?_⟩
  obtain ⟨f', h1, h2, h3⟩ := buildElement_reads hok hb
  rw [h] at h1
  simp only [Option.some.injEq, Prod.mk.injEq, and_true] at h1
  rw [h3, eventStarts_tags _ h2, h1]

theorem allS_single {s : Str} (h : Stored s) : AllS [s] := by
  intro x hx; simp only [List.mem_singleton] at hx; rw [hx]; exact h

/-- **C08.** A run style: one `w:rStyle` with one attribute holding the string, for every string. -/
theorem C08_run_style (s : Str) (g : Gen) :
    ∃ out g', buildElement (({} : RunProperty).setStyle s).build g = some (.ok out, g') ∧
      eventStarts (readEvents out) =
        [(w c!"rPr", []), (w c!"rStyle", [(w c!"val", attrValue s)])] := by
  have hok : OkN (({} : RunProperty).setStyle s).nodes :=
    RunProperty.ok _ (fun x hx => allS_single (escapeOwned_stored s) x hx)
  obtain ⟨out, h1, h2⟩ := reads_starts (g := g) hok rfl
  rw [RunProperty_build_flat] at h1
  refine ⟨out, g, h1, h2.trans ?_⟩
  have : expectAttrs [(c!"w:val", escapeOwned s)] = [(w c!"val", attrValue s)] := by
    simp only [expectAttrs, escapeOwned_attr]; rfl
  rw [← this]
  rfl

theorem attrs_val (k : Str) (s : Str) :
    expectAttrs [(k, escapeOwned s)] = [(splitQName k, attrValue s)] := by
  simp only [expectAttrs, escapeOwned_attr]

/-- **C08.** A paragraph style. -/
theorem C08_paragraph_style (s : Str) (g : Gen) :
    ∃ out g', buildElement (({} : ParagraphProperty).setStyle s).build g = some (.ok out, g') ∧
      eventStarts (readEvents out) =
        [(w c!"pPr", []), (w c!"rPr", []), (w c!"pStyle", [(w c!"val", attrValue s)])] := by
  have hok : OkN (({} : ParagraphProperty).setStyle s).nodes :=
    ParagraphProperty.ok _ (fun x hx => allS_single (escapeOwned_stored s) x hx)
  obtain ⟨out, h1, h2⟩ := reads_starts (g := g) hok rfl
  rw [ParagraphProperty_build_flat] at h1
  refine ⟨out, g, h1, h2.trans ?_⟩
  have e : (w c!"val" : QName) = splitQName c!"w:val" := by decide
  rw [e, ← attrs_val]
  rfl

/-- All nine strings of a font set. -/
def fontsOf (a h e c at' ht et ct hi : Str) : RunFonts :=
  ((((((((({} : RunFonts).setAscii a).setHiAnsi h).setEastAsia e).setCs c).setAsciiTheme at').setHiAnsiTheme
    ht).setEastAsiaTheme et).setCsTheme ct).setHint hi

/-- **C08.** The nine font strings. -/
theorem C08_fonts (a h e c at' ht et ct hi : Str) (g : Gen) :
    ∃ out g', buildElement (({} : RunProperty).setFonts (fontsOf a h e c at' ht et ct hi)).build g =
        some (.ok out, g') ∧
      eventStarts (readEvents out) =
        [(w c!"rPr", []), (w c!"rFonts",
          [(w c!"ascii", attrValue a), (w c!"hAnsi", attrValue h), (w c!"cs", attrValue c),
           (w c!"eastAsia", attrValue e), (w c!"asciiTheme", attrValue at'), (w c!"hAnsiTheme", attrValue ht),
           (w c!"cstheme", attrValue ct), (w c!"eastAsiaTheme", attrValue et), (w c!"hint", attrValue hi)])] := by
  have hok : OkN (({} : RunProperty).setFonts (fontsOf a h e c at' ht et ct hi)).nodes := by
    apply RunProperty.ok
    have e0 : (({} : RunProperty).setFonts (fontsOf a h e c at' ht et ct hi)).strings =
      [a, h, e, c, at', ht, et, ct, hi].map escapeOwned := rfl
    rw [e0]
    intro x hx
    obtain ⟨y, _, rfl⟩ := List.mem_map.1 hx
    exact escapeOwned_stored y
  obtain ⟨out, h1, h2⟩ := reads_starts (g := g) hok rfl
  rw [RunProperty_build_flat] at h1
  refine ⟨out, g, h1, h2.trans ?_⟩
  have e0 : expectAttrs [(c!"w:ascii", escapeOwned a), (c!"w:hAnsi", escapeOwned h), (c!"w:cs", escapeOwned c),
      (c!"w:eastAsia", escapeOwned e), (c!"w:asciiTheme", escapeOwned at'), (c!"w:hAnsiTheme", escapeOwned ht),
      (c!"w:cstheme", escapeOwned ct), (c!"w:eastAsiaTheme", escapeOwned et), (c!"w:hint", escapeOwned hi)] =
        [(w c!"ascii", attrValue a), (w c!"hAnsi", attrValue h), (w c!"cs", attrValue c),
           (w c!"eastAsia", attrValue e), (w c!"asciiTheme", attrValue at'), (w c!"hAnsiTheme", attrValue ht),
           (w c!"cstheme", attrValue ct), (w c!"eastAsiaTheme", attrValue et), (w c!"hint", attrValue hi)] := by
    simp only [expectAttrs, escapeOwned_attr]; rfl
  rw [← e0]
  rfl

theorem elem_head {n : N} {name : Str} {as : List (Str × Str)} {m : N} {g g1 g' : Gen} {out : Str} (hok : OkN n)
    (e : n g = elemN name as m g1) (h : buildElement (flat n) g = some (.ok out, g')) :
    (eventStarts (readEvents out)).head? = some (splitQName name, expectAttrs as) := by
  obtain ⟨f, h1, h2, h3⟩ := buildElement_reads hok h
  rw [e] at h1
  unfold elemN at h1
  cases e : m g1 with
  | none => rw [e] at h1; simp at h1
  | some r =>
    rw [e] at h1
    simp only [Option.some.injEq, Prod.mk.injEq] at h1
    rw [h3, eventStarts_tags _ h2, ← h1.1]
    rfl

theorem attrs_revision (id author date : Str) (hi : decodeAttr id = some id) {d : Str} (hd : decodeAttr date = some d) :
    expectAttrs (revisionAttrs id (escapeOwned author) date) =
      [(w c!"id", id), (w c!"author", attrValue author), (w c!"date", d)] := by
  have e1 : splitQName c!"w:id" = w c!"id" := by decide
  have e2 : splitQName c!"w:author" = w c!"author" := by decide
  have e3 : splitQName c!"w:date" = w c!"date" := by decide
  simp only [revisionAttrs, expectAttrs, escapeOwned_attr, hi, hd, e1, e2, e3]

/-- **C08.** The author of an insertion (or of moved-in content, `name = w:moveTo`): whatever the string, the
element has the three revision attributes with that author. -/
theorem C08_insert_author (name : Str) (hn : NameOk name) (i : Insert) (s : Str) (hs : ∀ x ∈ i.strings, Stored x)
    (d : Str) (hd : decodeAttr i.date = some d) (g g' : Gen) (out : Str)
    (h : buildElement ((i.setAuthor s).build name) g = some (.ok out, g')) :
    (eventStarts (readEvents out)).head? = some (splitQName name,
      [(w c!"id", dec g.history), (w c!"author", attrValue s), (w c!"date", d)]) := by
  rw [← Insert_build_flat] at h
  have hok : OkN ((i.setAuthor s).nodes name) := Insert.ok hn _ (by
    intro x hx
    simp only [Insert.setAuthor, Insert.strings, List.mem_cons] at hx hs
    rcases hx with rfl | hx
    · exact escapeOwned_stored s
    · exact hs x (.inr hx))
  rw [← attrs_revision (dec g.history) s i.date (decodeAttr_dec _) hd]
  exact elem_head hok rfl h

/-- **C08.** The author of a deletion (or of moved-away content, `name = w:moveFrom`). -/
theorem C08_delete_author (name : Str) (hn : NameOk name) (i : Delete) (s : Str) (hs : ∀ x ∈ i.strings, Stored x)
    (d : Str) (hd : decodeAttr i.date = some d) (g g' : Gen) (out : Str)
    (h : buildElement ((i.setAuthor s).build name) g = some (.ok out, g')) :
    (eventStarts (readEvents out)).head? = some (splitQName name,
      [(w c!"id", dec g.history), (w c!"author", attrValue s), (w c!"date", d)]) := by
  rw [← Delete_build_flat] at h
  have hok : OkN ((i.setAuthor s).nodes name) := Delete.ok hn _ (by
    intro x hx
    simp only [Delete.setAuthor, Delete.strings, List.mem_cons] at hx hs
    rcases hx with rfl | hx
    · exact escapeOwned_stored s
    · exact hs x (.inr hx))
  rw [← attrs_revision (dec g.history) s i.date (decodeAttr_dec _) hd]
  exact elem_head hok rfl h

/-- **C08.** The author of a change of paragraph properties. -/
theorem C08_change_author (s date : Str) (p : ParagraphProperty) (hs : ∀ x ∈ p.strings, Stored x) (hst : Stored date)
    (d : Str) (hd : decodeAttr date = some d) (g g' : Gen) (out : Str)
    (h : buildElement (ParagraphPropertyChange.new s date p).build g = some (.ok out, g')) :
    (eventStarts (readEvents out)).head? = some (w c!"pPrChange",
      [(w c!"id", dec g.change), (w c!"author", attrValue s), (w c!"date", d)]) := by
  rw [← ParagraphPropertyChange_build_flat] at h
  have hok : OkN (ParagraphPropertyChange.new s date p).nodes := ParagraphPropertyChange.ok _ (by
    intro x hx
    simp only [ParagraphPropertyChange.new, ParagraphPropertyChange.strings, List.mem_cons] at hx
    rcases hx with rfl | rfl | hx
    · exact escapeOwned_stored s
    · exact hst
    · exact hs x hx)
  rw [← attrs_revision (dec g.change) s date (decodeAttr_dec _) hd]
  exact elem_head hok rfl h

/-- **C08.** The author of an inserted or deleted paragraph mark or table row. -/
theorem C08_mark_author (name : Str) (hn : NameOk name) (s date : Str) (hst : Stored date)
    (d : Str) (hd : decodeAttr date = some d) (g g' : Gen) (out : Str)
    (h : buildElement ((Mark.new s date).build name) g = some (.ok out, g')) :
    eventStarts (readEvents out) = [(splitQName name,
      [(w c!"id", dec g.history), (w c!"author", attrValue s), (w c!"date", d)])] := by
  rw [← Mark_build_flat] at h
  have hok : OkN ((Mark.new s date).nodes name) := Mark.ok hn _ (by
    intro x hx
    simp only [Mark.new, Mark.strings, List.mem_cons, List.not_mem_nil, or_false] at hx
    rcases hx with rfl | rfl
    · exact escapeOwned_stored s
    · exact hst)
  obtain ⟨f, h1, h2, h3⟩ := buildElement_reads hok h
  rw [h3, eventStarts_tags _ h2, ← attrs_revision (dec g.history) s date (decodeAttr_dec _) hd]
  simp only [Mark.nodes, withHistoryN, emitN, Option.some.injEq, Prod.mk.injEq] at h1
  rw [← h1.1]
  rfl

/-- What the escaping setters do to the strings of a value: nothing becomes unsafe, whatever string is passed. -/
theorem C08_escaping_setters (s t : Str) :
    (∀ r : Run, (∀ x ∈ r.strings, Stored x) → ∀ x ∈ (r.addText s).strings, Stored x) ∧
    (∀ r : Run, (∀ x ∈ r.strings, Stored x) → ∀ x ∈ (r.addDeleteText s).strings, Stored x) ∧
    (∀ r : RunProperty, (∀ x ∈ r.strings, Stored x) → ∀ x ∈ (r.setStyle s).strings, Stored x) ∧
    (∀ i : Insert, (∀ x ∈ i.strings, Stored x) → ∀ x ∈ (i.setAuthor s).strings, Stored x) ∧
    (∀ i : Delete, (∀ x ∈ i.strings, Stored x) → ∀ x ∈ (i.setAuthor s).strings, Stored x) ∧
    (∀ p : ParagraphProperty, (∀ x ∈ p.strings, Stored x) → ∀ x ∈ (p.setStyle s).strings, Stored x) ∧
    (Stored t → ∀ x ∈ (Mark.new s t).strings, Stored x) ∧
    (∀ x ∈ (InstrTC.new s).strings, Stored x) ∧
    (∀ t : Toc, (∀ x ∈ t.strings, Stored x) → ∀ d, Stored d → ∀ x ∈ (t.setDelete s d).strings, Stored x) := by
  refine ⟨?_, ?_, ?_, ?_, ?_, ?_, ?_, ?_, ?_⟩
  · intro r h x hx
    simp only [Run.addText, Run.strings, List.flatMap_append, List.flatMap_cons, List.flatMap_nil, RunChild.strings,
      List.mem_append, List.mem_singleton, List.not_mem_nil, or_false] at hx h
    rcases hx with hx | hx | rfl
    · exact h x (.inl hx)
    · exact h x (.inr hx)
    · exact escapeOwned_stored _
  · intro r h x hx
    simp only [Run.addDeleteText, Run.strings, List.flatMap_append, List.flatMap_cons, List.flatMap_nil, RunChild.strings,
      List.mem_append, List.mem_singleton, List.not_mem_nil, or_false] at hx h
    rcases hx with hx | hx | rfl
    · exact h x (.inl hx)
    · exact h x (.inr hx)
    · exact escapeOwned_stored _
  · intro r h x hx
    simp only [RunProperty.setStyle, RunProperty.strings, optS, Option.toList, List.mem_append, List.mem_singleton] at hx h
    grind [escapeOwned_stored]
  · intro i h x hx
    simp only [Insert.setAuthor, Insert.strings, List.mem_cons] at hx h
    rcases hx with rfl | hx
    · exact escapeOwned_stored s
    · exact h x (.inr hx)
  · intro i h x hx
    simp only [Delete.setAuthor, Delete.strings, List.mem_cons] at hx h
    rcases hx with rfl | hx
    · exact escapeOwned_stored s
    · exact h x (.inr hx)
  · intro p h x hx
    obtain ⟨b, c⟩ := p
    simp only [ParagraphProperty.setStyle, ParagraphProperty.upd, ParagraphProperty.strings, ParagraphBase.strings, optS,
      Option.toList, List.mem_append, List.mem_singleton] at hx h
    grind [escapeOwned_stored]
  · intro h x hx
    simp only [Mark.new, Mark.strings, List.mem_cons, List.not_mem_nil, or_false] at hx
    rcases hx with rfl | rfl
    · exact escapeOwned_stored s
    · exact h
  · intro x hx
    simp only [InstrTC.new, InstrTC.strings, optS, Option.toList, List.mem_cons, List.not_mem_nil, or_false] at hx
    rw [hx]; exact escapeOwned_stored s
  · intro t h d hd x hx
    obtain ⟨instr, items, au, dirty, withoutSdt, alias, placeholder, before, after, delete, property⟩ := t
    simp only [Toc.setDelete, Toc.strings, optStrings, List.mem_append, List.mem_singleton] at hx h
    grind

/-- **C08.** `word/document.xml` reads back as exactly the elements of the document with exactly their
attributes and texts (decoded), whatever the strings are, as long as they are safe to copy. Every string
that goes through an escaping setter is (`C08_escaping_setters`). -/
theorem C08_document (d : Document) (hs : ∀ s ∈ d.strings, Stored s) (g g' : Gen) (out : Str)
    (h : d.write g = some (.ok out, g')) :
    ∃ tree, d.nodes g = some (tree, g') ∧ readEvents out = expect [] none (tagsForest tree) := by
  rw [Document.write, ← Document_build_flat] at h
  obtain ⟨f, h1, _, h3⟩ := writePart_reads (d.ok hs) h
  exact ⟨f, h1, h3⟩

/-- **C08.** As `C08_document`, for headers. -/
theorem C08_header (x : Header) (hs : ∀ s ∈ x.strings, Stored s) (g g' : Gen) (out : Str)
    (h : x.writeHeader g = some (.ok out, g')) :
    ∃ tree, x.nodes c!"w:hdr" g = some (tree, g') ∧ readEvents out = expect [] none (tagsForest tree) := by
  rw [Header.writeHeader, ← Header_build_flat] at h
  obtain ⟨f, h1, _, h3⟩ := writePart_reads (x.ok (by decide) hs) h
  exact ⟨f, h1, h3⟩

/-- **C08.** As `C08_document`, for footers. -/
theorem C08_footer (x : Header) (hs : ∀ s ∈ x.strings, Stored s) (g g' : Gen) (out : Str)
    (h : x.writeFooter g = some (.ok out, g')) :
    ∃ tree, x.nodes c!"w:ftr" g = some (tree, g') ∧ readEvents out = expect [] none (tagsForest tree) := by
  rw [Header.writeFooter, ← Header_build_flat] at h
  obtain ⟨f, h1, _, h3⟩ := writePart_reads (x.ok (by decide) hs) h
  exact ⟨f, h1, h3⟩

/-- **C08.** As `C08_document`, for the comments part. -/
theorem C08_comments (cs : List Comment) (hs : ∀ c ∈ cs, ∀ s ∈ c.strings, Stored s) (g g' : Gen) (out : Str)
    (h : writeComments cs g = some (.ok out, g')) :
    ∃ tree, commentsN cs g = some (tree, g') ∧ readEvents out = expect [] none (tagsForest tree) := by
  rw [writeComments, ← commentsB_flat] at h
  obtain ⟨f, h1, _, h3⟩ := writePart_reads (commentsN_ok cs hs) h
  exact ⟨f, h1, h3⟩

/-- **C08.** As `C08_document`, for the footnotes part. -/
theorem C08_footnotes (fs : List Footnote) (hs : ∀ c ∈ fs, ∀ s ∈ c.strings, Stored s) (g g' : Gen) (out : Str)
    (h : writeFootnotes fs g = some (.ok out, g')) :
    ∃ tree, footnotesN fs g = some (tree, g') ∧ readEvents out = expect [] none (tagsForest tree) := by
  rw [writeFootnotes, ← footnotesB_flat] at h
  obtain ⟨f, h1, _, h3⟩ := writePart_reads (footnotesN_ok fs hs) h
  exact ⟨f, h1, h3⟩

/-! ### Fields that are copied without escaping

The following setters store the string as it is; a hostile or just unlucky value changes the elements of the
part or makes it unreadable. -/

/-- What is written for `b`, as the reader sees it. -/
def readBack (b : B) : List REvent :=
  match buildElement b {} with
  | some (.ok out, _) => readEvents out
  | _ => []

/-- **C08 fails for the author of a comment**: the string can add an attribute. -/
theorem C08_comment_author_injects :
    eventStarts (readBack ((Comment.new 1).setAuthor c!"Ann\" w:extra=\"1").build) =
      [(w c!"comment", [(w c!"id", c!"1"), (w c!"author", c!"Ann"), (w c!"extra", c!"1"),
        (w c!"date", c!"1970-01-01T00:00:00Z"), (w c!"initials", [])])] := by decide

/-- **C08 fails for raw fields**: with a value such as `R&D "x"` the written element cannot be read. These are
comment authors and dates, revision dates, bookmark names, hyperlink anchors, aliases of content controls,
colours, highlights, underlines, symbols, table styles and free instruction texts. -/
theorem C08_raw_fields_unreadable :
    ∀ b ∈ [((Comment.new 1).setAuthor c!"R&D \"x\"").build,
           ((Comment.new 1).setDate c!"R&D \"x\"").build,
           (({} : Insert).setDate c!"R&D \"x\"").build c!"w:ins",
           (({} : Delete).setDate c!"R&D \"x\"").build c!"w:del",
           (ParagraphChild.bookmarkStart 1 c!"R&D \"x\"").build,
           (Hyperlink.new 1 c!"R&D \"x\"" .anchor).build,
           (({} : Sdt).setAlias c!"R&D \"x\"").build,
           (({} : RunProperty).setColor c!"R&D \"x\"").build,
           (({} : RunProperty).setHighlight c!"R&D \"x\"").build,
           (({} : RunProperty).setUnderline c!"R&D \"x\"").build,
           (({} : Run).addSym c!"R&D \"x\"" c!"F04A").build,
           (({} : Run).addInstrText (.unsupported c!"R&D \"x\"")).build],
      REvent.error ∈ readBack b := by decide

/-! Concrete cases. -/

/-- A document with one text given through the API. -/
def oneText (s : Str) : Document := ({} : Document).addParagraph ((Paragraph.new c!"00000001").addRun (({} : Run).addText s))

/-- The hypothesis of the document theorems holds for it whatever the text is. -/
theorem oneText_stored (s : Str) : ∀ x ∈ (oneText s).strings, Stored x := by
  intro x hx
  have e : (oneText s).strings = [c!"00000001", escapeOwned (dropLineFeeds s), c!"lrTb"] := rfl
  rw [e] at hx
  simp only [List.mem_cons, List.not_mem_nil, or_false] at hx
  rcases hx with rfl | rfl | rfl
  · exact stored_lit (by decide)
  · exact escapeOwned_stored _
  · exact stored_lit (by decide)

/-- Whatever the text is, the document is written and the reader finds it. -/
theorem C07_one_text (s : Str) (g : Gen) :
    ∃ out g', (oneText s).write g = some (.ok out, g') ∧ visibleText s ∈ eventTexts wT (readEvents out) := by
  have h := C45_document (oneText s) g
  have hw : supported elsewhereBody (walkDocument (oneText s)) = true := rfl
  simp only [WritesElement, hw, if_true] at h
  obtain ⟨as, cs, g', h1, _⟩ := h
  refine ⟨_, g', h1, ?_⟩
  have h2 := C07_document (oneText s) (oneText_stored s) g g' _ h1
  apply h2.subset
  have e : (bodyItems (oneText s)).flatMap Item.text = (decodeText (escapeOwned (dropLineFeeds s))).toList := by
    have : (bodyItems (oneText s)).flatMap Item.text = (decodeText (escapeOwned (dropLineFeeds s))).toList ++ [] := rfl
    rw [this, List.append_nil]
  rw [e, addText_decodes]
  simp

example : eventTexts wT (readBack (runOf [c!"a < b", c!"", c!"]]>&amp;\n\"'"]).build) =
    [c!"a < b", c!"", c!"]]>&amp;\"'"] := by decide
example : Stored c!"1970-01-01T00:00:00Z" := stored_lit (by decide)
example : eventStarts (readBack ((({} : Insert).setAuthor c!"R&D \"x\"").build c!"w:ins")) =
    [(w c!"ins", [(w c!"id", c!"0"), (w c!"author", c!"R&D \"x\""), (w c!"date", c!"1970-01-01T00:00:00Z")])] := by
  decide

end Docx.Props
