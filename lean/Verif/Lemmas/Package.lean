import Mathlib.Data.List.Forall2
import Verif.Model.Docx
import Verif.Lemmas.PackageXml
import Verif.Lemmas.MediaParts
import Verif.Lemmas.PartReads

/-!
# Running the steps of a write
-/

namespace Docx

open Docx.Spec Docx.Xml Docx.Props

/-! ## Parts -/

/-- `p` writes, whatever the generators hold, when `b`; otherwise it panics. It never returns an error. -/
def Part.Good (p : Part) (b : Bool) : Prop :=
  ∀ g, if b then ∃ s g', p g = some (.ok s, g') else p g = none

/-- `p` writes the text `s` and draws no ids. -/
def Part.Const (p : Part) (s : Str) : Prop := ∀ g, p g = some (.ok s, g)

theorem Part.Const.good {p : Part} {s : Str} (h : p.Const s) : p.Good true := fun g => ⟨s, g, h g⟩

theorem tagsPart_const (sa : Option Bool) (f : List Node) :
    (tagsPart sa (tagsForest f)).Const (declaration c!"1.0" (some c!"UTF-8") sa ++ printForest f) := by
  intro g
  simp only [tagsPart, writePart, emit, declarationEvent, C05_declaration]

theorem buildElement_const (f : List Node) : Part.Const (buildElement (emit (tagsForest f))) (printForest f) := by
  intro g
  simp only [buildElement, emit, C05_writes_canonical]

theorem writePart_good {n : N} {b : Bool} (h : Total n b) (sa : Option Bool) : Part.Good (writePart sa (flat n)) b := by
  intro g
  have hb := h g
  cases e : n g with
  | none =>
    rw [e] at hb
    cases b
    · simp [writePart, flat, e]
    · simp at hb
  | some r =>
    obtain ⟨f, g'⟩ := r
    rw [e] at hb
    cases b
    · simp at hb
    · simp only [writePart, flat, e, declarationEvent, C05_declaration, if_true]
      exact ⟨_, _, rfl⟩

theorem buildElement_good {n : N} {b : Bool} (h : Total n b) : Part.Good (buildElement (flat n)) b := by
  intro g
  have hb := h g
  cases e : n g with
  | none =>
    rw [e] at hb
    cases b
    · simp [buildElement, flat, e]
    · simp at hb
  | some r =>
    obtain ⟨f, g'⟩ := r
    rw [e] at hb
    cases b
    · simp at hb
    · simp only [buildElement, flat, e, C05_writes_canonical, if_true]
      exact ⟨_, _, rfl⟩

/-! ## Steps -/

/-- The name of the entry a step makes. -/
def ZipStep.name : ZipStep → Str
  | .directory n => n
  | .write n _ => n
  | .store n _ => n

/-- An entry a step can make. -/
def ZipStep.Fits : ZipStep → Entry → Prop
  | .directory n, e => e = ⟨n, .directory⟩
  | .store n b, e => e = ⟨n, .bytes b⟩
  | .write n p, e => ∃ s g g', e = ⟨n, .text s⟩ ∧ p g = some (.ok s, g')

theorem ZipStep.Fits.name {s : ZipStep} {e : Entry} (h : s.Fits e) : e.name = s.name := by
  cases s with
  | directory n => simp only [ZipStep.Fits] at h; rw [h]; rfl
  | store n b => simp only [ZipStep.Fits] at h; rw [h]; rfl
  | write n p => obtain ⟨s, g, g', rfl, _⟩ := h; rfl

theorem runSteps_fits : ∀ (ss : List ZipStep) (g : Gen) (es : List Entry) (g' : Gen),
    runSteps ss g = some (.ok es, g') → List.Forall₂ ZipStep.Fits ss es
  | [], g, es, g', h => by
    simp only [runSteps, Option.some.injEq, Prod.mk.injEq, Except.ok.injEq] at h
    rw [← h.1]; exact .nil
  | .directory n :: ss, g, es, g', h => by
    simp only [runSteps] at h
    split at h
    · rename_i es1 g1 e
      simp only [Option.some.injEq, Prod.mk.injEq, Except.ok.injEq] at h
      rw [← h.1]
      exact .cons rfl (runSteps_fits ss g es1 g1 e)
    · rename_i h1; exact absurd h (h1 es g')
  | .store n b :: ss, g, es, g', h => by
    simp only [runSteps] at h
    split at h
    · rename_i es1 g1 e
      simp only [Option.some.injEq, Prod.mk.injEq, Except.ok.injEq] at h
      rw [← h.1]
      exact .cons rfl (runSteps_fits ss g es1 g1 e)
    · rename_i h1; exact absurd h (h1 es g')
  | .write n p :: ss, g, es, g', h => by
    simp only [runSteps] at h
    split at h
    · simp at h
    · simp at h
    · rename_i s g1 e0
      split at h
      · rename_i es1 g2 e
        simp only [Option.some.injEq, Prod.mk.injEq, Except.ok.injEq] at h
        rw [← h.1]
        exact .cons ⟨s, g, g1, rfl, e0⟩ (runSteps_fits ss g1 es1 g2 e)
      · rename_i h1; exact absurd h (h1 es g')

theorem fits_names {ss : List ZipStep} {es : List Entry} (h : List.Forall₂ ZipStep.Fits ss es) :
    es.map Entry.name = ss.map ZipStep.name := by
  induction h with
  | nil => rfl
  | cons h _ ih => rw [List.map_cons, List.map_cons, h.name, ih]

/-- `p` writes, whatever the generators hold. -/
def Part.Writes (p : Part) : Prop := ∀ g, ∃ s g', p g = some (.ok s, g')

/-- `p` writes or panics, whatever the generators hold. -/
def Part.Steady (p : Part) : Prop := p.Writes ∨ ∀ g, p g = none

theorem Part.Good.steady {p : Part} {b : Bool} (h : p.Good b) : p.Steady := by
  cases b
  · right; intro g; simpa using h g
  · left; intro g; simpa using h g
theorem Part.Good.writes {p : Part} (h : p.Good true) : p.Writes := fun g => by simpa using h g
theorem Part.Const.writes {p : Part} {s : Str} (h : p.Const s) : p.Writes := fun g => ⟨s, g, h g⟩

theorem Part.Steady.writes {p : Part} (h : p.Steady) {g g' : Gen} {s : Str} (e : p g = some (.ok s, g')) : p.Writes := by
  rcases h with h | h
  · exact h
  · rw [h g] at e; exact absurd e (by simp)

theorem runSteps_writes : ∀ (ss : List ZipStep), (∀ n p, ZipStep.write n p ∈ ss → p.Writes) → ∀ g,
    ∃ es g', runSteps ss g = some (.ok es, g')
  | [], _, g => ⟨[], g, rfl⟩
  | .directory n :: ss, h, g => by
    obtain ⟨es, g', e⟩ := runSteps_writes ss (fun n p hp => h n p (by simp [hp])) g
    simp only [runSteps, e]
    exact ⟨_, _, rfl⟩
  | .store n b :: ss, h, g => by
    obtain ⟨es, g', e⟩ := runSteps_writes ss (fun n p hp => h n p (by simp [hp])) g
    simp only [runSteps, e]
    exact ⟨_, _, rfl⟩
  | .write n p :: ss, h, g => by
    obtain ⟨s, g1, e1⟩ := h n p (by simp) g
    obtain ⟨es, g', e⟩ := runSteps_writes ss (fun n p hp => h n p (by simp [hp])) g1
    simp only [runSteps, e1, e]
    exact ⟨_, _, rfl⟩

theorem runSteps_panics : ∀ (ss : List ZipStep), (∀ n p, ZipStep.write n p ∈ ss → p.Steady) → ∀ g,
    (¬ ∀ n p, ZipStep.write n p ∈ ss → p.Writes) → runSteps ss g = none
  | [], _, g, h => by simp at h
  | .directory n :: ss, hs, g, h => by
    have := runSteps_panics ss (fun n p hp => hs n p (by simp [hp])) g (by simpa using h)
    simp only [runSteps, this]
  | .store n b :: ss, hs, g, h => by
    have := runSteps_panics ss (fun n p hp => hs n p (by simp [hp])) g (by simpa using h)
    simp only [runSteps, this]
  | .write n p :: ss, hs, g, h => by
    rcases hs n p (by simp) with hp | hp
    · obtain ⟨s, g1, e1⟩ := hp g
      have := runSteps_panics ss (fun n p hp => hs n p (by simp [hp])) g1 (fun h' => h fun m q hq => by
        simp only [List.mem_cons, ZipStep.write.injEq] at hq
        rcases hq with ⟨rfl, rfl⟩ | hq
        · exact hp
        · exact h' m q hq)
      simp only [runSteps, e1, this]
    · simp only [runSteps, hp g]

theorem fits_writes {ss : List ZipStep} {es : List Entry} (h : List.Forall₂ ZipStep.Fits ss es)
    (hs : ∀ n p, ZipStep.write n p ∈ ss → p.Steady) : ∀ n p, ZipStep.write n p ∈ ss → p.Writes := by
  induction h with
  | nil => intro n p h; simp at h
  | @cons a b l r h _ ih =>
    intro n p hp
    rcases List.mem_cons.1 hp with rfl | hp'
    · obtain ⟨s, g, g', _, e⟩ := h
      exact (hs n p (by simp)).writes e
    · exact ih (fun n p hp => hs n p (by simp [hp])) n p hp'

/-! ## The numbered parts -/

/-- `sparse`, with the first number. -/
def sparseFrom (i : Nat) (l : List (List (Str × Str))) : List (Nat × List (Str × Str)) :=
  ((l.zipIdx i).map Prod.swap).filter (fun x => decide (x.2 ≠ []))

theorem sparse_eq (l : List (List (Str × Str))) : sparse l = sparseFrom 0 l := rfl

theorem sparseFrom_cons (i : Nat) (o : List (Str × Str)) (l : List (List (Str × Str))) :
    sparseFrom i (o :: l) = if o = [] then sparseFrom (i + 1) l else (i, o) :: sparseFrom (i + 1) l := by
  unfold sparseFrom
  rw [List.zipIdx_cons, List.map_cons, List.filter_cons]
  by_cases h : o = [] <;> simp [h]

theorem sparseFrom_le : ∀ (l : List (List (Str × Str))) (i : Nat), ∀ x ∈ sparseFrom i l, i ≤ x.1
  | [], i, x, h => by simp [sparseFrom] at h
  | o :: l, i, x, h => by
    rw [sparseFrom_cons] at h
    split at h
    · exact Nat.le_of_succ_le (sparseFrom_le l (i + 1) x h)
    · rcases List.mem_cons.1 h with rfl | h
      · exact Nat.le_refl _
      · exact Nat.le_of_succ_le (sparseFrom_le l (i + 1) x h)

/-- The relationships of one numbered part, if it has any. -/
def relSteps (kind : Str) (n : Nat) (o : List (Str × Str)) : List ZipStep :=
  if o = [] then [] else [.write (partRelsName kind n) (imageRelsPart o)]

/-- The numbered parts with their relationships. -/
def numberedSteps (kind : Str) (write : Header → Part) : Nat → List (Header × List (Str × Str)) → List ZipStep
  | _, [] => []
  | i, (h, o) :: l =>
    .write (partName kind (i + 1)) (write h) :: (relSteps kind (i + 1) o ++ numberedSteps kind write (i + 1) l)

theorem partSteps_later (kind : Str) (write : Header → Part) (i : Nat) (h : Header) (hs : List Header)
    (rs : List (Nat × List (Str × Str))) (hr : ∀ x ∈ rs, i < x.1) :
    partSteps kind write i (h :: hs) rs = .write (partName kind (i + 1)) (write h) :: partSteps kind write (i + 1) hs rs := by
  cases rs with
  | nil => rfl
  | cons x rs =>
    obtain ⟨j, r⟩ := x
    have := hr (j, r) (by simp)
    simp only [partSteps]
    rw [if_neg (by simp at this; omega)]

theorem partSteps_eq (kind : Str) (write : Header → Part) : ∀ (hs : List Header) (os : List (List (Str × Str))) (i : Nat),
    hs.length = os.length → partSteps kind write i hs (sparseFrom i os) = numberedSteps kind write i (hs.zip os)
  | [], os, i, _ => by cases os <;> simp [partSteps, numberedSteps]
  | h :: hs, [], i, e => by simp at e
  | h :: hs, o :: os, i, e => by
    have ih := partSteps_eq kind write hs os (i + 1) (by simpa using e)
    have hl := sparseFrom_le os (i + 1)
    rw [sparseFrom_cons, List.zip_cons_cons, numberedSteps, relSteps]
    by_cases ho : o = []
    · rw [if_pos ho, if_pos ho, List.nil_append, partSteps_later kind write i h hs _ hl, ih]
    · rw [if_neg ho, if_neg ho]
      simp only [partSteps, if_true, ih, List.cons_append, List.nil_append]

/-- The text of the relationships of one numbered part. -/
def relText (o : List (Str × Str)) : Str :=
  declaration c!"1.0" (some c!"UTF-8") none ++ printForest (imageRelsN o)

theorem imageRels_const (o : List (Str × Str)) : (imageRelsPart o).Const (relText o) := by
  unfold imageRelsPart
  rw [← imageRels_flat]
  exact tagsPart_const none _

theorem relText_ne (o : List (Str × Str)) : relText o ≠ [] := by
  unfold relText declaration
  simp

theorem buildSparse_spec : ∀ (os : List (List (Str × Str))) (i : Nat) (parts : List Str) (g : Gen), parts.length ≤ i →
    ∃ T, buildSparse parts (sparseFrom i os) g = some (T, g) ∧
      ∀ k, (T[k]?).getD [] = if k < i then (parts[k]?).getD [] else
        ((os[k - i]?).map fun o => if o = [] then [] else relText o).getD []
  | [], i, parts, g, h => by
    refine ⟨parts, by simp [sparseFrom, buildSparse], fun k => ?_⟩
    split
    · rfl
    · rw [List.getElem?_eq_none (by omega)]; simp
  | o :: os, i, parts, g, h => by
    rw [sparseFrom_cons]
    by_cases ho : o = []
    · rw [if_pos ho]
      obtain ⟨T, e, hT⟩ := buildSparse_spec os (i + 1) parts g (by omega)
      refine ⟨T, e, fun k => ?_⟩
      rw [hT]
      by_cases h1 : k < i
      · rw [if_pos h1, if_pos (by omega)]
      · rw [if_neg h1]
        by_cases h2 : k = i
        · subst h2
          rw [if_pos (by omega), List.getElem?_eq_none h]
          simp [ho]
        · rw [if_neg (by omega)]
          have : k - i = (k - (i + 1)) + 1 := by omega
          rw [this, List.getElem?_cons_succ]
    · rw [if_neg ho]
      have hlen : (parts.take i ++ List.replicate (i - parts.length) [] ++ [relText o]).length = i + 1 := by
        simp; omega
      obtain ⟨T, e, hT⟩ := buildSparse_spec os (i + 1)
        (parts.take i ++ List.replicate (i - parts.length) [] ++ [relText o]) g (by omega)
      refine ⟨T, ?_, fun k => ?_⟩
      · simp only [buildSparse, buildPart, imageRels_const o g]
        exact e
      · rw [hT]
        have htake : parts.take i = parts := List.take_of_length_le h
        have hl2 : (parts ++ List.replicate (i - parts.length) ([] : Str)).length = i := by simp; omega
        rw [htake]
        by_cases h1 : k < i
        · rw [if_pos h1, if_pos (by omega), List.getElem?_append_left (by omega)]
          by_cases h3 : k < parts.length
          · rw [List.getElem?_append_left h3]
          · rw [List.getElem?_append_right (by omega), List.getElem?_eq_none (l := parts) (by omega)]
            rw [List.getElem?_replicate]
            split <;> rfl
        · rw [if_neg h1]
          by_cases h2 : k = i
          · subst h2
            rw [if_pos (by omega), List.getElem?_append_right (by omega), hl2]
            simp [ho]
          · rw [if_neg (by omega)]
            have : k - i = (k - (i + 1)) + 1 := by omega
            rw [this, List.getElem?_cons_succ]

/-- A text some part can write. -/
def PartText (p : Part) (s : Str) : Prop := ∃ g g', p g = some (.ok s, g')

theorem zipParts_fits (kind : Str) (write : Header → Part) (T : List Str) :
    ∀ (hs : List Header) (os : List (List (Str × Str))) (ts : List Str) (i : Nat), hs.length = os.length →
      List.Forall₂ (fun h s => PartText (write h) s) hs ts →
      (∀ k, k < os.length → (T[i + k]?).getD [] = ((os[k]?).map fun o => if o = [] then [] else relText o).getD []) →
      List.Forall₂ ZipStep.Fits (numberedSteps kind write i (hs.zip os)) (zipParts kind T i ts)
  | [], os, ts, i, _, h, _ => by cases h; simp only [List.zip_nil_left, numberedSteps, zipParts]; exact .nil
  | h :: hs, [], _, i, e, _, _ => by simp at e
  | h :: hs, o :: os, t :: ts, i, e, .cons ht hts, hT => by
    simp only [List.zip_cons_cons, numberedSteps, zipParts]
    obtain ⟨g, g', e1⟩ := ht
    refine .cons ⟨t, g, g', rfl, e1⟩ (List.rel_append ?_ (zipParts_fits kind write T hs os ts (i + 1) (by simpa using e) hts ?_))
    · have h0 := hT 0 (by simp)
      simp only [Nat.add_zero, List.getElem?_cons_zero, Option.map_some, Option.getD_some] at h0
      unfold relSteps
      by_cases ho : o = []
      · rw [if_pos ho] at h0 ⊢
        cases e : T[i]? with
        | none => exact .nil
        | some r =>
          rw [e] at h0
          simp only [Option.getD_some] at h0
          simp only [h0, if_true]
          exact .nil
      · rw [if_neg ho] at h0 ⊢
        cases e : T[i]? with
        | none =>
          rw [e] at h0
          exact absurd h0.symm (relText_ne o)
        | some r =>
          rw [e] at h0
          simp only [Option.getD_some] at h0
          subst h0
          simp only [relText_ne, if_false]
          exact .cons ⟨_, {}, {}, rfl, imageRels_const o {}⟩ .nil
    · intro k hk
      have := hT (k + 1) (by simpa using hk)
      rw [List.getElem?_cons_succ] at this
      rw [← this]
      congr 2
      omega

/-! ## Every part writes or panics -/

theorem header_steady (h : Header) : Part.Steady h.writeHeader := by
  have := writePart_good (h.total away_elsewhere c!"w:hdr" [.header] (by simp [elsewhere])) (some true)
  rw [Header_build_flat] at this
  exact Part.Good.steady (p := h.writeHeader) this
theorem footer_steady (h : Header) : Part.Steady h.writeFooter := by
  have := writePart_good (h.total away_elsewhere c!"w:ftr" [.footer] (by simp [elsewhere])) (some true)
  rw [Header_build_flat] at this
  exact Part.Good.steady (p := h.writeFooter) this
theorem document_steady (d : Document) : Part.Steady d.write := by
  have := writePart_good d.total (some true)
  rw [Document_build_flat] at this
  exact Part.Good.steady (p := d.write) this
theorem comments_steady (l : List Comment) : Part.Steady (writeComments l) := by
  have := writePart_good (commentsN_total l) (some true)
  rw [commentsB_flat] at this
  exact Part.Good.steady (p := writeComments l) this
theorem footnotes_steady (l : List Footnote) : Part.Steady (writeFootnotes l) := by
  have := writePart_good (footnotesN_total l) (some true)
  rw [footnotesB_flat] at this
  exact Part.Good.steady (p := writeFootnotes l) this

theorem styles_writes (d : DocxFile) : d.stylesPart.Writes := by
  have := buildElement_good d.styles.total
  rw [Styles_build_flat] at this
  exact Part.Good.writes (p := d.stylesPart) this
theorem numbering_writes (d : DocxFile) : d.numberingPart.Writes := by
  have := writePart_good d.numberings.total (some true)
  rw [Numberings_build_flat] at this
  exact Part.Good.writes (p := d.numberingPart) this

/-- The text of a part without generated ids. -/
def constText (sa : Option Bool) (f : List Node) : Str := declaration c!"1.0" (some c!"UTF-8") sa ++ printForest f

theorem contentTypes_const (d : DocxFile) : d.contentTypesPart.Const (constText none d.contentType.nodes) := by
  unfold DocxFile.contentTypesPart; rw [← d.contentType.flat]; exact tagsPart_const _ _
theorem rels_const (d : DocxFile) : d.relsPart.Const (constText none d.rels.nodes) := by
  unfold DocxFile.relsPart; rw [← d.rels.flat]; exact tagsPart_const _ _
theorem app_const : appPart.Const (constText (some true) appPropsN) := by
  unfold appPart; rw [← appProps_flat]; exact tagsPart_const _ _
theorem core_const (d : DocxFile) : d.corePart.Const (constText (some true) d.core.nodes) := by
  unfold DocxFile.corePart; rw [← d.core.flat]; exact tagsPart_const _ _
theorem custom_const (env : Env) (d : DocxFile) : (d.customPart env).Const (constText (some true) (customPropsN (env.props d.custom))) := by
  unfold DocxFile.customPart; rw [← customProps_flat]; exact tagsPart_const _ _
theorem documentRels_const (d : DocxFile) : d.documentRelsPart.Const (constText none d.documentRels.nodes) := by
  unfold DocxFile.documentRelsPart; rw [← d.documentRels.flat]; exact tagsPart_const _ _
theorem settings_const (d : DocxFile) : d.settingsPart.Const (constText (some true) d.settings.nodes) := by
  unfold DocxFile.settingsPart; rw [← d.settings.flat]; exact tagsPart_const _ _
theorem fontTable_const : fontTablePart.Const (constText (some true) fontTableN) := by
  unfold fontTablePart; rw [← fontTable_flat]; exact tagsPart_const _ _
theorem commentsExtended_const (d : DocxFile) : d.commentsExtendedPart.Const (printForest (commentsExtendedN d.commentsExtended)) := by
  unfold DocxFile.commentsExtendedPart; rw [← commentsExtended_flat]; exact buildElement_const _
theorem taskpanes_const : taskpanesPart.Const (constText (some true) taskpanesN) := by
  unfold taskpanesPart; rw [← taskpanes_flat]; exact tagsPart_const _ _
theorem taskpanesRels_const (d : DocxFile) : d.taskpanesRelsPart.Const (constText (some true) (taskpanesRelsN d.taskpanesRels)) := by
  unfold DocxFile.taskpanesRelsPart; rw [← taskpanesRels_flat]; exact tagsPart_const _ _
theorem webExtension_const (e : WebExtension) : (webExtensionPart e).Const (constText (some true) e.nodes) := by
  unfold webExtensionPart; rw [← e.flat]; exact tagsPart_const _ _
theorem customItemRels_const (n : Nat) : (customItemRelsPart n).Const (constText (some true) (customItemRelsN n)) := by
  unfold customItemRelsPart; rw [← customItemRels_flat]; exact tagsPart_const _ _
theorem customItemProps_const (id : Str) : (customItemPropsPart id).Const (constText (some false) (customItemPropertyN id)) := by
  unfold customItemPropsPart; rw [← customItemProperty_flat]; exact tagsPart_const _ _
theorem customItem_const (x : List XmlData) : (customItemPart x).Const (formatAll x) := fun _ => rfl

/-- Every part of the list writes or panics. -/
def AllSteady (ss : List ZipStep) : Prop := ∀ n p, ZipStep.write n p ∈ ss → p.Steady

theorem AllSteady.nil : AllSteady [] := by intro n p h; simp at h
theorem AllSteady.append {a b : List ZipStep} (h1 : AllSteady a) (h2 : AllSteady b) : AllSteady (a ++ b) := by
  intro n p h
  rcases List.mem_append.1 h with h | h
  · exact h1 n p h
  · exact h2 n p h
theorem AllSteady.write {n : Str} {p : Part} {a : List ZipStep} (h1 : p.Steady) (h2 : AllSteady a) :
    AllSteady (.write n p :: a) := by
  intro m q h
  simp only [List.mem_cons, ZipStep.write.injEq] at h
  rcases h with ⟨rfl, rfl⟩ | h
  · exact h1
  · exact h2 m q h
theorem AllSteady.directory {n : Str} {a : List ZipStep} (h2 : AllSteady a) : AllSteady (.directory n :: a) := by
  intro m q h
  simp only [List.mem_cons, reduceCtorEq, false_or] at h
  exact h2 m q h
theorem AllSteady.store {n : Str} {b : Bytes} {a : List ZipStep} (h2 : AllSteady a) : AllSteady (.store n b :: a) := by
  intro m q h
  simp only [List.mem_cons, reduceCtorEq, false_or] at h
  exact h2 m q h
theorem AllSteady.ite {c : Prop} [Decidable c] {a b : List ZipStep} (h1 : AllSteady a) (h2 : AllSteady b) :
    AllSteady (if c then a else b) := by
  split <;> assumption

theorem Part.Writes.steady {p : Part} (h : p.Writes) : p.Steady := .inl h
theorem Part.Const.steady {p : Part} {s : Str} (h : p.Const s) : p.Steady := .inl h.writes

theorem partSteps_steady (kind : Str) (write : Header → Part) (hw : ∀ h, (write h).Steady) :
    ∀ (hs : List Header) (i : Nat) (rs : List (Nat × List (Str × Str))), AllSteady (partSteps kind write i hs rs)
  | [], i, rs => by simp only [partSteps]; exact .nil
  | h :: hs, i, [] => by
    simp only [partSteps]
    exact .write (hw h) (partSteps_steady kind write hw hs _ _)
  | h :: hs, i, (j, r) :: rs => by
    simp only [partSteps]
    exact .write (hw h) (.ite (.write (imageRels_const r).steady (partSteps_steady kind write hw hs _ _))
      (partSteps_steady kind write hw hs _ _))

theorem indexed_steady {α : Type} (l : List α) (i : Nat) (f : α → Part) (hf : ∀ a, (f a).Steady) : (indexed l i f).Steady := by
  unfold indexed
  cases l[i]? with
  | none => exact .inr fun _ => rfl
  | some a => exact hf a

theorem customItemSteps_steady (d : DocxFile) : ∀ (xs : List (List XmlData)) (i : Nat), AllSteady (customItemSteps d i xs)
  | [], i => .nil
  | x :: xs, i => by
    simp only [customItemSteps]
    exact .append (.write (indexed_steady _ _ _ fun n => (customItemRels_const n).steady) (.write (customItem_const x).steady
      (.write (indexed_steady _ _ _ fun n => (customItemProps_const n).steady) .nil))) (customItemSteps_steady d xs _)

theorem webExtensionSteps_steady : ∀ (es : List WebExtension) (i : Nat), AllSteady (webExtensionSteps i es)
  | [], i => .nil
  | e :: es, i => .write (webExtension_const e).steady (webExtensionSteps_steady es _)

theorem zipDocxSteps_steady (env : Env) (d : DocxFile) (p : PackageMetadata) : AllSteady (zipDocxSteps env d p) := by
  unfold zipDocxSteps
  refine .append (.append (.append (.append (.append (.append ?_ ?_) ?_) ?_) ?_) ?_) (customItemSteps_steady d _ _)
  · refine .directory (.directory (.directory (.directory ?_)))
    exact .write (contentTypes_const d).steady (.write (rels_const d).steady (.write app_const.steady
      (.write (core_const d).steady (.write (custom_const env d).steady (.write (documentRels_const d).steady
      (.write (document_steady _) (.write (styles_writes d).steady (.write (settings_const d).steady
      (.write fontTable_const.steady (.write (comments_steady _) (.write (numbering_writes d).steady
      (.write (commentsExtended_const d).steady (.write (footnotes_steady _) .nil)))))))))))))
  · exact partSteps_steady _ _ header_steady _ _ _
  · exact partSteps_steady _ _ footer_steady _ _ _
  · refine .ite .nil (.directory ?_)
    intro n q h
    simp at h
  · refine .ite (.append ?_ (webExtensionSteps_steady _ _)) .nil
    exact .directory (.write taskpanes_const.steady (.directory (.write (taskpanesRels_const d).steady .nil)))
  · exact .ite .nil (.directory .nil)

end Docx
