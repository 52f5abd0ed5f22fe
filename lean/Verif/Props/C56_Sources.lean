import Verif.Lemmas.Listed
import Verif.Props.C56_Lookup
import Verif.Model.ReadXml

/-!
# C56, for any archive: each part is read from the place the relationships name
-/

namespace Docx.Props

open Docx Docx.Spec Docx.Xml

/-- The same body, comments, styles, numberings and settings. -/
structure SameSources (r r' : ReadFile) : Prop where
  children : r'.file.document.children = r.file.document.children
  comments : r'.file.comments = r.file.comments
  styles : r'.file.styles = r.file.styles
  numberings : r'.file.numberings = r.file.numberings
  settings : r'.file.settings = r.file.settings

theorem SameSources.refl (a : ReadFile) : SameSources a a := ⟨rfl, rfl, rfl, rfl, rfl⟩

theorem SameSources.trans {a b c : ReadFile} (h : SameSources a b) (h' : SameSources b c) : SameSources a c :=
  ⟨h'.children.trans h.children, h'.comments.trans h.comments, h'.styles.trans h.styles, h'.numberings.trans h.numberings,
    h'.settings.trans h.settings⟩

theorem images_sources {e : FileEnv} {es : List Entry} {m : ReadRels} {a b : ReadFile} (h : addImages e es m a = .ok b) : SameSources a b := by
  obtain ⟨l, hl⟩ := addImages_ok e es m a
  rw [hl] at h
  cases h
  exact ⟨rfl, rfl, rfl, rfl, rfl⟩

theorem header_sources {e : FileEnv} {es : List Entry} {ps ref set} {a b : ReadFile} (h : assignHeader e es ps ref set a = .ok b) : SameSources a b := by
  unfold assignHeader at h
  split at h
  · cases h; exact .refl _
  · split at h
    · cases h; exact .refl _
    · have := images_sources h
      exact ⟨this.1, this.2, this.3, this.4, this.5⟩

theorem footer_sources {e : FileEnv} {es : List Entry} {ps ref set} {a b : ReadFile} (h : assignFooter e es ps ref set a = .ok b) : SameSources a b := by
  unfold assignFooter at h
  split at h
  · cases h; exact .refl _
  · split at h
    · cases h; exact .refl _
    · have := images_sources h
      exact ⟨this.1, this.2, this.3, this.4, this.5⟩

theorem parts_sources {e : FileEnv} {es : List Entry} {hs fs : List (Str × Header × ReadRels)} {r r' : ReadFile}
    (h : assignParts e es hs fs r = .ok r') : SameSources r r' := by
  unfold assignParts at h
  obtain ⟨a1, e1, h⟩ := Got.bind_ok h
  obtain ⟨a2, e2, h⟩ := Got.bind_ok h
  obtain ⟨a3, e3, h⟩ := Got.bind_ok h
  obtain ⟨a4, e4, h⟩ := Got.bind_ok h
  obtain ⟨a5, e5, h⟩ := Got.bind_ok h
  exact (header_sources e1).trans ((header_sources e2).trans ((header_sources e3).trans ((footer_sources e4).trans
    ((footer_sources e5).trans (footer_sources h)))))

/-- A part comes from where the first relationship of its type says, and is as at the start if there is none. -/
def ComesFrom {α : Type} (es : List Entry) (m : ReadRels) (type : Str) (start : α) (read : Str → Got α) (v : α) : Prop :=
  match firstTarget m type with
  | none => v = start
  | some t => ∃ text, readText es t.path = some text ∧ read text = .ok v

theorem text_of {o : Option Str} {s : Str} (h : Got.ofOption o = .ok s) : o = some s := by
  cases o with
  | none => cases h
  | some x => cases h; rfl

theorem needed_source {α : Type} {es : List Entry} {m : ReadRels} {ty : Str} {r r' : ReadFile} {read : Str → Got α}
    {put : ReadFile → α → ReadFile} (get : ReadFile → α) (hg : ∀ r a, get (put r a) = a)
    (h : readNeeded es m ty r read put = .ok r') : ComesFrom es m ty (get r) read (get r') ∧ (r' = r ∨ ∃ a, r' = put r a) := by
  unfold readNeeded at h
  unfold ComesFrom
  split at h
  · next e => rw [e]; cases h; exact ⟨rfl, .inl rfl⟩
  · next t e =>
    obtain ⟨s, hs, h⟩ := Got.bind_ok h
    obtain ⟨a, ha, h⟩ := Got.bind_ok h
    rw [e]
    cases h
    exact ⟨⟨s, text_of hs, by rw [hg]; exact ha⟩, .inr ⟨a, rfl⟩⟩

/-- **C56.** When an archive is read, whatever it is, the body is that of the part the first relationship of the package with the type of main
documents names (or of `word/document.xml` if there is none), and styles, numberings and settings are those of the parts that the first
relationships of that part with their types name. When comments were read they have been put into the body. -/
theorem C56_sources (e : FileEnv) (n : Nat) (es : List Entry) (r : ReadFile) (h : readDocx e n es = .ok r) :
    ∃ s rels m text doc, readText es c!"_rels/.rels" = some s ∧ (readPackageRels n s).got = .ok rels ∧
      (let main := ((rels.rels.find? fun x =>
          x.1 = c!"http://schemas.openxmlformats.org/officeDocument/2006/relationships/officeDocument").map (·.2.2)).getD c!"word/document.xml"
       readText es main = some text ∧ (readDocument e.x n text).got = .ok doc ∧ readPartRels n es main = .ok m) ∧
      (r.file.comments = [] → r.file.document.children = doc.children) ∧
      ComesFrom es m c!"http://schemas.openxmlformats.org/officeDocument/2006/relationships/styles" {}
        (fun t => (readStyles e.x n t).got) r.file.styles ∧
      ComesFrom es m c!"http://schemas.openxmlformats.org/officeDocument/2006/relationships/numbering" {}
        (fun t => (readNumberings e.x n t).got) r.file.numberings ∧
      ComesFrom es m c!"http://schemas.openxmlformats.org/officeDocument/2006/relationships/settings" {}
        (fun t => (readSettings e.x n t).got) r.file.settings := by
  unfold readDocx at h
  obtain ⟨ct, _, h⟩ := Got.bind_ok h
  split at h
  · cases h
  · obtain ⟨s, hs, h⟩ := Got.bind_ok h
    obtain ⟨rels, hr, h⟩ := Got.bind_ok h
    obtain ⟨custom, _, h⟩ := Got.bind_ok h
    obtain ⟨m, hm, h⟩ := Got.bind_ok h
    unfold readDocxFrom at h
    obtain ⟨headers, _, h⟩ := Got.bind_ok h
    obtain ⟨footers, _, h⟩ := Got.bind_ok h
    obtain ⟨themes, ht, h⟩ := Got.bind_ok h
    obtain ⟨records, _, h⟩ := Got.bind_ok h
    obtain ⟨comments, _, h⟩ := Got.bind_ok h
    obtain ⟨text, htext, h⟩ := Got.bind_ok h
    obtain ⟨doc, hdoc, h⟩ := Got.bind_ok h
    obtain ⟨r1, h1, h⟩ := Got.bind_ok h
    obtain ⟨r2, h2, h⟩ := Got.bind_ok h
    obtain ⟨r3, h3, h⟩ := Got.bind_ok h
    obtain ⟨r4, h4, h⟩ := Got.bind_ok h
    obtain ⟨r5, h5, h⟩ := Got.bind_ok h
    obtain ⟨r6, h6, h⟩ := Got.bind_ok h
    cases h
    have hp : documentPath rels = ((rels.rels.find? fun x =>
        x.1 = c!"http://schemas.openxmlformats.org/officeDocument/2006/relationships/officeDocument").map (·.2.2)).getD c!"word/document.xml" := by
      have ho : officeType c!"officeDocument" = c!"http://schemas.openxmlformats.org/officeDocument/2006/relationships/officeDocument" := by
        decide +kernel
      rw [documentPath, Rels.findTarget, ho]
      cases rels.rels.find? _ <;> rfl
    have o2 : officeType c!"styles" = c!"http://schemas.openxmlformats.org/officeDocument/2006/relationships/styles" := by decide +kernel
    have o3 : officeType c!"numbering" = c!"http://schemas.openxmlformats.org/officeDocument/2006/relationships/numbering" := by decide +kernel
    have o4 : officeType c!"settings" = c!"http://schemas.openxmlformats.org/officeDocument/2006/relationships/settings" := by decide +kernel
    rw [o2] at h2
    rw [o3] at h3
    rw [o4] at h4
    have e1 := parts_sources h1
    obtain ⟨s2, q2⟩ := needed_source (fun r => r.file.styles) (fun _ _ => rfl) h2
    obtain ⟨s3, q3⟩ := needed_source (fun r => r.file.numberings) (fun _ _ => rfl) h3
    obtain ⟨s4, q4⟩ := needed_source (fun r => r.file.settings) (fun _ _ => rfl) h4
    obtain ⟨-, q5⟩ := needed_source (fun r => r.webSettings) (fun _ _ => rfl) h5
    have e6 := images_sources h6
    have e5 : SameSources r4 r5 := by rcases q5 with rfl | ⟨a, rfl⟩ <;> exact ⟨rfl, rfl, rfl, rfl, rfl⟩
    have e46 : SameSources r4 r6 := e5.trans e6
    have c0 : (r1.withComments comments records).file.comments = [] →
        (r1.withComments comments records).file.document.children = doc.children := by
      unfold ReadFile.withComments
      split
      · intro _; exact e1.children
      · next hc =>
        intro hn
        rw [show comments = [] from hn] at hc
        exact absurd rfl hc
    have k0 : (r1.withComments comments records).file.styles = {} ∧ (r1.withComments comments records).file.numberings = {} ∧
        (r1.withComments comments records).file.settings = {} := by
      unfold ReadFile.withComments
      split
      · exact ⟨e1.styles, e1.numberings, e1.settings⟩
      · exact ⟨e1.styles, e1.numberings, e1.settings⟩
    have k2 : r2.file.document.children = (r1.withComments comments records).file.document.children ∧
        r2.file.comments = (r1.withComments comments records).file.comments ∧
        r2.file.numberings = (r1.withComments comments records).file.numberings ∧
        r2.file.settings = (r1.withComments comments records).file.settings := by
      rcases q2 with rfl | ⟨a, rfl⟩ <;> exact ⟨rfl, rfl, rfl, rfl⟩
    have k3 : r3.file.document.children = r2.file.document.children ∧ r3.file.comments = r2.file.comments ∧ r3.file.styles = r2.file.styles ∧
        r3.file.settings = r2.file.settings := by
      rcases q3 with rfl | ⟨a, rfl⟩ <;> exact ⟨rfl, rfl, rfl, rfl⟩
    have k4 : r4.file.document.children = r3.file.document.children ∧ r4.file.comments = r3.file.comments ∧ r4.file.styles = r3.file.styles ∧
        r4.file.numberings = r3.file.numberings := by
      rcases q4 with rfl | ⟨a, rfl⟩ <;> exact ⟨rfl, rfl, rfl, rfl⟩
    rw [hp] at hm htext
    refine ⟨s, rels, m, text, doc, text_of hs, hr, ⟨text_of htext, hdoc, hm⟩, ?_, ?_, ?_, ?_⟩
    · show r6.file.comments = [] → r6.file.document.children = _
      rw [e46.comments, e46.children, k4.1, k4.2.1, k3.1, k3.2.1, k2.1, k2.2.1]
      exact c0
    · show ComesFrom es m _ _ _ r6.file.styles
      rw [e46.styles, k4.2.2.1, k3.2.2.1, ← k0.1]
      exact s2
    · show ComesFrom es m _ _ _ r6.file.numberings
      rw [e46.numberings, k4.2.2.2, ← k0.2.1, ← k2.2.2.1]
      exact s3
    · show ComesFrom es m _ _ _ r6.file.settings
      rw [e46.settings, ← k0.2.2, ← k2.2.2.2, ← k3.2.2.2]
      exact s4

/-- An archive with its main document in an unusual place, and another part where it usually is. -/
def movedFile : List Entry :=
  [ ⟨c!"[Content_Types].xml", .text c!"<Types></Types>"⟩,
    ⟨c!"_rels/.rels", .text c!"<Relationships><Relationship Id=\"a\" Type=\"http://schemas.openxmlformats.org/officeDocument/2006/relationships/officeDocument\" Target=\"doc/main.xml\"/></Relationships>"⟩,
    ⟨c!"word/document.xml", .text c!"<w:document></w:document>"⟩,
    ⟨c!"doc/_rels/main.xml.rels", .text c!"<Relationships></Relationships>"⟩,
    ⟨c!"doc/main.xml", .text c!"<w:document><w:body><w:p></w:p></w:body></w:document>"⟩ ]

/-- How much there is in the body, if the archive is read. -/
def bodyLength : Got ReadFile → Option (Nat × Nat)
  | .ok r => some (r.file.document.children.length, r.file.comments.length)
  | _ => none

example : ∃ e r, readDocx e 40 movedFile = .ok r ∧ r.file.comments = [] ∧ r.file.document.children.length = 1 := by
  have key : bodyLength (readDocx { x := ⟨fun _ => none, fun _ => none, fun _ => none, c!"0"⟩, decode := fun _ => none } 40 movedFile) = some (1, 0) := by
    decide +kernel
  refine ⟨{ x := ⟨fun _ => none, fun _ => none, fun _ => none, c!"0"⟩, decode := fun _ => none }, ?_⟩
  cases h : readDocx { x := ⟨fun _ => none, fun _ => none, fun _ => none, c!"0"⟩, decode := fun _ => none } 40 movedFile with
  | ok r =>
    rw [h] at key
    simp only [bodyLength, Option.some.injEq, Prod.mk.injEq] at key
    exact ⟨r, rfl, List.length_eq_zero_iff.1 key.2, key.1⟩
  | _ => rw [h] at key; cases key

/-! ## Flat files -/

open Docx.FlatOpc (contentOf documentText)

/-- A name without the slash at its start. -/
def bareName (s : Str) : Str := if s.head? = some '/' then s.drop 1 else s

theorem content_only {ps : List FlatOpc.Part} {name : Str} {q : FlatOpc.Part} (hq : q ∈ ps) (hn : q.name = name)
    (hu : ∀ p ∈ ps, p.name = name → p = q) : contentOf ps name = some q.data := by
  unfold contentOf
  have hm : q ∈ ps.filter fun p => p.name = name := List.mem_filter.2 ⟨hq, by simpa using hn⟩
  have ha : ∀ p ∈ ps.filter (fun p => p.name = name), p = q := fun p hp =>
    hu p (List.mem_filter.1 hp).1 (by simpa using (List.mem_filter.1 hp).2)
  cases e : (ps.filter fun p => p.name = name).getLast? with
  | none => rw [List.getLast?_eq_none_iff] at e; rw [e] at hm; cases hm
  | some x => rw [ha x (List.mem_of_getLast? e)]; rfl

theorem content_missing {ps : List FlatOpc.Part} {name : Str} (h : ∀ p ∈ ps, p.name ≠ name) : contentOf ps name = none := by
  unfold contentOf
  have e : (ps.filter fun p => p.name = name) = [] := List.filter_eq_nil_iff.2 fun p hp => by simpa using h p hp
  rw [e]
  rfl

/-- **C70.** The main document of a flat file is found whether or not its part and the relationship that points to it begin with a slash, when
only one part has the name and no name begins with two slashes. -/
theorem C70_main_found (ps : List FlatOpc.Part) (path : Str) (q : FlatOpc.Part) (hq : q ∈ ps) (hn : bareName q.name = bareName path)
    (hu : ∀ p ∈ ps, bareName p.name = bareName path → p = q) (hd : ∀ p ∈ ps, ¬ c!"//" <+: p.name) (hp : ¬ c!"//" <+: path) :
    documentText ps path = some q.data := by
  have two : ∀ p ∈ ps, c!"/" ++ bareName p.name = p.name ∨ bareName p.name = p.name := by
    intro p _
    unfold bareName
    split
    · next h =>
      left
      cases e : p.name with
      | nil => rw [e] at h; cases h
      | cons c l => rw [e] at h; cases h; rfl
    · exact .inr rfl
  have slash : ∀ (s t : Str), ¬ c!"//" <+: s → s = c!"/" ++ t → bareName s = t ∧ bareName t = t := by
    intro s t hs e
    subst e
    refine ⟨rfl, ?_⟩
    unfold bareName
    split
    · next h =>
      cases t with
      | nil => cases h
      | cons c l => cases h; exact absurd ⟨l, rfl⟩ hs
    · rfl
  unfold documentText
  by_cases h1 : q.name = path
  · rw [content_only hq h1 fun p hpm e => hu p hpm (by rw [e])]
    rfl
  · have n1 : contentOf ps path = none := content_missing fun p hpm e => h1 (by rw [← hu p hpm (by rw [e])]; exact e)
    rw [n1, Option.none_or]
    by_cases h2 : q.name = c!"/" ++ path
    · have hb := slash _ _ (hd q hq) h2
      rw [content_only hq h2 fun p hpm e => hu p hpm (by rw [e, ← h2, hn])]
    · have n2 : contentOf ps (c!"/" ++ path) = none := content_missing fun p hpm e => by
        have hb := slash _ _ (hd p hpm) e
        exact h2 (by rw [← hu p hpm (by rw [hb.1, hb.2])]; exact e)
      rw [n2]
      dsimp only
      cases path with
      | nil =>
        exfalso
        rcases two q hq with h | h
        · rw [hn] at h; exact h2 h.symm
        · rw [hn] at h; exact h1 h.symm
      | cons c l =>
        by_cases hc : c = '/'
        · subst hc
          have hb : bareName ('/' :: l) = l := rfl
          have hbl := (slash ('/' :: l) l hp rfl).2
          have h3 : q.name = l := by
            rcases two q hq with h | h
            · rw [hn, hb] at h; exact absurd h.symm h1
            · rw [hn, hb] at h; exact h.symm
          rw [if_pos (by simp [List.isPrefixOf])]
          exact content_only hq h3 fun p hpm e => hu p hpm (by rw [show p.name = l from e, hbl, hb])
        · exfalso
          have hb : bareName (c :: l) = c :: l := by
            unfold bareName
            rw [if_neg (by simpa using hc)]
          rcases two q hq with h | h
          · rw [hn, hb] at h; exact h2 h.symm
          · rw [hn, hb] at h; exact h1 h.symm

example : ∃ (ps : List FlatOpc.Part) (path : Str) (q : FlatOpc.Part), q ∈ ps ∧ bareName q.name = bareName path ∧ q.name ≠ path ∧
    (∀ p ∈ ps, bareName p.name = bareName path → p = q) ∧ (∀ p ∈ ps, ¬ c!"//" <+: p.name) ∧ ¬ c!"//" <+: path :=
  ⟨[{ name := c!"word/styles.xml", contentType := [], data := [] }, { name := c!"word/document.xml", contentType := [], data := c!"<w:document/>" }], c!"/word/document.xml",
    { name := c!"word/document.xml", contentType := [], data := c!"<w:document/>" }, by simp, by decide +kernel, by decide +kernel,
    by intro p hp; simp only [List.mem_cons, List.not_mem_nil, or_false] at hp
       rcases hp with rfl | rfl
       · intro h; exact absurd h (by decide +kernel)
       · intro _; rfl,
    by intro p hp; simp only [List.mem_cons, List.not_mem_nil, or_false] at hp
       rcases hp with rfl | rfl <;> decide +kernel, by decide +kernel⟩

end Docx.Props
