import Verif.Lemmas.FlatWritten
import Verif.Props.C33_FlatOpc
import Verif.Props.C61_ReadFile
import Verif.Props.C63_Ends
import Verif.Lemmas.FlatSteps

/-!
# C70: what comes back from a flat OPC file

`readXml` (Model/ReadXml.lean) is `read_xml`; `flatParts` (Spec/FlatRead.lean) are the parts of an archive as word processors name them in a
flat file.
-/

namespace Docx.Props

open Docx.Spec Docx.Xml Docx.FlatOpc

/-- There are no headers and footers. -/
def NoParts (p : SectionProperty) : Prop := ∀ side : Side, Side.heads side p = [none, none, none]

theorem noParts_of {p : SectionProperty} (h : slots p = [none, none, none, none, none, none]) : NoParts p := by
  obtain ⟨b, h1, h2, h3, h4, h5, h6⟩ := p
  simp only [slots, List.cons.injEq, and_true] at h
  obtain ⟨rfl, rfl, rfl, rfl, rfl, rfl⟩ := h
  intro side
  cases side <;> rfl

theorem officeType_hyperlink : officeType c!"hyperlink" = c!"http://schemas.openxmlformats.org/officeDocument/2006/relationships/hyperlink" := by
  decide +kernel

/-- Putting headers and footers in does not change the links. -/
theorem assignParts_links {e : FileEnv} {es : List Entry} {hs fs : List (Str × Header × ReadRels)} {r r' : ReadFile}
    (h : assignParts e es hs fs r = .ok r') : r'.hyperlinks = r.hyperlinks := by
  have images : ∀ {m : ReadRels} {a b : ReadFile}, addImages e es m a = .ok b → b.hyperlinks = a.hyperlinks := by
    intro m a b h
    obtain ⟨l, hl⟩ := addImages_ok e es m a
    rw [hl] at h
    cases h
    rfl
  have h1 : ∀ {ps ref set} {a b : ReadFile}, assignHeader e es ps ref set a = .ok b → b.hyperlinks = a.hyperlinks := by
    intro ps ref set a b h
    unfold assignHeader at h
    split at h
    · cases h; rfl
    · split at h
      · cases h; rfl
      · have := images h
        exact this
  have h2 : ∀ {ps ref set} {a b : ReadFile}, assignFooter e es ps ref set a = .ok b → b.hyperlinks = a.hyperlinks := by
    intro ps ref set a b h
    unfold assignFooter at h
    split at h
    · cases h; rfl
    · split at h
      · cases h; rfl
      · have := images h
        exact this
  unfold assignParts at h
  obtain ⟨a1, e1, h⟩ := Got.bind_ok h
  obtain ⟨a2, e2, h⟩ := Got.bind_ok h
  obtain ⟨a3, e3, h⟩ := Got.bind_ok h
  obtain ⟨a4, e4, h⟩ := Got.bind_ok h
  obtain ⟨a5, e5, h⟩ := Got.bind_ok h
  rw [h2 h, h2 e5, h2 e4, h1 e3, h1 e2, h1 e1]

/-- **C70 fails for headers, footers and comments**, whatever the file: if no part has two slashes together in its name, and the main
document is `document.xml` in some folder, no header, no footer and no comment is read, and the document is the text of its part alone. -/
theorem C70_fails_parts (e : FileEnv) (base64 : Str → Option Bytes) (n : Nat) (ps : List FlatOpc.Part) (rels : Rels) (r : ReadFile)
    (single : ∀ p ∈ ps, ¬ Occurs c!"//" p.name) (hr : mainRels n ps = .ok rels) (hd : ∃ dir, documentPath rels = dir ++ c!"/document.xml")
    (h : readParts e base64 n ps = .ok r) :
    NoParts r.file.document.sectionProperty ∧ r.file.comments = [] ∧ r.file.commentsExtended = [] ∧
      ∃ text, documentText ps (documentPath rels) = some text ∧ (readDocument e.x n text).got = .ok r.file.document := by
  have hnone : ∀ t, contentOf ps (partPath (documentPath rels) t) = none := fun t =>
    double_none (by simpa using single) (partPath_double hd t)
  unfold readParts at h
  split at h
  · cases h
  · rw [hr, Got.ok_bind] at h
    obtain ⟨custom, _, h⟩ := Got.bind_ok h
    obtain ⟨m, _, h⟩ := Got.bind_ok h
    unfold readXmlFrom at h
    obtain ⟨themes, _, h⟩ := Got.bind_ok h
    rw [sideParts_none _ _ hnone, Got.ok_bind, sideParts_none _ _ hnone, Got.ok_bind, records_none _ hnone, Got.ok_bind, notes_none _ _ hnone,
      Got.ok_bind] at h
    obtain ⟨text, ht, h⟩ := Got.bind_ok h
    obtain ⟨document, hdoc, h⟩ := Got.bind_ok h
    obtain ⟨styles, _, h⟩ := Got.bind_ok h
    obtain ⟨numberings, _, h⟩ := Got.bind_ok h
    obtain ⟨settings, _, h⟩ := Got.bind_ok h
    obtain ⟨webSettings, _, h⟩ := Got.bind_ok h
    rw [assignParts_none, Got.ok_bind] at h
    obtain ⟨r', hr', h⟩ := Got.bind_ok h
    obtain ⟨i, hi⟩ := addPictures_same e base64 (ps := ps) (documentPath rels) m.rels
      (ReadFile.withComments
        { file := { ({ DocxFile.new with custom := custom }.setDocument document) with styles := styles, numberings := numberings, settings := settings }
          themes := themes, webSettings := webSettings } [] [])
    rw [hi] at hr'
    cases hr'
    cases h
    obtain ⟨es', hes⟩ := Got.ofRead hdoc
    have hfile : ∀ q : ReadFile, (withFirstLink m q).file = q.file := by
      intro q; unfold withFirstLink; split <;> rfl
    rw [hfile]
    refine ⟨noParts_of (read_bare hes).2, rfl, rfl, text, ?_, hdoc⟩
    cases hq : documentText ps (documentPath rels) with
    | none => rw [hq] at ht; cases ht
    | some s => rw [hq] at ht; cases ht; rfl

/-- **C70 fails for settings and custom properties**: with the names word processors give, they are not found. -/
theorem C70_fails_settings (e : FileEnv) (base64 : Str → Option Bytes) (n : Nat) (ps : List FlatOpc.Part) (rels : Rels) (r : ReadFile)
    (W : WordNames (ps.map (·.name))) (hr : mainRels n ps = .ok rels) (hd : InFolder (documentPath rels))
    (hc : ∀ t, targetOf rels (officeType c!"custom-properties") = some t → t.head? ≠ some '/')
    (h : readParts e base64 n ps = .ok r) : r.file.settings = DocxFile.new.settings ∧ r.webSettings = [] ∧ r.file.custom = [] := by
  have hnone : ∀ t, contentOf ps (partPath (documentPath rels) t) = none := fun t =>
    double_none W.single (partPath_double (let ⟨dir, h, _⟩ := hd; ⟨dir, h⟩) t)
  have hbase : ∀ t, contentOf ps (basePath (documentPath rels) t) = none := fun t => rooted_none W (basePath_head hd t)
  have hbind : ∀ o : Option Str, (o.bind fun t => contentOf ps (basePath (documentPath rels) t)) = none := by
    intro o; cases o with
    | none => rfl
    | some t => exact hbase t
  unfold readParts at h
  split at h
  · cases h
  · rw [hr, Got.ok_bind] at h
    obtain ⟨custom, hcu, h⟩ := Got.bind_ok h
    have : (targetOf rels (officeType c!"custom-properties")).bind (contentOf ps) = none := by
      cases ho : targetOf rels (officeType c!"custom-properties") with
      | none => rfl
      | some t => exact rooted_none W (hc t ho)
    rw [this] at hcu
    cases hcu
    obtain ⟨m, _, h⟩ := Got.bind_ok h
    unfold readXmlFrom at h
    obtain ⟨themes, _, h⟩ := Got.bind_ok h
    rw [sideParts_none _ _ hnone, Got.ok_bind, sideParts_none _ _ hnone, Got.ok_bind, records_none _ hnone, Got.ok_bind, notes_none _ _ hnone,
      Got.ok_bind] at h
    obtain ⟨text, ht, h⟩ := Got.bind_ok h
    obtain ⟨document, hdoc, h⟩ := Got.bind_ok h
    obtain ⟨styles, _, h⟩ := Got.bind_ok h
    obtain ⟨numberings, _, h⟩ := Got.bind_ok h
    rw [hbind, readIfThere_none, Got.ok_bind, hbind, readIfThere_none, Got.ok_bind, assignParts_none, Got.ok_bind] at h
    obtain ⟨r', hr', h⟩ := Got.bind_ok h
    obtain ⟨i, hi⟩ := addPictures_same e base64 (ps := ps) (documentPath rels) m.rels
      (ReadFile.withComments
        { file := { ({ DocxFile.new with custom := [] }.setDocument document) with
            styles := styles, numberings := numberings
            settings := ({ DocxFile.new with custom := [] }.setDocument document).settings }
          themes := themes, webSettings := [] } [] [])
    rw [hi] at hr'
    cases hr'
    cases h
    have hfile : ∀ q : ReadFile, (withFirstLink m q).file = q.file ∧ (withFirstLink m q).webSettings = q.webSettings := by
      intro q; unfold withFirstLink; split <;> exact ⟨rfl, rfl⟩
    rw [(hfile _).1, (hfile _).2]
    exact ⟨rfl, rfl, rfl⟩

/-- **C70 fails for links**: at most one link is noted, and its id is the type of the relationship, not its id. -/
theorem C70_fails_links (e : FileEnv) (base64 : Str → Option Bytes) (n : Nat) (text : Str) (r : ReadFile) (h : readXml e base64 n text = .ok r) :
    r.hyperlinks = [] ∨ ∃ target, r.hyperlinks =
      [(c!"http://schemas.openxmlformats.org/officeDocument/2006/relationships/hyperlink", target, c!"External")] := by
  unfold readXml at h
  split at h
  · cases h
  · unfold readParts at h
    split at h
    · cases h
    · obtain ⟨rels, _, h⟩ := Got.bind_ok h
      obtain ⟨custom, _, h⟩ := Got.bind_ok h
      obtain ⟨m, _, h⟩ := Got.bind_ok h
      unfold readXmlFrom at h
      obtain ⟨themes, _, h⟩ := Got.bind_ok h
      obtain ⟨headers, _, h⟩ := Got.bind_ok h
      obtain ⟨footers, _, h⟩ := Got.bind_ok h
      obtain ⟨records, _, h⟩ := Got.bind_ok h
      obtain ⟨comments, _, h⟩ := Got.bind_ok h
      obtain ⟨text, ht, h⟩ := Got.bind_ok h
      obtain ⟨document, hdoc, h⟩ := Got.bind_ok h
      obtain ⟨styles, _, h⟩ := Got.bind_ok h
      obtain ⟨numberings, _, h⟩ := Got.bind_ok h
      obtain ⟨settings, _, h⟩ := Got.bind_ok h
      obtain ⟨webSettings, _, h⟩ := Got.bind_ok h
      obtain ⟨r1, h1, h⟩ := Got.bind_ok h
      obtain ⟨r2, h2, h⟩ := Got.bind_ok h
      obtain ⟨i, hi⟩ := addPictures_same e base64 (ps := _) (documentPath rels) m.rels (r1.withComments comments records)
      rw [hi] at h2
      cases h2
      cases h
      have hl : (r1.withComments comments records).hyperlinks = [] := by
        have : (r1.withComments comments records).hyperlinks = r1.hyperlinks := by
          unfold ReadFile.withComments; split <;> rfl
        rw [this, assignParts_links h1]
      unfold withFirstLink
      split
      · exact .inl hl
      · next t ht =>
        right
        refine ⟨t.2.2, ?_⟩
        have : t.1 = officeType c!"hyperlink" := by
          exact of_decide_eq_true (List.find?_some (p := fun x : Str × Str × Str => decide (x.1 = officeType c!"hyperlink")) ht)
        dsimp only
        rw [hl, this]
        exact congrArg (fun z => [(z, t.2.2, c!"External")]) officeType_hyperlink

/-! ## Packages this library writes -/

theorem find_triple {rs : List Relation} {ty : Str} {q : Relation} (hq : q ∈ rs) (ht : q.type = ty) (hu : ∀ q' ∈ rs, q'.type = ty → q' = q) :
    targetOf ⟨rs.map triple⟩ ty = some q.target := by
  unfold targetOf Rels.findTarget
  cases hf : (rs.map triple).find? fun x => decide (x.1 = ty) with
  | none =>
    rw [List.find?_eq_none] at hf
    exact absurd (decide_eq_true ht) (hf (triple q) (List.mem_map_of_mem hq))
  | some y =>
    have h1 := of_decide_eq_true (List.find?_some (p := fun x : Str × Str × Str => decide (x.1 = ty)) hf)
    obtain ⟨q', hq', rfl⟩ := List.mem_map.1 (List.mem_of_find?_eq_some hf)
    rw [hu q' hq' h1]
    rfl

theorem find_no_triple {rs : List Relation} {ty : Str} (h : ∀ q ∈ rs, q.type ≠ ty) : targetOf ⟨rs.map triple⟩ ty = none := by
  unfold targetOf Rels.findTarget
  rw [Option.map_eq_none_iff, List.find?_eq_none]
  intro x hx
  obtain ⟨q, hq, rfl⟩ := List.mem_map.1 hx
  exact fun e => h q hq (of_decide_eq_true e)

/-- Which of the relationships of a document can have one of the fixed types. -/
theorem fixed_of_type {r : DocumentRels} {imgs ls : List (Str × Str)} {ty : Str}
    (h1 : ty ≠ officeRel c!"header" ∧ ty ≠ officeRel c!"footer" ∧ ty ≠ officeRel c!"customXml" ∧ ty ≠ officeRel c!"image" ∧
      ty ≠ officeRel c!"hyperlink") :
    ∀ q ∈ r.fixedRelations ++ r.partRelations ++ imgs.map imageRelation ++ ls.map linkRelation, q.type = ty → q ∈ r.fixedRelations := by
  intro q hq ht
  simp only [List.mem_append] at hq
  rcases hq with ((hq | hq) | hq) | hq
  · exact hq
  · exfalso
    unfold DocumentRels.partRelations at hq
    simp only [List.mem_append, List.mem_map] at hq
    rcases hq with (⟨_, _, rfl⟩ | ⟨_, _, rfl⟩) | ⟨_, _, rfl⟩
    · exact h1.1 ht.symm
    · exact h1.2.1 ht.symm
    · exact h1.2.2.1 ht.symm
  · obtain ⟨y, _, rfl⟩ := List.mem_map.1 hq
    exact absurd ht.symm h1.2.2.2.1
  · obtain ⟨y, _, rfl⟩ := List.mem_map.1 hq
    exact absurd ht.symm h1.2.2.2.2

theorem flat_rooted {encode : Bytes → Str} {typeOf : Str → Str} {es : List Entry} {name : Str} (h : name.head? ≠ some '/') :
    contentOf (flatParts encode typeOf es) name = none := by
  refine contentOf_none fun p hp e => h ?_
  obtain ⟨_, _, hn, _⟩ := flat_names hp
  rw [← e, hn]
  rfl

/-- **C70, in part.** A package that calls make out of things that are kept, put into one XML file by another program, with the names word
processors give, and read: reading does not fail, and gives a file with the same body, page set-up, styles and numberings. The headers,
the footers, the custom properties and the settings are lost. (The body has no comments here; C70_fails_parts says that they would be
lost too.) -/
theorem C70_written_partial (e : FileEnv) (base64 : Str → Option Bytes) (encode : Bytes → Str) (typeOf : Str → Str) (cs : List Call) (d : DocxFile)
    (env : Env) (w : World) (es : List Entry) (items : List BodyItem) (S : Sendable cs d env) (h : Packed env d w es)
    (hb : d.document.children = (bodyOf items).children) (hk : KeptItems items) :
    ∃ k, ∀ n, k ≤ n → ∃ r, readParts e base64 n (flatParts encode typeOf es) = .ok r ∧
      (seenItems r.file.document).map dropIds = some (dropIds (afterItems items)) ∧
      PageSetupReadAs e.x d.document.sectionProperty.base r.file.document.sectionProperty.base ∧
      r.file.styles = stylesSeen d.styles ∧ r.file.numberings = numberingSeen d.numberings ∧
      NoParts r.file.document.sectionProperty ∧ r.file.settings = DocxFile.new.settings ∧ r.file.custom = [] ∧ r.file.comments = [] := by
  have hf := fineDocument e.x hk
  have hs : AllS d.document.strings := by
    intro s hs
    simp only [Document.strings, hb, List.mem_append] at hs
    rcases hs with hs | hs
    · exact hf.strings s (List.mem_append_left _ hs)
    · exact S.page.1 s hs
  have hr : d.document.Readable := ⟨by rw [hb]; exact hf.read.1, fun s hs => (S.page.1 s hs).2.1, S.page.2⟩
  have hnt' : ∀ c ∈ d.document.children, ∀ t, c ≠ .toc t := by
    intro c hc t e
    rw [hb, (bodyOf_children items).1] at hc
    obtain ⟨i, _, rfl⟩ := List.mem_map.1 hc
    cases i <;> cases e
  have hnt : autoTocIndexes 0 d.document.children = [] := by
    refine List.eq_nil_iff_forall_not_mem.2 fun i hi => ?_
    rw [autoTocIndexes_mem] at hi
    obtain ⟨_, t, ht', _⟩ := hi
    exact hnt' _ (List.mem_of_getElem? ht') t rfl
  have hnd := Docx.packed_nodup h
  -- the parts
  obtain ⟨ps, rels, k1, p1, p2, p3, p4⟩ := package_rels_found S.made h
  obtain ⟨dr, k2, dr1, r, imgs, ls, dr2, n1⟩ := document_triples S.made S.links S.dependencies h
  obtain ⟨dt, dt1, k6, dt2⟩ := packed_document (x := e.x) h S.ids hnt hs hr
  obtain ⟨st, st1, k7, st2⟩ := C55_package e.x d env w es h hnt' S.styles
  obtain ⟨nu, nu1, k8, nu2⟩ := C54_package e.x d env w es h S.numberings
  have p5 : ⟨c!"_rels/.rels", .text ps⟩ ∈ es := by
    have he := fits_const (packed_fits h) (step_rels _ _ _) (rels_const _)
    rw [readText_const hnd he (by constructor <;> decide)] at p1
    cases p1
    exact he
  have c1 := flat_content (encode := encode) (typeOf := typeOf) hnd p5 (by decide)
  have c2 := flat_content (encode := encode) (typeOf := typeOf) hnd dr1 (by decide)
  have c3 := flat_content (encode := encode) (typeOf := typeOf) hnd dt1 (by decide)
  have c4 := flat_content (encode := encode) (typeOf := typeOf) hnd st1 (by decide)
  have c5 := flat_content (encode := encode) (typeOf := typeOf) hnd nu1 (by decide)
  generalize hps : flatParts encode typeOf es = fs at c1 c2 c3 c4 c5 ⊢
  have hroot : ∀ {name : Str}, name.head? ≠ some '/' → contentOf fs name = none := fun h => hps ▸ flat_rooted h
  have pick : ∀ ty, ty ≠ officeRel c!"header" ∧ ty ≠ officeRel c!"footer" ∧ ty ≠ officeRel c!"customXml" ∧ ty ≠ officeRel c!"image" ∧
      ty ≠ officeRel c!"hyperlink" → ∀ q ∈ r.fixedRelations, q.type = ty →
      targetOf ⟨(r.fixedRelations ++ r.partRelations ++ imgs.map imageRelation ++ ls.map linkRelation).map triple⟩ ty = some q.target :=
    fun ty hty q hq hqt => find_triple (List.mem_append_left _ (List.mem_append_left _ (List.mem_append_left _ hq))) hqt
      fun q' hq' hqt' => fixed_unique r (fixed_of_type hty q' hq' hqt') hq (hqt'.trans hqt.symm)
  have skip : ∀ ty, ty ≠ officeRel c!"header" ∧ ty ≠ officeRel c!"footer" ∧ ty ≠ officeRel c!"customXml" ∧ ty ≠ officeRel c!"image" ∧
      ty ≠ officeRel c!"hyperlink" → (∀ q ∈ r.fixedRelations, q.type ≠ ty) →
      targetOf ⟨(r.fixedRelations ++ r.partRelations ++ imgs.map imageRelation ++ ls.map linkRelation).map triple⟩ ty = none :=
    fun ty hty hno => find_no_triple fun q hq e => hno q (fixed_of_type hty q hq e) e
  have t1 := pick (officeType c!"styles") (by decide) _ (fixed_mem r).1 rfl
  have t2 := pick (officeType c!"settings") (by decide) _ (fixed_mem r).2.1 rfl
  have t6 := skip (officeType c!"theme") (by decide) (fixed_without r).2.2.1
  have t7 := skip (officeType c!"webSettings") (by decide) (fixed_without r).2.2.2
  have t5 : targetOf ⟨(r.fixedRelations ++ r.partRelations ++ imgs.map imageRelation ++ ls.map linkRelation).map triple⟩
      (officeType c!"numbering") = none ∨ targetOf ⟨(r.fixedRelations ++ r.partRelations ++ imgs.map imageRelation ++ ls.map linkRelation).map triple⟩
      (officeType c!"numbering") = some c!"numbering.xml" := by
    cases hn : r.hasNumberings with
    | true => exact .inr (pick (officeType c!"numbering") (by decide) _ ((fixed_mem r).2.2.2.2 hn) rfl)
    | false => exact .inl (skip (officeType c!"numbering") (by decide) ((fixed_without r).2.1 hn))
  generalize (⟨(r.fixedRelations ++ r.partRelations ++ imgs.map imageRelation ++ ls.map linkRelation).map triple⟩ : Rels) = m at dr2 t1 t2 t5 t6 t7
  -- reading
  refine ⟨k1 + k2 + k6 + k7 + k8, fun n hn => ?_⟩
  obtain ⟨q, q1, q2, q3, q4⟩ := dt2 n (by omega)
  have b1 : mainRels n fs = .ok rels := by
    unfold mainRels
    rw [hroot (by decide), show c!"/_rels/.rels" = '/' :: c!"_rels/.rels" from rfl, c1]
    simp only [Option.none_or, Got.ofSome, Got.ok_bind, readPackageRels, readEvents_undeclared]
    exact p2 n (by omega)
  have b2 : partRels n fs c!"word/document.xml" = .ok m := by
    unfold partRels
    have e1 : replaceStr c!"document.xml" c!"_rels/document.xml.rels" c!"word/document.xml" = c!"word/_rels/document.xml.rels" := by decide +kernel
    dsimp only
    rw [e1, hroot (by decide), show c!"/" ++ c!"word/_rels/document.xml.rels" = '/' :: c!"word/_rels/document.xml.rels" from rfl, c2]
    simp only [Option.none_or, readPackageRels, readEvents_undeclared]
    exact dr2 n (by omega)
  have hbp : ∀ t, basePath c!"word/document.xml" t = c!"word/" ++ t := by
    intro t
    have : baseOf c!"word/document.xml" = c!"word" := by decide +kernel
    rw [basePath, this]
    rfl
  have hw : ∀ t : Str, (c!"word/" ++ t).head? ≠ some '/' := fun t h => absurd (Option.some.inj h) (by decide)
  have hslash : ∀ t, withSlash (c!"word/" ++ t) = '/' :: (c!"word/" ++ t) := by
    intro t
    have : c!"/".isPrefixOf (c!"word/" ++ t) = false := rfl
    rw [withSlash, this]
    rfl
  have hat : ∀ t, contentAt fs (basePath c!"word/document.xml" t) = contentOf fs ('/' :: (c!"word/" ++ t)) := by
    intro t
    rw [contentAt, hbp, hroot (hw t), hslash, Option.none_or]
  have hpp : ∀ t, contentOf fs (partPath c!"word/document.xml" t) = none := by
    intro t
    refine hroot ?_
    have : folderOf c!"word/document.xml" = c!"word/" := by decide +kernel
    rw [partPath, this]
    exact fun h => absurd (Option.some.inj h) (by decide)
  have b3 : documentText fs c!"word/document.xml" = some (undeclared dt) := by
    unfold documentText
    rw [hroot (by decide), show c!"/" ++ c!"word/document.xml" = '/' :: c!"word/document.xml" from rfl, c3]
    rfl
  have b4 : (readDocument e.x n (undeclared dt)).got = .ok q := by
    have : readDocument e.x n (undeclared dt) = readDocument e.x n dt := by simp only [readDocument, readEvents_undeclared]
    rw [this, q1]
    rfl
  have b5 : (readStyles e.x n (undeclared st)).got = .ok (stylesSeen d.styles) := by
    have : readStyles e.x n (undeclared st) = readStyles e.x n st := by simp only [readStyles, readEvents_undeclared]
    rw [this, st2 n (by omega)]
    rfl
  have b6 : (readNumberings e.x n (undeclared nu)).got = .ok (numberingSeen d.numberings) := by
    have : readNumberings e.x n (undeclared nu) = readNumberings e.x n nu := by simp only [readNumberings, readEvents_undeclared]
    rw [this, nu2 n (by omega)]
    rfl
  have b7 : ∀ a, readLists e.x n fs c!"word/document.xml" m a = .ok (numberingSeen d.numberings) := by
    intro a
    unfold readLists
    rcases t5 with t5 | t5
    · rw [t5]
      dsimp only
      rw [show c!"/word/numbering.xml" = '/' :: c!"word/numbering.xml" from rfl, c5]
      dsimp only
      rw [b6]
    · rw [t5]
      dsimp only
      rw [hat, show '/' :: (c!"word/" ++ c!"numbering.xml") = '/' :: c!"word/numbering.xml" from rfl, c5, readIfThere, b6]
      rfl
  have b8 : ∀ a : Styles, (readIfThere ((targetOf m (officeType c!"styles")).bind fun t => contentAt fs (basePath c!"word/document.xml" t)) a
      fun s => (readStyles e.x n s).got) = .ok (stylesSeen d.styles) := by
    intro a
    rw [t1, Option.bind_some, hat]
    have : contentOf fs ('/' :: (c!"word/" ++ c!"styles.xml")) = some (undeclared st) := c4
    rw [this, readIfThere, b5]
    rfl
  have b9 : ∀ a : Settings, (readIfThere ((targetOf m (officeType c!"settings")).bind fun t => contentOf fs (basePath c!"word/document.xml" t)) a
      fun s => (readSettings e.x n s).got) = .ok a := by
    intro a
    rw [t2, Option.bind_some, hbp, hroot (hw _)]
    rfl
  have b10 : (readIfThere ((targetOf rels (officeType c!"custom-properties")).bind (contentOf fs)) []
      fun s => (readCustomProps e.x n s).got) = .ok [] := by
    have : targetOf rels (officeType c!"custom-properties") = some c!"docProps/custom.xml" := p4
    rw [this, Option.bind_some, hroot (by decide)]
    rfl
  have hct : contentOf fs c!"[Content_Types].xml" = none := hroot (by decide)
  obtain ⟨i, hi⟩ := addPictures_same e base64 (ps := fs) c!"word/document.xml" m.rels
    (ReadFile.withComments
      { file := { ({ DocxFile.new with custom := [] }.setDocument q) with
          styles := stylesSeen d.styles, numberings := numberingSeen d.numberings
          settings := ({ DocxFile.new with custom := [] }.setDocument q).settings }
        themes := [], webSettings := [] } [] [])
  have hfile : ∀ q : ReadFile, (withFirstLink m q).file = q.file := by
    intro q; unfold withFirstLink; split <;> rfl
  refine ⟨withFirstLink m { (ReadFile.withComments
      { file := { ({ DocxFile.new with custom := [] }.setDocument q) with
          styles := stylesSeen d.styles, numberings := numberingSeen d.numberings
          settings := ({ DocxFile.new with custom := [] }.setDocument q).settings }
        themes := [], webSettings := [] } [] []) with images := i }, ?_, ?_⟩
  · unfold readParts
    rw [hct]
    dsimp only [Option.map_none]
    rw [b1, Got.ok_bind, b10, Got.ok_bind, p3, b2, Got.ok_bind]
    unfold readXmlFrom
    rw [t6, Option.bind_none, readIfThere_none, Got.ok_bind, sideParts_none _ _ hpp, Got.ok_bind, sideParts_none _ _ hpp, Got.ok_bind,
      records_none _ hpp, Got.ok_bind, notes_none _ _ hpp, Got.ok_bind, b3, Got.ofSome, Got.ok_bind, b4, Got.ok_bind]
    dsimp only
    rw [b8, Got.ok_bind, b7, Got.ok_bind, b9, Got.ok_bind, t7, Option.bind_none, readIfThere_none, Got.ok_bind, assignParts_none, Got.ok_bind, hi,
      Got.ok_bind]
  · rw [hfile]
    have hqs : q.sectionProperty = { base := d.document.sectionProperty.base.reread } := by
      refine sectionProperty_bare ?_
      have := congrArg Document.sectionProperty q2
      exact this
    refine ⟨?_, ?_, rfl, rfl, ?_, rfl, rfl, rfl⟩
    · show (seenItems q).map dropIds = _
      rw [← seenItems_bare, q2, seenItems_bare]
      have : seenItems (d.document.reread e.x) = seenItems ((bodyOf items).reread e.x) := by
        simp only [seenItems, Document.reread, hb]
      rw [this, hf.seen]
      rfl
    · show PageSetupReadAs e.x _ q.sectionProperty.base
      rw [hqs]
      exact C52_read_back e.x _ S.page.1 S.page.2
    · show NoParts q.sectionProperty
      rw [hqs]
      exact noParts_of rfl

/-- **C70.** A flat file in the form word processors write is read as its parts, whatever surrounds them. -/
theorem C70_text (e : FileEnv) (base64 : Str → Option Bytes) (n : Nat) (ps : List (Str × FlatPart)) (tail : Str)
    (fine : ∀ q ∈ ps, ¬ Occurs c!"<pkg:part" q.1 ∧ q.2.Fine) (last : ¬ Occurs c!"<pkg:part" tail) :
    readXml e base64 n (flatText ps tail) = readParts e base64 n (ps.map fun q => ⟨q.2.name, q.2.contentType, q.2.content.data⟩) := by
  rw [readXml, C33_parts_partial ps tail fine last]

/-- **C70.** Reading a flat file comes to exactly one thing, a file, an error, a panic, or never an end: with more steps the outcome is the
same, unless there was none yet. -/
theorem C70_one_outcome (e : FileEnv) (base64 : Str → Option Bytes) (text : Str) :
    ∃ o, (∃ k, ∀ n, k ≤ n → readXml e base64 n text = o) ∧ ∀ n, readXml e base64 n text = o ∨ readXml e base64 n text = .running := by
  by_cases h : ∃ n, readXml e base64 n text ≠ .running
  · obtain ⟨n, hn⟩ := h
    refine ⟨_, ⟨n, fun m hm => readXml_steps hn hm⟩, fun m => ?_⟩
    by_cases hm : readXml e base64 m text = .running
    · exact .inr hm
    · left
      rw [← readXml_steps hm (Nat.le_max_left m n), readXml_steps hn (Nat.le_max_right m n)]
  · have h : ∀ n, readXml e base64 n text = .running := fun n => Classical.byContradiction fun hn => h ⟨n, hn⟩
    exact ⟨.running, ⟨0, fun n _ => h n⟩, fun n => .inr (h n)⟩

/-! ## A flat file with a header and two links -/

private def xmlPart (name data : Str) : FlatPart := ⟨name, c!"xml", [], [], .xml data, []⟩

private def partFine (name data : Str) : Bool :=
  decide (name ≠ [] ∧ '"' ∉ name ∧ '<' ∉ name ∧ '=' ∉ name) && decide (¬ c!"</pkg:part>" <:+: data) && decide (¬ c!"</pkg:xmlData>" <:+: data) &&
    decide (¬ c!"pkg:name=\"\"" <:+: data) && decide (¬ c!"pkg:contentType=\"\"" <:+: data)

private theorem xmlPart_fine {name data : Str} (h : partFine name data = true) : (xmlPart name data).Fine := by
  simp only [partFine, Bool.and_eq_true, decide_eq_true_eq] at h
  obtain ⟨⟨⟨⟨h1, h2⟩, h3⟩, h4⟩, h5⟩ := h
  exact
    { name := ⟨h1.1, h1.2.1, h1.2.2.1, h1.2.2.2⟩
      contentType := by constructor <;> simp [xmlPart]
      more := ⟨List.not_mem_nil, fun h => absurd (occurs_iff.1 h) (by simp [xmlPart]), by simp [xmlPart]⟩
      gap := fun _ h => (by cases h)
      content := ⟨fun h => h2 (occurs_iff.1 h), fun h => h3 (occurs_iff.1 h), fun h => h4 (occurs_iff.1 h), fun h => h5 (occurs_iff.1 h)⟩
      gap' := fun _ h => (by cases h) }

private def rootFile : Str := c!"<Relationships><Relationship Id=\"a\" Type=\"http://schemas.openxmlformats.org/officeDocument/2006/relationships/officeDocument\" Target=\"word/document.xml\"/></Relationships>"

private theorem rootFile_fine : partFine c!"/_rels/.rels" rootFile = true := by decide +kernel

private def relsFile : Str := c!"<Relationships><Relationship Id=\"a\" Type=\"http://schemas.openxmlformats.org/officeDocument/2006/relationships/header\" Target=\"header1.xml\"/><Relationship Id=\"b\" Type=\"http://schemas.openxmlformats.org/officeDocument/2006/relationships/hyperlink\" Target=\"u\" TargetMode=\"External\"/><Relationship Id=\"c\" Type=\"http://schemas.openxmlformats.org/officeDocument/2006/relationships/hyperlink\" Target=\"v\" TargetMode=\"External\"/></Relationships>"

private theorem relsFile_fine : partFine c!"/word/_rels/document.xml.rels" relsFile = true := by decide +kernel

private def bodyFile : Str := c!"<w:document><w:body><w:sectPr><w:headerReference w:type=\"default\" r:id=\"a\"/></w:sectPr></w:body></w:document>"

private theorem bodyFile_fine : partFine c!"/word/document.xml" bodyFile = true := by decide +kernel

private def headFile : Str := c!"<w:hdr/>"

private theorem headFile_fine : partFine c!"/word/header1.xml" headFile = true := by decide +kernel

private def files : List (Str × FlatPart) :=
  [(c!"<pkg:package>", xmlPart c!"/_rels/.rels" rootFile), (c!"\n", xmlPart c!"/word/_rels/document.xml.rels" relsFile),
   (c!"\n", xmlPart c!"/word/document.xml" bodyFile), (c!"\n", xmlPart c!"/word/header1.xml" headFile)]

private def theParts : List FlatOpc.Part := files.map fun q => ⟨q.2.name, q.2.contentType, q.2.content.data⟩

private theorem files_fine : (∀ q ∈ files, ¬ Occurs c!"<pkg:part" q.1 ∧ q.2.Fine) ∧ ¬ Occurs c!"<pkg:part" c!"</pkg:package>" := by
  refine ⟨?_, by rw [occurs_iff]; decide +kernel⟩
  intro q hq
  simp only [files, List.mem_cons, List.not_mem_nil, or_false] at hq
  rcases hq with rfl | rfl | rfl | rfl
  · exact ⟨by rw [occurs_iff]; decide +kernel, xmlPart_fine rootFile_fine⟩
  · exact ⟨by rw [occurs_iff]; decide +kernel, xmlPart_fine relsFile_fine⟩
  · exact ⟨by rw [occurs_iff]; decide +kernel, xmlPart_fine bodyFile_fine⟩
  · exact ⟨by rw [occurs_iff]; decide +kernel, xmlPart_fine headFile_fine⟩

private def isOk : Got ReadFile → Bool
  | .ok r => decide (r.hyperlinks.length = 1)
  | _ => false

private theorem parts_ok : isOk (readParts aReader (fun _ => none) 30 theParts) = true := by decide +kernel

private def relsOf (ps : List FlatOpc.Part) : Option (List (Str × Str × Str)) :=
  match mainRels 30 ps with
  | .ok r => some r.rels
  | _ => none

private theorem relsOf_eq : relsOf theParts = some
    [(c!"http://schemas.openxmlformats.org/officeDocument/2006/relationships/officeDocument", c!"a", c!"word/document.xml")] := by
  decide +kernel

private theorem target_none {rels : Rels} (h : rels.rels =
    [(c!"http://schemas.openxmlformats.org/officeDocument/2006/relationships/officeDocument", c!"a", c!"word/document.xml")]) :
    targetOf rels (officeType c!"custom-properties") = none := by
  rw [targetOf, Rels.findTarget, h]
  decide +kernel

/-- The parts of this file meet the hypotheses of `C70_fails_parts` and `C70_fails_settings`, and its text those of `C70_text` and
`C70_fails_links`. -/
example : ∃ rels r, WordNames (theParts.map (·.name)) ∧ mainRels 30 theParts = .ok rels ∧ InFolder (documentPath rels) ∧
    (∀ t, targetOf rels (officeType c!"custom-properties") = some t → t.head? ≠ some '/') ∧
    readParts aReader (fun _ => none) 30 theParts = .ok r ∧ r.hyperlinks.length = 1 ∧
    readXml aReader (fun _ => none) 30 (flatText files c!"</pkg:package>") = .ok r := by
  have ht := C70_text aReader (fun _ => none) 30 files c!"</pkg:package>" files_fine.1 files_fine.2
  have hn : theParts.map (·.name) = [c!"/_rels/.rels", c!"/word/_rels/document.xml.rels", c!"/word/document.xml", c!"/word/header1.xml"] := rfl
  rw [ht, show (files.map fun q => ⟨q.2.name, q.2.contentType, q.2.content.data⟩) = theParts from rfl]
  have h1 := relsOf_eq
  have h2 := parts_ok
  unfold relsOf at h1
  generalize theParts = ps at h1 h2 hn ⊢
  split at h1
  · rename_i rels hr
    rw [Option.some.injEq] at h1
    have hp : documentPath rels = c!"word/document.xml" := by
      rw [documentPath, Rels.findTarget, h1]; decide +kernel
    refine ⟨rels, ?_⟩
    cases hs : readParts aReader (fun _ => none) 30 ps with
    | ok r =>
      rw [hs] at h2
      refine ⟨r, ?_, hr, ?_, ?_, rfl, of_decide_eq_true h2, rfl⟩
      · rw [hn]
        refine ⟨by decide +kernel, ?_⟩
        simp only [occurs_iff]
        decide +kernel
      · rw [hp]
        exact ⟨c!"word", by decide +kernel, by decide +kernel, by decide +kernel, by rw [occurs_iff]; decide +kernel⟩
      · intro t ht
        rw [target_none h1] at ht
        cases ht
    | _ => rw [hs] at h2; cases h2
  · cases h1

/-! ## A package that is written, and the same as a flat file -/

/-- **C70 fails** for a package that this library writes: read as an archive, it has a header, a tab stop and a custom property; its parts
in one XML file are read without them. -/
theorem C70_fails : ∃ es : List Entry, ∃ k, ∀ n, k ≤ n → ∃ r r',
    readDocx aReader n es = .ok r ∧ readParts aReader (fun _ => none) n (flatParts (fun _ => []) (fun _ => c!"application/xml") es) = .ok r' ∧
    (r.file.document.sectionProperty.header ≠ none ∧ r.file.settings.defaultTabStop = 720 ∧ (c!"author", c!"Ann") ∈ r.file.custom) ∧
    r'.file.document.sectionProperty.header = none ∧ r'.file.settings.defaultTabStop = 840 ∧ r'.file.custom = [] := by
  obtain ⟨d, es, S, h, hb, hk, hn, hx, hl, ha, ht⟩ := whole_example
  obtain ⟨k1, h1⟩ := C61_read_file aReader _ d _ _ es _ S h hb hk hn hx
  obtain ⟨k2, h2⟩ := C70_written_partial aReader (fun _ => none) (fun _ => []) (fun _ => c!"application/xml") _ d _ _ es _ S h hb hk
  refine ⟨es, k1 + k2, fun n hn => ?_⟩
  obtain ⟨r, e1, _, _, R⟩ := h1 n (by omega)
  obtain ⟨r', e2, _, _, _, _, np, st, cu, _⟩ := h2 n (by omega)
  refine ⟨r, r', e1, e2, ⟨?_, ?_, (R.custom _ _).2 ⟨ha, by decide⟩⟩, ?_, ?_, cu⟩
  · have := R.parts .header
    rw [hl] at this
    intro h0
    cases this with
    | cons hh _ =>
      rw [h0] at hh
      cases hh
  · rw [R.settings]
    exact ht
  · have := np .header
    exact Option.map_eq_none_iff.1 (List.cons.inj this).1
  · rw [st]; rfl

end Docx.Props
