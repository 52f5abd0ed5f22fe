import Verif.Lemmas.ReadRelsDoc

/-!
# C56: relationships that are written are found when the package is read
-/

namespace Docx.Props

set_option linter.unusedSimpArgs false

open Docx Docx.Spec Docx.Xml

/-! ## The name of the relationship file -/

/-- **C56.** The relationships of a part `folder/name.xml` are looked for in `folder/_rels/name.xml.rels`, when the name has no dot. -/
theorem C56_file_name_partial (folder name : Str) (hf : folder ≠ [] ∧ folder.getLast? ≠ some '/') (hn : name ≠ [] ∧ ∀ c ∈ name, c ≠ '/' ∧ c ≠ '.') :
    relsFileName (folder ++ c!"/" ++ name ++ c!".xml") = some (folder ++ c!"/_rels/" ++ name ++ c!".xml.rels") :=
  (relsFileName_eq hf hn).1

/-- **C56** fails for names with a dot: the relationships of `word/document.v2.xml` are looked for in the file of `document.xml`. -/
theorem C56_fails_name : ∃ folder name, folder ≠ [] ∧ folder.getLast? ≠ some '/' ∧ name ≠ [] ∧ (∀ c ∈ name, c ≠ '/') ∧
    relsFileName (folder ++ c!"/" ++ name ++ c!".xml") ≠ some (folder ++ c!"/_rels/" ++ name ++ c!".xml.rels") ∧
    relsFileName (folder ++ c!"/" ++ name ++ c!".xml") = relsFileName c!"word/document.xml" :=
  ⟨c!"word", c!"document.v2", by decide, by decide, by decide, by decide, by decide +kernel, by decide +kernel⟩

/-! ## The main document -/

/-- **C56.** The package relationships of a written file are read in the order in which they are written, and the one that says where
the main document is says `word/document.xml`. -/
theorem C56_main (cs : List Call) (d : DocxFile) (env : Env) (w : World) (es : List Entry) (hc : DocxFile.new.calls cs = some d)
    (h : Packed env d w es) :
    ∃ s rs k, readText es c!"_rels/.rels" = some s ∧ HasRelations es c!"_rels/.rels" rs ∧
      (∀ n, k ≤ n → (readPackageRels n s).got = .ok ⟨rs.map fun r => (r.type, r.id, r.target)⟩) ∧
      (Rels.findTarget ⟨rs.map fun r => (r.type, r.id, r.target)⟩
        c!"http://schemas.openxmlformats.org/officeDocument/2006/relationships/officeDocument").map (·.2.2) = some c!"word/document.xml" := by
  have hr := calls_package_rels hc
  have hp := package_plain hr
  have he := fits_const (packed_fits h) (step_rels _ _ _) (rels_const _)
  rw [(preparePackage_same env d w).1] at he
  obtain ⟨k, hk⟩ := reads_package none _ hp
  have hn : d.rels.nodes = relationshipsN ((d.rels.rels.map fun x => (⟨x.2.1, x.1, x.2.2, none⟩ : Relation)).flatMap relationN) := by
    rw [flatMap_map']
    rfl
  have hpl : ∀ r ∈ d.rels.rels.map fun x => (⟨x.2.1, x.1, x.2.2, none⟩ : Relation), PlainRelation r := by
    intro r hr
    obtain ⟨x, hx, rfl⟩ := List.mem_map.1 hr
    obtain ⟨h1, h2, h3⟩ := hp x hx
    exact ⟨h2, h1, h3, fun m e => by cases e⟩
  have hback : ((d.rels.rels.map fun x => (⟨x.2.1, x.1, x.2.2, none⟩ : Relation)).map fun r => (r.type, r.id, r.target)) = d.rels.rels := by
    rw [List.map_map]
    exact List.map_id _
  refine ⟨_, d.rels.rels.map fun x => ⟨x.2.1, x.1, x.2.2, none⟩, k, readText_const (packed_nodup h) he (by constructor <;> decide),
    ⟨_, he, ?_⟩, fun n hn => ?_, ?_⟩
  · have hok : OkF d.rels.nodes := by
      refine Rels.ok _ fun s hs => ?_
      obtain ⟨x, hx, hs⟩ := List.mem_flatMap.1 hs
      obtain ⟨h1, h2, h3⟩ := hp x hx
      simp only [List.mem_cons, List.not_mem_nil, or_false] at hs
      rcases hs with rfl | rfl | rfl
      · exact h1.stored
      · exact h2.stored
      · exact h3.stored
    rw [hn] at hok ⊢
    rw [relations_read none _ hok, decode_plain hpl]
  · rw [hk n hn, hback]
  · rw [hback]
    obtain ⟨more, e, _⟩ := hr
    rw [e]
    simp only [Rels.findTarget]
    rw [List.find?_append]
    have : (packageRelations.find? fun x => decide (x.1 = c!"http://schemas.openxmlformats.org/officeDocument/2006/relationships/officeDocument")) =
      some (officeRel c!"officeDocument", c!"rId3", c!"word/document.xml") := by decide +kernel
    rw [this]
    rfl

theorem PicName.noSlash {s : Str} (h : PicName s) : '\\' ∉ s := by
  have hd : ∀ c ∈ c!"0123456789", c ≠ '\\' := by decide
  have hn : ∀ n, '\\' ∉ dec n := fun n hm => hd _ (dec_digits n _ hm) rfl
  obtain ⟨n, rfl | ⟨k, rfl⟩⟩ := h
  · intro hm
    rcases List.mem_append.1 hm with hm | hm
    · revert hm; decide
    · exact hn n hm
  · intro hm
    rcases List.mem_append.1 hm with hm | hm
    · rcases List.mem_append.1 hm with hm | hm
      · rcases List.mem_append.1 hm with hm | hm
        · revert hm; decide
        · exact hn n hm
      · revert hm; decide
    · exact hn k hm

/-- The places of the relationships of a main document. -/
theorem places {r : DocumentRels} {imgs ls : List (Str × Str)}
    {P : Str × Str → Str → Bytes → Prop} (h6 : ∀ x ∈ imgs, PicName x.1 ∧ ∃ name b, PicName name ∧ x.2 = mediaTarget name ∧ P x name b) :
    ∀ q ∈ r.fixedRelations ++ r.partRelations ++ imgs.map imageRelation ++ ls.map linkRelation, q.mode = none →
      q.type ≠ officeRel c!"hyperlink" ∧ (¬ c!"../" <+: q.target → placeOf c!"word" q = targetEntry q.target ∧ LookedUp (targetEntry q.target)) := by
  have key : ∀ q : Relation, q.type ≠ officeRel c!"hyperlink" → '\\' ∉ q.target → q.type ≠ officeRel c!"hyperlink" ∧
      (¬ c!"../" <+: q.target → placeOf c!"word" q = targetEntry q.target ∧ LookedUp (targetEntry q.target)) := by
    intro q h1 h2
    refine ⟨h1, fun h3 => ?_⟩
    unfold placeOf targetEntry
    have h1' : q.type ≠ c!"http://schemas.openxmlformats.org/officeDocument/2006/relationships/hyperlink" := fun e => h1 (e.trans (by decide))
    rw [if_neg h1', if_neg h3]
    refine ⟨by simp, by simp, fun hm => ?_⟩
    rcases List.mem_append.1 hm with hm | hm
    · revert hm; decide
    · exact h2 hm
  have hd : ∀ c ∈ c!"0123456789", c ≠ '\\' := by decide
  have hn : ∀ n, '\\' ∉ dec n := fun n hm => hd _ (dec_digits n _ hm) rfl
  have hnum : ∀ {rid : Nat → Str} {kind pre : Str} {l : List Nat}, '\\' ∉ pre → ∀ q ∈ l.map (numberedRelation rid kind pre), '\\' ∉ q.target := by
    intro rid kind pre l hp q hq hm
    obtain ⟨i, _, rfl⟩ := List.mem_map.1 hq
    rcases List.mem_append.1 hm with hm | hm
    · rcases List.mem_append.1 hm with hm | hm
      · exact hp hm
      · exact hn _ hm
    · revert hm; decide
  intro q hq hmode
  simp only [List.mem_append] at hq
  rcases hq with ((hq | hq) | hq) | hq
  · refine key q ?_ ?_
    · have := (fixed_relations r).2 q hq
      have h' : ∀ t ∈ fixedTypes, t ≠ officeRel c!"hyperlink" := by decide
      exact h' _ this.1
    · have h1 : ∀ x ∈ ({ hasComments := true, hasNumberings := true, hasFootnotes := true } : DocumentRels).fixedRelations,
        '\\' ∉ x.target := by decide
      refine h1 q ?_
      unfold DocumentRels.fixedRelations at hq ⊢
      simp only [if_true]
      simp only [List.mem_append] at hq ⊢
      rcases hq with ((hx | hx) | hx) | hx
      · exact .inl (.inl (.inl hx))
      · refine .inl (.inl (.inr ?_)); split at hx; exacts [hx, absurd hx (by simp)]
      · refine .inl (.inr ?_); split at hx; exacts [hx, absurd hx (by simp)]
      · refine .inr ?_; split at hx; exacts [hx, absurd hx (by simp)]
  · refine key q ?_ ?_
    · have := (part_relations_apart r).2 q hq
      have h' : ∀ t ∈ [officeRel c!"header", officeRel c!"footer", officeRel c!"customXml"], t ≠ officeRel c!"hyperlink" := by decide
      exact h' _ this.1
    · unfold DocumentRels.partRelations at hq
      simp only [List.mem_append] at hq
      rcases hq with (hq | hq) | hq
      · exact hnum (by decide) q hq
      · exact hnum (by decide) q hq
      · exact hnum (by decide) q hq
  · obtain ⟨y, hy, rfl⟩ := List.mem_map.1 hq
    obtain ⟨_, name, b, hpn, e, _⟩ := h6 y hy
    refine key _ (fun h : officeRel c!"image" = officeRel c!"hyperlink" => absurd h (by decide)) ?_
    show '\\' ∉ y.2
    rw [e]
    intro hm
    rcases List.mem_append.1 hm with hm | hm
    · rcases List.mem_append.1 hm with hm | hm
      · revert hm; decide
      · exact PicName.noSlash hpn hm
    · revert hm; decide
  · obtain ⟨y, hy, rfl⟩ := List.mem_map.1 hq
    cases hmode

/-- The relationships of the main document, with what their places look like. -/
theorem document_relations_read (cs : List Call) (d : DocxFile) (env : Env) (w : World) (es : List Entry) (hc : DocxFile.new.calls cs = some d)
    (hp : ∀ l, (env.links l).Perm l) (hm : Made d.document) (h : Packed env d w es) :
    ∃ rs, HasRelations es c!"word/_rels/document.xml.rels" rs ∧ ReadsRelations es c!"word/document.xml" c!"word" rs ∧
      ∀ r ∈ rs, r.mode = none → r.type ≠ officeRel c!"hyperlink" ∧
        (¬ c!"../" <+: r.target → placeOf c!"word" r = targetEntry r.target ∧ LookedUp (targetEntry r.target)) := by
  obtain ⟨r, ls, h1, h2, h3, h4, _, _, _, _, _, h5, h6, h7, _⟩ := packed_rels_written (calls_sound hc) hp hm.nameable h
  generalize (collectImages env.crc (d.prepareForBuild env w).1.document).documentRels = imgs at h3 h5 h6
  have hstr := h2
  have hdec : ∀ q ∈ r.relations, q.Decodes := by
    intro q hq
    unfold DocumentRels.relations at hq
    simp only [List.mem_append] at hq
    unfold DocumentRels.strings at hstr
    rcases hq with ((hq | hq) | hq) | hq
    · exact (fixed_plain r q hq).decodes
    · exact (parts_plain r q hq).decodes
    · obtain ⟨y, hy, rfl⟩ := List.mem_map.1 hq
      refine ⟨?_, (plain_lit (s := officeRel c!"image") (by decide)).stored.2.1, ?_, fun m e => by cases e⟩
      · exact (hstr y.1 (List.mem_append_left _ (List.mem_flatMap.2 ⟨y, hy, .head _⟩))).2.1
      · exact (hstr y.2 (List.mem_append_left _ (List.mem_flatMap.2 ⟨y, hy, .tail _ (.head _)⟩))).2.1
    · obtain ⟨y, hy, rfl⟩ := List.mem_map.1 hq
      refine ⟨?_, (plain_lit (s := officeRel c!"hyperlink") (by decide)).stored.2.1, ?_, fun m e => ?_⟩
      · exact (hstr y.1 (List.mem_append_right _ (List.mem_flatMap.2 ⟨y, hy, .head _⟩))).2.1
      · exact (hstr y.2.1 (List.mem_append_right _ (List.mem_flatMap.2 ⟨y, hy, .tail _ (.head _)⟩))).2.1
      · obtain rfl := Option.some.inj e
        exact (hstr y.2.2 (List.mem_append_right _ (List.mem_flatMap.2 ⟨y, hy, .tail _ (.tail _ (.head _))⟩))).2.1
  have hrs : r.relations.map Relation.seen = r.fixedRelations ++ r.partRelations ++ imgs.map imageRelation ++ ls.map linkRelation := by
    rw [← decode_seen hdec]
    unfold DocumentRels.relations
    rw [List.filterMap_append, List.filterMap_append, List.filterMap_append, decode_plain (fixed_plain r), decode_plain (parts_plain r), h3, h4]
  have hok : OkF (relationshipsN (r.relations.flatMap relationN)) := by
    rw [← documentRels_nodes]
    exact DocumentRels.ok r h2
  refine ⟨_, ⟨_, h1, documentRels_read r h2⟩, ?_⟩
  rw [h3, h4, ← hrs]
  refine ⟨?_, ?_⟩
  rotate_left
  · rw [hrs]
    exact places h6
  have hf : c!"word" ≠ [] ∧ (c!"word").getLast? ≠ some '/' := by constructor <;> decide
  have hti : ∀ q ∈ imgs.map imageRelation, q.type = officeRel c!"image" := by
    intro q hq
    obtain ⟨y, _, rfl⟩ := List.mem_map.1 hq
    rfl
  have htl : ∀ q ∈ ls.map linkRelation, q.type = officeRel c!"hyperlink" := by
    intro q hq
    obtain ⟨y, _, rfl⟩ := List.mem_map.1 hq
    rfl
  obtain ⟨f1, f2⟩ := fixed_relations r
  obtain ⟨p1, p2⟩ := part_relations_apart r
  have hord : ∀ q ∈ r.relations.map Relation.seen, Ordinary q := by
    intro q hq
    rw [hrs] at hq
    simp only [List.mem_append] at hq
    rcases hq with ((hq | hq) | hq) | hq
    · exact .inr ⟨no_hyperlink (List.mem_append_left _ (f2 q hq).1), (f2 q hq).2.1⟩
    · refine .inr ⟨no_hyperlink (List.mem_append_right _ ?_), (p2 q hq).2⟩
      have : ∀ t ∈ [officeRel c!"header", officeRel c!"footer", officeRel c!"customXml"],
        t ∈ [officeRel c!"header", officeRel c!"footer", officeRel c!"customXml", officeRel c!"image"] := by decide
      exact this _ (p2 q hq).1
    · refine .inr ⟨no_hyperlink (List.mem_append_right _ (by rw [hti q hq]; decide)), ?_⟩
      obtain ⟨y, hy, rfl⟩ := List.mem_map.1 hq
      obtain ⟨_, name, b, _, e, _⟩ := h6 y hy
      show y.2.head? ≠ _
      rw [e]
      exact mediaTarget_head name
    · exact .inl ((htl q hq).trans (by decide))
  have hap : Apart (r.relations.map Relation.seen) := by
    rw [hrs]
    refine apart_append (apart_append (apart_append f1 p1 ?_) ?_ ?_) ?_ ?_
    · intro q hq q' hq'
      have : ∀ t ∈ fixedTypes, ∀ t' ∈ [officeRel c!"header", officeRel c!"footer", officeRel c!"customXml"], t ≠ t' := by decide
      exact this _ (f2 q hq).1 _ (p2 q' hq').1
    · refine apart_of_nodup ?_
      rw [List.map_map]
      exact h5
    · intro q hq q' hq'
      rw [hti q' hq']
      have : ∀ t ∈ fixedTypes ++ [officeRel c!"header", officeRel c!"footer", officeRel c!"customXml"], t ≠ officeRel c!"image" := by decide
      rcases List.mem_append.1 hq with hq | hq
      · exact this _ (List.mem_append_left _ (f2 q hq).1)
      · exact this _ (List.mem_append_right _ (p2 q hq).1)
    · refine apart_of_nodup ?_
      rw [List.map_map]
      exact h7.nodup
    · intro q hq q' hq'
      rw [htl q' hq']
      have : ∀ t ∈ fixedTypes ++ [officeRel c!"header", officeRel c!"footer", officeRel c!"customXml"], t ≠ officeRel c!"hyperlink" := by decide
      rcases List.mem_append.1 hq with hq | hq
      · rcases List.mem_append.1 hq with hq | hq
        · exact this _ (List.mem_append_left _ (f2 q hq).1)
        · exact this _ (List.mem_append_right _ (p2 q hq).1)
      · rw [hti q hq]; decide
  obtain ⟨m, k, hk, hfind⟩ := relations_readFrom none hf r.relations hok hdec (fun q hq => hord _ (List.mem_map_of_mem hq)) hap
  refine ⟨m, k, fun n hn => ?_, hfind⟩
  have e1 : pathParent c!"word/document.xml" = some c!"word" := by decide +kernel
  have e2 : relsFileName c!"word/document.xml" = some c!"word/_rels/document.xml.rels" := by decide +kernel
  rw [documentRels_nodes] at h1
  simp only [readPartRels, e1, e2, Got.ofOption, Got.bind, readText_const (packed_nodup h) h1 (by constructor <;> decide), hk n hn, Read.got]

/-- **C56.** The relationships of the main document of a written file are found exactly as they stand in
`word/_rels/document.xml.rels`: asking for a type gives the ids, places and modes of the relationships of that type. -/
theorem C56_document (cs : List Call) (d : DocxFile) (env : Env) (w : World) (es : List Entry) (hc : DocxFile.new.calls cs = some d)
    (hp : ∀ l, (env.links l).Perm l) (hm : Made d.document) (h : Packed env d w es) :
    ∃ rs, HasRelations es c!"word/_rels/document.xml.rels" rs ∧ ReadsRelations es c!"word/document.xml" c!"word" rs := by
  obtain ⟨rs, h1, h2, _⟩ := document_relations_read cs d env w es hc hp hm h
  exact ⟨rs, h1, h2⟩

/-- **C56.** Every internal target of the main document that is not in another folder is a part the reader finds, when no header or
footer slot is set twice. -/
theorem C56_parts_found_partial (cs : List Call) (d : DocxFile) (env : Env) (w : World) (es : List Entry)
    (hc : DocxFile.new.calls cs = some d) (hpl : Plainly cs) (ho : ∀ side, Once side cs) (hp : ∀ l, (env.links l).Perm l)
    (hm : Made d.document) (h : Packed env d w es) :
    ∃ m k, (∀ n, k ≤ n → readPartRels n es c!"word/document.xml" = .ok m) ∧
      ∀ ty ts, m.targets ty = some ts → ∀ t ∈ ts, t.mode = none → ¬ c!"word/../" <+: t.path → (readZip es t.path).isSome := by
  obtain ⟨rs, h1, ⟨m, k, h2, h3⟩, hpl'⟩ := document_relations_read cs d env w es hc hp hm h
  obtain ⟨rs', h4, h5⟩ := C18_targets_exist_partial cs d env w es hc hpl ho hp hm h
  obtain ⟨s, a1, rfl⟩ := h1
  obtain ⟨s', b1, rfl⟩ := h4
  have e := entry_unique (packed_nodup h) a1 b1
  simp only [Content.text.injEq] at e
  subst e
  refine ⟨m, k, h2, fun ty ts e t ht hmode hup => ?_⟩
  obtain ⟨r, hr, _, rfl⟩ := (h3.mem ty t).1 ⟨ts, e, ht⟩
  dsimp only at hmode hup ⊢
  have hup' : ¬ c!"../" <+: r.target := by
    intro hpre
    apply hup
    unfold placeOf
    split
    · rename_i e
      exact absurd (e.trans (by decide)) (hpl' r hr hmode).1
    · obtain ⟨t, e⟩ := hpre
      exact ⟨t, by rw [← e]; simp⟩
  obtain ⟨e1, e2⟩ := (hpl' r hr hmode).2 hup'
  obtain ⟨c, hc', _⟩ := h5 r hr hmode
  rw [e1, readZip_of (packed_nodup h) hc' e2]
  rfl

/-! ## Headers and footers -/

theorem dec_simple (n : Nat) : ∀ c ∈ dec n, c ≠ '/' ∧ c ≠ '.' ∧ c ≠ '\\' := fun c hc => by
  have h : ∀ c ∈ c!"0123456789", c ≠ '/' ∧ c ≠ '.' ∧ c ≠ '\\' := by decide
  exact h c (dec_digits n c hc)

theorem side_paths (side : Side) (n : Nat) : pathParent (side.entry n) = some c!"word" ∧ relsFileName (side.entry n) = some (side.relsEntry n) ∧
    LookedUp (side.relsEntry n) := by
  have hs : ∀ kind : Str, kind ≠ [] → (∀ c ∈ kind, c ≠ '/' ∧ c ≠ '.' ∧ c ≠ '\\') →
      pathParent (c!"word/" ++ kind ++ dec n ++ c!".xml") = some c!"word" ∧
      relsFileName (c!"word/" ++ kind ++ dec n ++ c!".xml") = some (c!"word/_rels/" ++ kind ++ dec n ++ c!".xml.rels") ∧
      LookedUp (c!"word/_rels/" ++ kind ++ dec n ++ c!".xml.rels") := by
    intro kind h0 h
    have hc : ∀ c ∈ kind ++ dec n, c ≠ '/' ∧ c ≠ '.' ∧ c ≠ '\\' := by
      intro c hc
      rcases List.mem_append.1 hc with hc | hc
      · exact h c hc
      · exact dec_simple n c hc
    obtain ⟨h1, h2⟩ := relsFileName_eq (d := c!"word") (b := kind ++ dec n) (by constructor <;> decide)
      ⟨by simp [h0], fun c h => ⟨(hc c h).1, (hc c h).2.1⟩⟩
    have e1 : c!"word/" ++ kind ++ dec n ++ c!".xml" = c!"word" ++ c!"/" ++ (kind ++ dec n) ++ c!".xml" := by simp
    have e2 : c!"word/_rels/" ++ kind ++ dec n ++ c!".xml.rels" = c!"word" ++ c!"/_rels/" ++ (kind ++ dec n) ++ c!".xml.rels" := by simp
    rw [e1, e2]
    refine ⟨h2, h1, by simp, fun hm => ?_⟩
    rcases List.mem_append.1 hm with hm | hm
    · rcases List.mem_append.1 hm with hm | hm
      · revert hm; decide
      · exact (hc _ hm).2.2 rfl
    · revert hm; decide
  cases side
  · exact hs c!"header" (by decide) (by decide)
  · exact hs c!"footer" (by decide) (by decide)

/-- **C56.** The relationships of a header (or footer) of a written file are found exactly as they stand in its relationship file when
it has pictures. When it has none there is no such file, and the reader takes the relationships to be empty. -/
theorem C56_headers (side : Side) (d : DocxFile) (env : Env) (w : World) (es : List Entry) (hm : MadePictures d.document)
    (h : Packed env d w es) (j : Nat) (x : Header) (hx : (side.ofDocument d.document)[j]? = some x) :
    (partPictures (walkHeader [] x) ≠ [] →
      ∃ rs, HasRelations es (side.relsEntry (j + 1)) rs ∧ ReadsRelations es (side.entry (j + 1)) c!"word" rs) ∧
    (partPictures (walkHeader [] x) = [] → ∀ n, (readPartRels n es (side.entry (j + 1))).orElse [] = .ok []) := by
  obtain ⟨h0, h', s, g, g', h4, h5, h6, h7⟩ := (part_relations_written side d env w es hm h).2 j x hx
  obtain ⟨e1, e2, e3⟩ := side_paths side (j + 1)
  constructor
  · intro hne
    obtain ⟨o, k1, k2, k3, k4, _⟩ := h7 hne
    refine ⟨_, ⟨_, k1, imageRelations_read o k2⟩, ?_⟩
    have e : imageRelsN o = relationshipsN ((o.map imageRelation).flatMap relationN) := by
      unfold imageRelsN
      rw [flatMap_map']
      rfl
    have ht : relText o = constText none (relationshipsN ((o.map imageRelation).flatMap relationN)) := by rw [← e]; rfl
    have hok := imageRels_ok o (by
      intro s hs
      obtain ⟨x, hx, hs⟩ := List.mem_flatMap.1 hs
      simp only [List.mem_cons, List.not_mem_nil, or_false] at hs
      rcases hs with rfl | rfl
      · exact (k2 x hx).1.stored
      · exact (k2 x hx).2.stored)
    have hpl : ∀ r ∈ o.map imageRelation, PlainRelation r := by
      intro r hr
      obtain ⟨x, hx, rfl⟩ := List.mem_map.1 hr
      exact ⟨(k2 x hx).1, plain_lit (s := officeRel c!"image") (by decide), (k2 x hx).2, fun m hm => by cases hm⟩
    have hseen : (o.map imageRelation).map Relation.seen = o.map imageRelation := by
      rw [← decode_seen fun r hr => (hpl r hr).decodes, decode_plain hpl]
    rw [e] at hok
    obtain ⟨m, k, hk, hf⟩ := relations_readFrom none (folder := c!"word") (by constructor <;> decide) (o.map imageRelation) hok
      (fun r hr => (hpl r hr).decodes) (fun r hr => by
        rw [(hpl r hr).same]
        refine .inr ⟨no_hyperlink (List.mem_append_right _ ?_), ?_⟩
        · obtain ⟨y, _, rfl⟩ := List.mem_map.1 hr
          exact .tail _ (.tail _ (.tail _ (.head _)))
        · obtain ⟨y, hy, rfl⟩ := List.mem_map.1 hr
          obtain ⟨name, e⟩ := k3 y hy
          show y.2.head? ≠ _
          rw [e]
          exact mediaTarget_head name)
      (by rw [hseen]; exact apart_of_nodup (by rw [List.map_map]; exact k4))
    rw [hseen] at hf
    refine ⟨m, k, fun n hn => ?_, hf⟩
    rw [ht] at k1
    simp only [readPartRels, e1, e2, Got.ofOption, Got.bind, readText_const (packed_nodup h) k1 e3, hk n hn, Read.got]
  · intro hno n
    have hfile : ¬ HasFile es (side.relsEntry (j + 1)) := fun hf => h0.1 hf hno
    have : readText es (side.relsEntry (j + 1)) = none := by
      unfold readText readZip
      rw [entryName_of e3]
      cases hl : (es.filter fun e => decide (e.name = side.relsEntry (j + 1))).getLast? with
      | none => rfl
      | some e =>
        have hmem := List.mem_filter.1 (List.mem_of_getLast? hl)
        obtain ⟨name, c⟩ := e
        have hname : name = side.relsEntry (j + 1) := by simpa using hmem.2
        subst hname
        cases c with
        | directory => rfl
        | bytes b => rfl
        | text t => exact absurd ⟨_, hmem.1, by simp⟩ hfile
    simp only [readPartRels, e1, e2, Got.ofOption, Got.bind, this, Got.orElse]

/-! ## Examples -/

example : c!"word" ≠ [] ∧ (c!"word").getLast? ≠ some '/' ∧ c!"document" ≠ [] ∧ ∀ c ∈ c!"document", c ≠ '/' ∧ c ≠ '.' := by decide

/-- A file with pictures, links, headers, footers and custom items: its relationships are found. -/
example : ∃ d es, DocxFile.new.calls fullCalls = some d ∧ Packed anEnv d {} es ∧
    (∃ rs, HasRelations es c!"word/_rels/document.xml.rels" rs ∧ ReadsRelations es c!"word/document.xml" c!"word" rs) ∧
    (∃ m k, (∀ n, k ≤ n → readPartRels n es c!"word/document.xml" = .ok m) ∧
      ∀ ty ts, m.targets ty = some ts → ∀ t ∈ ts, t.mode = none → ¬ c!"word/../" <+: t.path → (readZip es t.path).isSome) := by
  obtain ⟨d, es, h1, h2, h3, h4, h5, h6, _⟩ := fullCalls_meets
  exact ⟨d, es, h1, h2, C56_document fullCalls d anEnv {} es h1 h3 h4 h2, C56_parts_found_partial fullCalls d anEnv {} es h1 h5 h6 h3 h4 h2⟩

/-- A header without and a header with a picture. -/
example : ∃ d es, DocxFile.new.calls pictureCalls = some d ∧ Packed anEnv d {} es ∧ MadePictures d.document ∧
    (headersOf d.document).map (fun h => (partPictures (walkHeader [] h)).length) = [0, 1] := by
  obtain ⟨d, es, h1, h2, h3, h4, _⟩ := pictureCalls_meets
  exact ⟨d, es, h1, h2, h3, h4⟩

end Docx.Props
