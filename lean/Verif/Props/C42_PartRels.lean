import Verif.Lemmas.PartRels
import Verif.Lemmas.Passed
import Verif.Lemmas.Witness
import Verif.Spec.References

/-!
# C42: the relationships of headers and footers; C13 for written packages
-/

namespace Docx.Props

set_option linter.unusedSimpArgs false

open Docx Docx.Spec Docx.Xml

theorem entry_eq (side : Side) (n : Nat) : partName (Side.kind side) n = side.entry n := by
  have h1 : c!"word/" ++ c!"header" = c!"word/header" := by decide
  have h2 : c!"word/" ++ c!"footer" = c!"word/footer" := by decide
  cases side
  · exact congrArg (fun p => p ++ dec n ++ c!".xml") h1
  · exact congrArg (fun p => p ++ dec n ++ c!".xml") h2

theorem relsEntry_eq (side : Side) (n : Nat) : partRelsName (Side.kind side) n = side.relsEntry n := by
  have h1 : c!"word/_rels/" ++ c!"header" = c!"word/_rels/header" := by decide
  have h2 : c!"word/_rels/" ++ c!"footer" = c!"word/_rels/footer" := by decide
  cases side
  · exact congrArg (fun p => p ++ dec n ++ c!".xml.rels") h1
  · exact congrArg (fun p => p ++ dec n ++ c!".xml.rels") h2

theorem ofDocument_eq (side : Side) (d : Document) : side.ofDocument d = (Side.all side d).map Prod.snd := by
  rw [heads_all]
  cases side <;> rfl

/-- The names of media files have no special characters. -/
theorem media_plain {d : DocxFile} {env : Env} {w : World} (hm : MadePictures d.document) :
    ∀ m ∈ (collectImages env.crc (d.prepareForBuild env w).1.document).media, Plain m.1 := by
  intro m hmm
  have hpics := prepareForBuild_pictures env d w
  have hparts := fun side => prepareForBuild_parts side env d w
  obtain ⟨h1, _⟩ := collectImages_names env.crc (d.prepareForBuild env w).1.document
  generalize (d.prepareForBuild env w).1.document = x at hpics hparts h1 hmm
  have hside : ∀ side : Side, ∀ h ∈ (Side.all side x).map Prod.snd, MediaNamed (Side.kind side) (headerItems h) m.1 → Plain m.1 := by
    intro side h hh hn
    obtain ⟨p, hp, hn⟩ := hn
    obtain ⟨y, hy, rfl⟩ := List.mem_map.1 hh
    have hy' : (y.1, blankHeader y.2) ∈ (Side.all side x).map fun x => (x.1, blankHeader x.2) := List.mem_map_of_mem hy
    rw [hparts side] at hy'
    obtain ⟨z, hz, e⟩ := List.mem_map.1 hy'
    obtain ⟨n, e'⟩ := hm.parts side z.2 (by rw [ofDocument_eq]; exact List.mem_map_of_mem hz) p (by
      rw [blank_pictures (Prod.ext_iff.1 e).2]
      exact mem_partPictures.2 hp)
    rw [e'] at hn
    refine Plain.named (Plain.append ?_ ((plain_lit (by decide)).append (plain_dec n))) hn
    cases side <;> exact plain_lit (by decide)
  rcases h1 m hmm with ⟨p, hp, hn⟩ | ⟨h, hh, hn⟩ | ⟨h, hh, hn⟩
  · obtain ⟨n, e⟩ := hm.body p (by rw [← hpics]; exact mem_partPictures.2 hp)
    rw [e] at hn
    exact Plain.named (Plain.append (plain_lit (s := []) (by decide)) ((plain_lit (by decide)).append (plain_dec n))) hn
  · exact hside .header h (by rw [heads_all]; exact hh) hn
  · exact hside .footer h (by rw [heads_all]; exact hh) hn

theorem officeImage : officeRel c!"image" = imageType := by decide

theorem imageRelations_read (o : List (Str × Str)) (h : ∀ x ∈ o, Plain x.1 ∧ Plain x.2) :
    relationsIn (readEvents (relText o)) = o.map imageRelation := by
  have e : imageRelsN o = relationshipsN ((o.map imageRelation).flatMap relationN) := by
    unfold imageRelsN
    rw [flatMap_map']
    rfl
  have hok := imageRels_ok o (by
    intro s hs
    obtain ⟨x, hx, hs⟩ := List.mem_flatMap.1 hs
    simp only [List.mem_cons, List.not_mem_nil, or_false] at hs
    rcases hs with rfl | rfl
    · exact (h x hx).1.stored
    · exact (h x hx).2.stored)
  have ht : relText o = constText none (imageRelsN o) := rfl
  rw [ht, e, relations_read none _ (by rw [← e]; exact hok), decode_plain]
  intro r hr
  obtain ⟨x, hx, rfl⟩ := List.mem_map.1 hr
  exact ⟨(h x hx).1, plain_lit (s := officeRel c!"image") (by decide), (h x hx).2, fun m hm => by simp [imageRelation] at hm⟩

theorem found_of_ok {es : List Entry} {media : List (Str × Bytes)} {a b : Walk} {rels : List (Str × Str)}
    (h : PartOk media (visited a) (visited b) rels) (hs : ∀ m ∈ media, ⟨mediaName m.1, .bytes m.2⟩ ∈ es) :
    PicturesFound es (rels.map imageRelation) (partPictures a) (partPictures b) := by
  rw [partPictures_eq, partPictures_eq]
  refine (matches_pictures h.items).imp fun p q hpq => ⟨hpq.1, ?_⟩
  obtain ⟨name, h1, h2⟩ := hpq.2
  refine ⟨mediaTarget name, ?_, hs _ h2⟩
  have hx : imageRelation (q.id, mediaTarget name) ∈ rels.map imageRelation := List.mem_map_of_mem h1
  have := filter_key Relation.id (rels.map imageRelation) _ hx (by rw [List.map_map]; exact h.ids)
  rw [← officeImage]
  exact this

/-- The relationship parts of headers and footers as they are written. -/
theorem part_relations_written (side : Side) (d : DocxFile) (env : Env) (w : World) (es : List Entry) (hm : MadePictures d.document)
    (h : Packed env d w es) :
    (∀ n, HasFile es (side.relsEntry n) → ∃ j x, n = j + 1 ∧ (side.ofDocument d.document)[j]? = some x) ∧
    ∀ j x, (side.ofDocument d.document)[j]? = some x →
      (HasFile es (side.relsEntry (j + 1)) ↔ partPictures (walkHeader [] x) ≠ []) ∧
      ∃ h' s g g', ⟨side.entry (j + 1), .text s⟩ ∈ es ∧ side.write h' g = some (.ok s, g') ∧ bareHeader h' = bareHeader x ∧
        (partPictures (walkHeader [] x) ≠ [] → ∃ o : List (Str × Str), ⟨side.relsEntry (j + 1), .text (relText o)⟩ ∈ es ∧
          (∀ r ∈ o, Plain r.1 ∧ Plain r.2) ∧ (∀ r ∈ o, ∃ name, r.2 = mediaTarget name) ∧ (o.map Prod.fst).Nodup ∧
          PicturesFound es (o.map imageRelation) (partPictures (walkHeader [] x)) (partPictures (walkHeader [] h')) ∧
          ∀ r ∈ o.map imageRelation, r.id ∈ (partPictures (walkHeader [] h')).map Pic.id) := by
  have hf := packed_fits h
  have hparts := prepareForBuild_parts side env d w
  have hplain := media_plain (env := env) (w := w) hm
  have hbare := prepared_parts side env d w
  have hdoc := preparePackage_document env d w
  have himg := preparePackage_images env d w
  obtain ⟨out, hn⟩ := part_images side env.crc (d.prepareForBuild env w).1.document
  generalize (d.prepareForBuild env w).1.document = x0 at hparts hplain hdoc himg hn
  generalize collectImages env.crc x0 = i at hplain hdoc himg hn
  generalize d.preparePackage env w = q at hf hdoc himg hbare
  have hmeta : Side.metadata side q.2.1 = sparseFrom 0 out := by
    rw [← sparse_eq, ← hn.rels, himg]
    cases side <;> rfl
  have hlen : ((Side.all side q.1.document).map Prod.snd).length = out.length := by
    rw [List.length_map, hdoc, hn.length, hn.outs]
  have hlen0 : (Side.all side x0).length = (Side.all side d.document).length := by
    have := congrArg List.length hparts
    rwa [List.length_map, List.length_map] at this
  have hsteps := partSteps_eq (Side.kind side) side.write ((Side.all side q.1.document).map Prod.snd) out 0 hlen
  obtain ⟨n1, n2⟩ := numberedSteps_rels (Side.kind side) side.write (kind_names_differ side)
    (((Side.all side q.1.document).map Prod.snd).zip out) 0
  have hmedia : ∀ m ∈ i.media, ⟨mediaName m.1, .bytes m.2⟩ ∈ es := fun m hm' =>
    fits_store hf (step_media env q.1 q.2.1 m (by rw [himg]; exact hm'))
  -- the parts written for a number
  have hwritten : ∀ n, HasFile es (side.relsEntry n) → ∃ j o, n = j + 1 ∧ out[j]? = some o ∧ o ≠ [] := by
    intro n ⟨c, hc, _⟩
    have hname : side.relsEntry n ∈ (zipDocxSteps env q.1 q.2.1).map ZipStep.name := by
      rw [← fits_names hf]
      exact List.mem_map_of_mem (f := Entry.name) hc
    rw [← relsEntry_eq] at hname
    have hname := rels_name_part hname
    rw [hmeta, hsteps] at hname
    obtain ⟨j, y, e1, e2, e3⟩ := n2 n hname
    rw [List.getElem?_zip_eq_some] at e2
    exact ⟨j, y.2, by omega, e2.2, e3⟩
  refine ⟨fun n hfile => ?_, fun j x hx => ?_⟩
  · obtain ⟨j, o, e1, e2, _⟩ := hwritten n hfile
    have hj : j < (side.ofDocument d.document).length := by
      rw [ofDocument_eq, List.length_map, ← hlen0, ← hn.outs]
      exact (List.getElem?_eq_some_iff.1 e2).1
    exact ⟨j, _, e1, List.getElem?_eq_getElem hj⟩
  · rw [ofDocument_eq, List.getElem?_map] at hx
    cases hd : (Side.all side d.document)[j]? with
    | none => rw [hd] at hx; cases hx
    | some y =>
      rw [hd] at hx
      simp only [Option.map_some, Option.some.injEq] at hx
      subst hx
      have hj : j < (Side.all side d.document).length := (List.getElem?_eq_some_iff.1 hd).1
      -- the same part later
      obtain ⟨y0, hy0⟩ : ∃ y0, (Side.all side x0)[j]? = some y0 := ⟨_, List.getElem?_eq_getElem (by rw [hlen0]; exact hj)⟩
      obtain ⟨y1, hy1⟩ : ∃ y1, (Side.all side q.1.document)[j]? = some y1 :=
        ⟨_, List.getElem?_eq_getElem (by rw [hdoc, hn.length, hlen0]; exact hj)⟩
      obtain ⟨o, ho⟩ : ∃ o, out[j]? = some o := ⟨_, List.getElem?_eq_getElem (by rw [hn.outs, hlen0]; exact hj)⟩
      have hb0 : blankHeader y0.2 = blankHeader y.2 := by
        have e := congrArg (·[j]?) hparts
        simp only [List.getElem?_map, hy0, hd, Option.map_some, Option.some.injEq, Prod.mk.injEq] at e
        exact e.2
      have hb1 : bareHeader y1.2 = bareHeader y.2 := by
        have e := congrArg (·[j]?) hbare
        simp only [List.getElem?_map, hy1, hd, Option.map_some, Option.some.injEq, Prod.mk.injEq] at e
        exact e.2
      obtain ⟨hok, hnamed⟩ := hn.ok j y0 y1 o hy0 (by rw [← hdoc]; exact hy1) ho
      have hfound := found_of_ok (es := es) hok hmedia
      rw [blank_pictures hb0] at hfound
      -- the relationships are empty exactly when there is no picture
      have hempty : o ≠ [] ↔ partPictures (walkHeader [] y.2) ≠ [] := by
        constructor
        · intro hne hno
          rw [hno] at hfound
          obtain ⟨r, hr⟩ := List.exists_mem_of_ne_nil o hne
          obtain ⟨p, hp, _⟩ := hnamed.used r hr
          have hp := mem_partPictures.2 hp
          rw [(List.forall₂_nil_left_iff.1 hfound)] at hp
          cases hp
        · intro hne hno
          rw [hno] at hfound
          cases hc : partPictures (walkHeader [] y.2) with
          | nil => exact hne hc
          | cons p l =>
            rw [hc] at hfound
            obtain ⟨q, l', hpq, _, _⟩ := List.forall₂_cons_left_iff.1 hfound
            obtain ⟨_, t, ht, _⟩ := hpq
            cases ht
      obtain ⟨s, g, g', w1, w2⟩ := fits_write hf (step_part side env q.1 q.2.1 j y1.2 (by rw [List.getElem?_map, hy1]; rfl))
      rw [entry_eq] at w2
      have hrel : o ≠ [] → ⟨side.relsEntry (j + 1), .text (relText o)⟩ ∈ es := by
        intro hne
        have := n1 j (y1.2, o) (by rw [List.getElem?_zip_eq_some]; exact ⟨by rw [List.getElem?_map, hy1]; rfl, ho⟩) hne
        rw [← hsteps, ← hmeta] at this
        have := fits_const hf (mem_partSteps (env := env) this) (imageRels_const o)
        rwa [Nat.zero_add, relsEntry_eq] at this
      refine ⟨⟨fun hfile => ?_, fun hne => ⟨_, hrel (hempty.2 hne), by simp⟩⟩, y1.2, s, g, g', w2, w1, hb1, fun hne => ?_⟩
      · obtain ⟨j', o', e1, e2, e3⟩ := hwritten _ hfile
        have : j' = j := by omega
        subst this
        rw [ho] at e2
        cases e2
        exact hempty.1 e3
      · have hplain2 : ∀ r ∈ o, Plain r.1 ∧ Plain r.2 := by
          intro r hr
          obtain ⟨p, hp, hpn⟩ := hnamed.named r hr
          obtain ⟨n, e⟩ := hm.parts side y.2 (by rw [ofDocument_eq]; exact List.mem_map_of_mem (List.mem_of_getElem? hd)) p (by
            rw [← blank_pictures hb0]
            exact mem_partPictures.2 hp)
          obtain ⟨name, b, e1, e2⟩ := hok.targets r hr
          rw [e] at hpn
          refine ⟨Plain.named (Plain.append ?_ ((plain_lit (by decide)).append (plain_dec n))) hpn, ?_⟩
          · cases side <;> exact plain_lit (by decide)
          · rw [e1]
            exact (hplain _ e2).target
        refine ⟨o, hrel (hempty.2 hne), hplain2, fun r hr => ?_, hok.ids, hfound, ?_⟩
        · obtain ⟨name, b, e1, _⟩ := hok.targets r hr
          exact ⟨name, e1⟩
        · intro r hr
          obtain ⟨x, hx, rfl⟩ := List.mem_map.1 hr
          obtain ⟨p, hp, e⟩ := hnamed.used x hx
          have := List.mem_map_of_mem (f := Pic.id) (mem_partPictures.2 hp)
          rw [e] at this
          exact this

/-- **C42.** A relationship part is written for a header (or footer) exactly when the header has a picture, and none is written for
a number without a header. It lists exactly the pictures of that header: every picture as written leads, by the one relationship
with its id, to the bytes of the picture as given, and every relationship belongs to a picture. -/
theorem C42_part_relations (side : Side) (d : DocxFile) (env : Env) (w : World) (es : List Entry) (hm : MadePictures d.document)
    (h : Packed env d w es) :
    (∀ n, HasFile es (side.relsEntry n) → ∃ j x, n = j + 1 ∧ (side.ofDocument d.document)[j]? = some x) ∧
    ∀ j x, (side.ofDocument d.document)[j]? = some x →
      (HasFile es (side.relsEntry (j + 1)) ↔ partPictures (walkHeader [] x) ≠ []) ∧
      ∃ h' s g g', ⟨side.entry (j + 1), .text s⟩ ∈ es ∧ side.write h' g = some (.ok s, g') ∧ bareHeader h' = bareHeader x ∧
        (partPictures (walkHeader [] x) ≠ [] → ∃ rs, HasRelations es (side.relsEntry (j + 1)) rs ∧ (rs.map Relation.id).Nodup ∧
          PicturesFound es rs (partPictures (walkHeader [] x)) (partPictures (walkHeader [] h')) ∧
          ∀ r ∈ rs, r.id ∈ (partPictures (walkHeader [] h')).map Pic.id) := by
  obtain ⟨h1, h2⟩ := part_relations_written side d env w es hm h
  refine ⟨h1, fun j x hx => ?_⟩
  obtain ⟨h3, h', s, g, g', h4, h5, h6, h7⟩ := h2 j x hx
  refine ⟨h3, h', s, g, g', h4, h5, h6, fun hne => ?_⟩
  obtain ⟨o, k1, k2, _, k4, k5, k6⟩ := h7 hne
  exact ⟨_, ⟨_, k1, imageRelations_read o k2⟩, by rw [List.map_map]; exact k4, k5, k6⟩

theorem relations_image {r : DocumentRels} {imgs ls : List (Str × Str)} (hn : (imgs.map Prod.fst).Nodup) (hi : ∀ x ∈ imgs, PicName x.1)
    (hl : ∀ x ∈ ls, ∃ n, x.1 = createHyperlinkRid n) {x : Str × Str} (hx : x ∈ imgs) :
    (r.fixedRelations ++ r.partRelations ++ imgs.map imageRelation ++ ls.map linkRelation).filter
      (fun y => decide (y.id = x.1)) = [imageRelation x] := by
  have hkx := idKey_pic (hi x hx)
  have hkey : ∀ l : List Relation, (∀ y ∈ l, idKey y.id ≠ c!"Im") → l.filter (fun y => decide (y.id = x.1)) = [] := by
    intro l hl
    refine filter_none fun y hy => ?_
    rw [decide_eq_false_iff_not]
    intro e
    exact hl y hy (by rw [e, hkx])
  have hdec : ∀ m, idKey (c!"rId" ++ dec m) ≠ c!"Im" := by
    intro m e
    obtain ⟨c, t, e1, _, _, e4⟩ := idKey_dec m
    rw [e1] at e
    injection e with e _
    exact e4 e
  have hmine : (imgs.map imageRelation).filter (fun y => decide (y.id = x.1)) = [imageRelation x] :=
    filter_key Relation.id _ (imageRelation x) (List.mem_map_of_mem hx) (by rw [List.map_map]; exact hn)
  rw [List.filter_append, List.filter_append, List.filter_append, hmine, hkey (ls.map linkRelation), hkey r.fixedRelations, hkey r.partRelations]
  · rfl
  · intro y hy
    unfold DocumentRels.partRelations at hy
    rcases List.mem_append.1 hy with hy | hy
    · rcases List.mem_append.1 hy with hy | hy
      · obtain ⟨j, _, rfl⟩ := List.mem_map.1 hy
        exact fun e => absurd ((idKey_header (j + 1)).symm.trans e) (by decide)
      · obtain ⟨j, _, rfl⟩ := List.mem_map.1 hy
        exact fun e => absurd ((idKey_footer (j + 1)).symm.trans e) (by decide)
    · obtain ⟨j, _, rfl⟩ := List.mem_map.1 hy
      exact hdec _
  · intro y hy
    have : y.id ∈ r.fixedRelations.map Relation.id := List.mem_map_of_mem hy
    rw [fixed_ids] at this
    obtain ⟨m, _, e⟩ := List.mem_map.1 this
    rw [← e]
    exact hdec m
  · intro y hy
    obtain ⟨z, hz, rfl⟩ := List.mem_map.1 hy
    obtain ⟨m, hm⟩ := hl z hz
    have hk : idKey (linkRelation z).id = c!"Hy" := by
      have : (linkRelation z).id = z.1 := rfl
      rw [this, hm]
      rfl
    exact fun e => absurd (hk.symm.trans e) (by decide)

/-- The pictures of the document as it is written, and where they lead. -/
theorem package_pictures {cs : List Call} {d : DocxFile} {env : Env} {w : World} {es : List Entry}
    (hc : DocxFile.new.calls cs = some d) (hp : ∀ l, (env.links l).Perm l) (hm : Made d.document) (h : Packed env d w es) :
    ∃ rs, HasRelations es c!"word/_rels/document.xml.rels" rs ∧
      List.Forall₂ (fun p q => SamePicture p q ∧ Plain q.id ∧ ∃ name, rs.filter (fun r => decide (r.id = q.id)) = [⟨q.id, imageType, mediaTarget name, none⟩] ∧
        ⟨c!"word/" ++ mediaTarget name, .bytes p.image⟩ ∈ es) (partPictures (walkDocument d.document))
        (partPictures (walkDocument (d.preparePackage env w).1.document)) := by
  obtain ⟨r, ls, h1, _, _, _, _, _, h7, h8, h9⟩ := packed_relations_of (calls_sound hc) hp hm.nameable h
  have hf := packed_fits h
  have hpics := prepareForBuild_pictures env d w
  have hdoc := preparePackage_document env d w
  have himg := preparePackage_images env d w
  obtain ⟨_, _, _, hok, _⟩ := collectImages_spec env.crc (d.prepareForBuild env w).1.document
  generalize (d.prepareForBuild env w).1.document = x0 at *
  generalize collectImages env.crc x0 = i at *
  generalize d.preparePackage env w = q at hf hdoc himg
  refine ⟨_, h1, ?_⟩
  rw [← hpics, partPictures_eq, partPictures_eq, hdoc]
  refine (matches_pictures hok.items).imp fun p q' hpq => ⟨hpq.1, ?_⟩
  obtain ⟨name, e1, e2⟩ := hpq.2
  refine ⟨(h8 _ e1).1.plain, name, ?_, fits_store hf (step_media env q.1 q.2.1 (name, p.image) (by rw [himg]; exact e2))⟩
  have := relations_image (r := r) (ls := ls) h7 (fun x hx => (h8 x hx).1) (fun x hx => by
    obtain ⟨n, url, e⟩ := hm.links x (h9.mem x hx)
    simp only [Hyperlink.new, HyperlinkData.external.injEq] at e
    exact ⟨n, e.1.symm⟩) e1
  rw [← officeImage]
  exact this

/-- **C13 in a written package.** Every picture of the body as given is a picture of the document that `word/document.xml` is the
written form of, at the same place, and its id is the id of exactly one relationship of the main document, which leads to an entry
with the bytes given. -/
theorem C13_package_body (cs : List Call) (d : DocxFile) (env : Env) (w : World) (es : List Entry)
    (hc : DocxFile.new.calls cs = some d) (hp : ∀ l, (env.links l).Perm l) (hm : Made d.document) (h : Packed env d w es) :
    ∃ x s g g' rs, ⟨c!"word/document.xml", .text s⟩ ∈ es ∧ Document.write x g = some (.ok s, g') ∧
      HasRelations es c!"word/_rels/document.xml.rels" rs ∧
      PicturesFound es rs (partPictures (walkDocument d.document)) (partPictures (walkDocument x)) := by
  obtain ⟨rs, h1, h2⟩ := package_pictures hc hp hm h
  obtain ⟨s, g, g', w1, w2⟩ := fits_write (packed_fits h) (step_document env _ _)
  exact ⟨_, s, g, g', rs, w2, w1, h1, h2.imp fun p q hpq => ⟨hpq.1, _, hpq.2.2.choose_spec⟩⟩

/-! ## Examples -/

private def picHeader (n : Nat) (b : UInt8) : Header :=
  { children := [.paragraph { id := c!"p", children := [.run { children := [.picture { id := createPicRid n, image := [1, b], size := (1, 1) }] }] }] }

/-- The first header has no picture, the second and a footer have one. -/
def pictureCalls : List Call :=
  [ .header (aHeader c!"h"), .firstHeader (picHeader 1 7), .footer (picHeader 1 8), .addParagraph (aParagraph c!"x") ]

private theorem picture_pack : packs (fun d _ =>
    decide (partPictures (walkDocument d.document) = [] ∧ (headersOf d.document).length = 2 ∧
      (∀ h ∈ headersOf d.document, ∀ p ∈ partPictures (walkHeader [] h), p.id = createPicRid 1) ∧
      (∀ h ∈ footersOf d.document, ∀ p ∈ partPictures (walkHeader [] h), p.id = createPicRid 1) ∧
      (headersOf d.document).map (fun h => (partPictures (walkHeader [] h)).length) = [0, 1] ∧
      (footersOf d.document).map (fun h => (partPictures (walkHeader [] h)).length) = [1])) pictureCalls = true := by decide +kernel

theorem pictureCalls_meets : ∃ d es, DocxFile.new.calls pictureCalls = some d ∧ Packed anEnv d {} es ∧ MadePictures d.document ∧
    (headersOf d.document).map (fun h => (partPictures (walkHeader [] h)).length) = [0, 1] ∧
    (footersOf d.document).map (fun h => (partPictures (walkHeader [] h)).length) = [1] := by
  obtain ⟨d, es, h1, h2, h3⟩ := packs_spec picture_pack
  rw [decide_eq_true_eq] at h3
  obtain ⟨a, _, b, c, e, f⟩ := h3
  refine ⟨d, es, h1, h2, ⟨fun p hp => (by rw [a] at hp; cases hp), fun side h hh p hp => ?_⟩, e, f⟩
  cases side
  · exact ⟨1, b h hh p hp⟩
  · exact ⟨1, c h hh p hp⟩

end Docx.Props
