import Verif.Lemmas.AsRead
import Verif.Props.C13_C15_Media
import Verif.Props.C42_PartRels
import Verif.Props.C67_ReadThenSaved

/-!
# C68: what is lost when a file that was read is saved

What `read_docx` gives holds the addresses of links, and the bytes of pictures, beside the document and not in it. Writing looks for them in
the document. Tables of contents, footnotes and comment ranges inside runs are not in the document that is read at all.
-/

namespace Docx.Props

open Docx.Spec Docx.Xml

/-- **C68, the document that is read.** Whatever the archive: in a document that was read no link outside has an address, no picture has
bytes, and there are no tables of contents, footnotes, references to footnotes, or comment ranges inside runs. -/
theorem C68_as_read {e : FileEnv} {n : Nat} {ar : List Entry} {r : ReadFile} (hr : readDocx e n ar = .ok r) :
    ∀ y ∈ walkDocument r.file.document, y.2.AsRead :=
  (readDocx_fileR hr).all

/-- Preparation keeps the bytes of all pictures. -/
theorem prepareForBuild_bytes (env : Env) (d : DocxFile) (w : World) (b : List UInt8) :
    b ∈ allPictureBytes (d.prepareForBuild env w).1.document ↔ b ∈ allPictureBytes d.document := by
  have mono : ∀ (s : Side) (x x' : Document), (Side.all s x).map (fun x => (x.1, blankHeader x.2)) = (Side.all s x').map (fun x => (x.1, blankHeader x.2)) →
      ∀ p : Pic, p ∈ ((Side.all s x).map Prod.snd).flatMap (fun h => partPictures (walkHeader [] h)) →
      p ∈ ((Side.all s x').map Prod.snd).flatMap (fun h => partPictures (walkHeader [] h)) := by
    intro s x x' hparts p hp
    obtain ⟨h, hh, hp⟩ := List.mem_flatMap.1 hp
    obtain ⟨y, hy, rfl⟩ := List.mem_map.1 hh
    have hy' : (y.1, blankHeader y.2) ∈ (Side.all s x).map fun x => (x.1, blankHeader x.2) := List.mem_map_of_mem hy
    rw [hparts] at hy'
    obtain ⟨z, hz, e⟩ := List.mem_map.1 hy'
    rw [List.mem_flatMap]
    refine ⟨z.2, List.mem_map_of_mem hz, ?_⟩
    rw [blank_pictures (Prod.ext_iff.1 e).2]
    exact hp
  have both : ∀ x x' : Document, (∀ s, (Side.all s x).map (fun x => (x.1, blankHeader x.2)) = (Side.all s x').map (fun x => (x.1, blankHeader x.2))) →
      partPictures (walkDocument x) = partPictures (walkDocument x') → b ∈ allPictureBytes x → b ∈ allPictureBytes x' := by
    intro x x' hs hb h
    have h1 := mono .header x x' (hs _)
    have h2 := mono .footer x x' (hs _)
    rw [heads_all, heads_all] at h1 h2
    unfold allPictureBytes at h ⊢
    obtain ⟨p, hp, rfl⟩ := List.mem_map.1 h
    refine List.mem_map_of_mem ?_
    rcases List.mem_append.1 hp with hp | hp
    · rcases List.mem_append.1 hp with hp | hp
      · rw [hb] at hp
        exact List.mem_append_left _ (List.mem_append_left _ hp)
      · exact List.mem_append_left _ (List.mem_append_right _ (h1 p hp))
    · exact List.mem_append_right _ (h2 p hp)
  exact ⟨both _ _ (fun s => prepareForBuild_parts s env d w) (prepareForBuild_pictures env d w),
    both _ _ (fun s => (prepareForBuild_parts s env d w).symm) (prepareForBuild_pictures env d w).symm⟩

/-- The only files stored as they are given are the media files. -/
theorem stored_steps {env : Env} {d : DocxFile} {p : PackageMetadata} {n : Str} {b : List UInt8} (h : .store n b ∈ zipDocxSteps env d p) :
    b ∈ p.media.map Prod.snd := by
  have hw : ∀ (l : List WebExtension) (i : Nat), .store n b ∉ webExtensionSteps i l := by
    intro l
    induction l with
    | nil => intro i h; cases h
    | cons a l ih => intro i h; simp only [webExtensionSteps, List.mem_cons, reduceCtorEq, false_or] at h; exact ih _ h
  have hp : ∀ (k : Str) (f : Header → Part) (l : List Header) (i : Nat) (m : List (Nat × List (Str × Str))), .store n b ∉ partSteps k f i l m := by
    intro k f l
    induction l with
    | nil => intro i m h; simp [partSteps] at h
    | cons a l ih =>
      intro i m h
      match m with
      | [] =>
        simp only [partSteps, List.mem_cons, reduceCtorEq, false_or] at h
        exact ih _ _ h
      | (j, r) :: m =>
        simp only [partSteps, List.mem_cons, reduceCtorEq, false_or] at h
        split at h
        · simp only [List.mem_cons, reduceCtorEq, false_or] at h
          exact ih _ _ h
        · exact ih _ _ h
  have hi : ∀ (l : List (List XmlData)) (i : Nat), .store n b ∉ customItemSteps d i l := by
    intro l
    induction l with
    | nil => intro i h; cases h
    | cons a l ih =>
      intro i h
      simp only [customItemSteps, List.cons_append, List.nil_append, List.mem_cons, reduceCtorEq, false_or] at h
      exact ih _ h
  unfold zipDocxSteps at h
  rcases List.mem_append.1 h with h | h
  · rcases List.mem_append.1 h with h | h
    · rcases List.mem_append.1 h with h | h
      · rcases List.mem_append.1 h with h | h
        · rcases List.mem_append.1 h with h | h
          · rcases List.mem_append.1 h with h | h
            · simp at h
            · exact absurd h (hp _ _ _ _ _)
          · exact absurd h (hp _ _ _ _ _)
        · split at h
          · cases h
          · simp only [List.mem_cons, reduceCtorEq, false_or, List.mem_map, ZipStep.store.injEq] at h
            obtain ⟨m, hm, _, rfl⟩ := h
            exact List.mem_map_of_mem hm
      · split at h
        · rcases List.mem_append.1 h with h | h
          · simp at h
          · exact absurd h (hw _ _)
        · cases h
    · split at h <;> simp at h
  · exact absurd h (hi _ _)

/-- **C14 in a written package.** Whatever the file: the entries that are stored as they are given, and not printed, have exactly the bytes
of the pictures in the body, the headers and the footers. -/
theorem C14_package_bytes {d : DocxFile} {env : Env} {w : World} {es : List Entry} (h : Packed env d w es) (b : List UInt8) :
    (∃ n, ⟨n, .bytes b⟩ ∈ es) ↔ b ∈ allPictureBytes d.document := by
  have hf := packed_fits h
  have himg := preparePackage_images env d w
  rw [← prepareForBuild_bytes env d w, ← C14_media_are_the_pictures env.crc]
  generalize collectImages env.crc (d.prepareForBuild env w).1.document = c at himg
  generalize d.preparePackage env w = q at hf himg
  have key : ∀ (n : Str) (ss : List ZipStep) (es : List Entry), List.Forall₂ ZipStep.Fits ss es → ⟨n, .bytes b⟩ ∈ es → .store n b ∈ ss := by
    intro n ss es hf
    induction hf with
    | nil => intro h; cases h
    | @cons s e ss es h1 _ ih =>
      intro h
      rcases List.mem_cons.1 h with h | h
      · subst h
        cases s with
        | directory n => simp [ZipStep.Fits] at h1
        | store n' b' =>
          simp only [ZipStep.Fits, Entry.mk.injEq, Content.bytes.injEq] at h1
          obtain ⟨rfl, rfl⟩ := h1
          exact .head _
        | write n p => obtain ⟨_, _, _, h1, _⟩ := h1; simp at h1
      · exact .tail _ (ih h)
  constructor
  · rintro ⟨n, hb⟩
    have := stored_steps (key n _ _ hf hb)
    rw [himg] at this
    exact this
  · intro hb
    obtain ⟨m, hm, rfl⟩ := List.mem_map.1 hb
    exact ⟨_, fits_store hf (step_media env q.1 q.2.1 m (by rw [himg]; exact hm))⟩

/-- The pictures of a file that was read have no bytes. -/
theorem read_bytes {e : FileEnv} {n : Nat} {ar : List Entry} {r : ReadFile} (hr : readDocx e n ar = .ok r) :
    ∀ b ∈ allPictureBytes r.file.document, b = [] := by
  have hf := readDocx_fileR hr
  have hb := (readDocx_books hr).books
  have pics : ∀ l : Walk, (∀ y ∈ l, y.2.AsRead) → ∀ p ∈ partPictures l, p.image = [] := by
    intro l hl p hp
    unfold partPictures Walk.within at hp
    obtain ⟨i, hi, hp⟩ := List.mem_filterMap.1 hp
    obtain ⟨y, hy, rfl⟩ := List.mem_map.1 hi
    have := hl y (List.mem_filter.1 hy).1
    cases hi : y.2 with
    | picture q =>
      rw [hi] at hp this
      simp only [Item.picture?, Option.some.injEq] at hp
      subst hp
      exact this
    | _ => rw [hi] at hp; cases hp
  have side : ∀ s : Side, ∀ h ∈ (Side.all s r.file.document).map Prod.snd, ∀ p ∈ partPictures (walkHeader [] h), p.image = [] := by
    intro s h hh
    rw [Side.all_eq, hb.sections, List.flatMap_nil, List.append_nil] at hh
    obtain ⟨x, hx, rfl⟩ := List.mem_map.1 hh
    rw [Side.own, List.mem_filterMap] at hx
    obtain ⟨o, ho, hx⟩ := hx
    rw [id_eq] at hx
    subst hx
    refine pics _ (hf.slots x ?_ [])
    cases s <;> simp only [Side.parts, List.mem_cons, List.not_mem_nil, or_false] at ho <;> simp only [slots, List.mem_cons] <;>
      rcases ho with h | h | h <;> simp [h]
  have h1 := side .header
  have h2 := side .footer
  rw [heads_all] at h1 h2
  intro b hb
  unfold allPictureBytes at hb
  obtain ⟨p, hp, rfl⟩ := List.mem_map.1 hb
  rcases List.mem_append.1 hp with hp | hp
  · rcases List.mem_append.1 hp with hp | hp
    · exact pics _ hf.all p hp
    · obtain ⟨h, hh, hp⟩ := List.mem_flatMap.1 hp
      exact h1 h hh p hp
  · obtain ⟨h, hh, hp⟩ := List.mem_flatMap.1 hp
    exact h2 h hh p hp

/-- **C68 fails** for pictures: read any archive and save what was read. Whatever pictures were in it, every picture file that is written is
empty. -/
theorem C68_fails_pictures {e : FileEnv} {n : Nat} {ar : List Entry} {r : ReadFile} {env : Env} {w : World} {es : List Entry}
    (hr : readDocx e n ar = .ok r) (h : Packed env r.file w es) {name : Str} {b : List UInt8} (hb : ⟨name, .bytes b⟩ ∈ es) : b = [] :=
  read_bytes hr b ((C14_package_bytes h b).1 ⟨_, hb⟩)

theorem fixed_modes (r : DocumentRels) : ∀ y ∈ r.fixedRelations, y.mode = none := by
  unfold DocumentRels.fixedRelations
  generalize r.hasComments = a
  generalize r.hasNumberings = b
  generalize r.hasFootnotes = c
  revert a b c
  decide

/-- **C68 fails** for links: read any archive and save what was read. Every link outside in the body has a relationship, but none of these has
an address. -/
theorem C68_fails_links {e : FileEnv} {n : Nat} {ar : List Entry} {r : ReadFile} {env : Env} {w : World} {es : List Entry}
    (hr : readDocx e n ar = .ok r) (hp : ∀ l, (env.links l).Perm l) (hm : Nameable r.file.document) (h : Packed env r.file w es) :
    ∃ rs, HasRelations es c!"word/_rels/document.xml.rels" rs ∧
      (∀ l ∈ bodyLinks r.file.document, ∃ x ∈ rs, x.id = l.1 ∧ x.mode = some c!"External") ∧
      ∀ x ∈ rs, x.mode = some c!"External" → x.target = [] := by
  obtain ⟨rr, imgs, ls, h1, _, _, _, _, _, _, _, h9⟩ := packed_relations (readDocx_books hr).books.sound hp hm h
  refine ⟨_, h1, ?_, ?_⟩
  · intro l hl
    obtain ⟨y, hy, e⟩ := List.mem_map.1 (h9.keys l hl)
    exact ⟨linkRelation y, List.mem_append_right _ (List.mem_map_of_mem hy), e, rfl⟩
  · intro x hx ht
    rcases List.mem_append.1 hx with hx | hx
    · rcases List.mem_append.1 hx with hx | hx
      · rcases List.mem_append.1 hx with hx | hx
        · rw [fixed_modes rr x hx] at ht
          cases ht
        · simp only [DocumentRels.partRelations, List.mem_append, List.mem_map, List.mem_range] at hx
          rcases hx with (⟨i, _, rfl⟩ | ⟨i, _, rfl⟩) | ⟨_, _, rfl⟩ <;> cases ht
      · obtain ⟨_, _, rfl⟩ := List.mem_map.1 hx
        cases ht
    · obtain ⟨y, hy, rfl⟩ := List.mem_map.1 hx
      have := h9.mem y hy
      unfold bodyLinks Walk.within at this
      obtain ⟨i, hi, he⟩ := List.mem_filterMap.1 this
      obtain ⟨z, hz, rfl⟩ := List.mem_map.1 hi
      have ha := C68_as_read hr z (List.mem_filter.1 hz).1
      have : y.2 = [] := by
        revert he ha
        generalize z.2 = i
        intro he ha
        unfold Item.external? at he
        split at he
        · cases he
          exact ha _ _ rfl
        · cases he
      unfold linkRelation
      rw [this]
      rfl

/-- **C68, ids.** Read any archive and save what was read: no two relationships of the main document have the same id. `Made` is as in
`C67_ids_partial`. -/
theorem C68_ids_partial {e : FileEnv} {n : Nat} {ar : List Entry} {r : ReadFile} {env : Env} {w : World} {es : List Entry}
    (hr : readDocx e n ar = .ok r) (hp : ∀ l, (env.links l).Perm l) (hm : Made r.file.document) (h : Packed env r.file w es) :
    ∃ rs, HasRelations es c!"word/_rels/document.xml.rels" rs ∧ (rs.map Relation.id).Nodup := by
  obtain ⟨rs, h1, h2⟩ := C67_ids_partial (cs := []) hr rfl hp hm h
  exact ⟨rs, h1, h2.2 (.inl (readDocx_books hr).books.items)⟩

/-! ## Archives that meet the hypotheses -/

/-- The archive is read without previews, what was read can be written, and satisfies `p`. -/
private def reads (p : ReadFile → Bool) (ar : List Entry) : Bool :=
  match readDocx { aReader with previews := false } 40 ar with
  | .ok r => writableB r.file && p r
  | _ => false

private theorem reads_spec {p : ReadFile → Bool} {ar : List Entry} (h : reads p ar = true) :
    ∃ r es, readDocx { aReader with previews := false } 40 ar = .ok r ∧ Packed anEnv r.file {} es ∧ p r = true := by
  unfold reads at h
  split at h
  · next r e =>
    rw [Bool.and_eq_true] at h
    have hs := (readDocx_books e).books.sound
    obtain ⟨es, w', e'⟩ := writable_packs anEnv r.file {} (writableB_spec h.1) (by rw [hs.crels, List.length_replicate]; exact Nat.le_refl _)
      (by rw [hs.props]; exact Nat.le_refl _)
    exact ⟨r, es, e, .inl ⟨w', e'⟩, h.2⟩
  · cases h

private def richRels : Str := c!"<Relationships><Relationship Id=\"rIdHyperlink8\" " ++
  c!"Type=\"http://schemas.openxmlformats.org/officeDocument/2006/relationships/hyperlink\" Target=\"https://a.b/c\" TargetMode=\"External\"/>" ++
  c!"<Relationship Id=\"rIdImage9\" Type=\"http://schemas.openxmlformats.org/officeDocument/2006/relationships/image\" Target=\"media/image1.png\"/></Relationships>"

private def aPicture : Entry := ⟨c!"word/media/image1.png", .bytes [1, 2, 3]⟩

private def richDocument : Str :=
  c!"<w:document><w:body><w:p><w:hyperlink r:id=\"rIdHyperlink8\"><w:r><w:t>here</w:t></w:r></w:hyperlink><w:r><w:drawing><wp:inline><a:graphic>" ++
    c!"<a:graphicData><pic:pic><pic:blipFill><a:blip r:embed=\"rIdImage9\"/></pic:blipFill></pic:pic></a:graphicData></a:graphic></wp:inline></w:drawing></w:r></w:p>" ++
    c!"</w:body></w:document>"

private def isRich (r : ReadFile) : Bool :=
  decide (r.images.map (fun i => (i.id, i.image)) = [(c!"rIdImage9", [1, 2, 3])]) &&
  decide (r.hyperlinks = [(c!"rIdHyperlink8", c!"https://a.b/c", c!"External")]) &&
  decide (bodyLinks r.file.document = [(c!"rIdHyperlink8", [])]) &&
  decide ((partPictures (walkDocument r.file.document)).map Pic.id = [c!"rIdImage9"])

private theorem rich_reads : reads isRich (smallArchive richRels richDocument [aPicture]) = true := by decide +kernel

private theorem rich_example {ar : List Entry} (h : reads isRich ar = true) :
    ∃ r es rs, readDocx { aReader with previews := false } 40 ar = .ok r ∧ Packed anEnv r.file {} es ∧ Made r.file.document ∧
    r.images.map (fun i => (i.id, i.image)) = [(c!"rIdImage9", [1, 2, 3])] ∧
    r.hyperlinks = [(c!"rIdHyperlink8", c!"https://a.b/c", c!"External")] ∧
    (∃ n, ⟨n, .bytes []⟩ ∈ es) ∧ (∀ n, ⟨n, .bytes [1, 2, 3]⟩ ∉ es) ∧
    HasRelations es c!"word/_rels/document.xml.rels" rs ∧ (rs.map Relation.id).Nodup ∧
    (∃ x ∈ rs, x.id = c!"rIdHyperlink8" ∧ x.mode = some c!"External") ∧ ∀ x ∈ rs, x.mode = some c!"External" → x.target = [] := by
  obtain ⟨r, es, h1, h2, h3⟩ := reads_spec h
  simp only [isRich, Bool.and_eq_true, decide_eq_true_eq] at h3
  obtain ⟨⟨⟨h3, h4⟩, h5⟩, h6⟩ := h3
  have hm : Made r.file.document := by
    refine ⟨fun p hp => ⟨9, ?_⟩, fun x hx => ⟨8, [], ?_⟩⟩
    · have := List.mem_map_of_mem (f := Pic.id) hp
      rw [h6, List.mem_singleton] at this
      rw [this]
      decide
    · rw [h5, List.mem_singleton] at hx
      subst hx
      decide
  have hpic : [] ∈ allPictureBytes r.file.document := by
    obtain ⟨p, hp⟩ : ∃ p, p ∈ partPictures (walkDocument r.file.document) := by
      cases e : partPictures (walkDocument r.file.document) with
      | nil => rw [e] at h6; cases h6
      | cons p l => exact ⟨p, .head _⟩
    have : p.image ∈ allPictureBytes r.file.document :=
      List.mem_map_of_mem (List.mem_append_left _ (List.mem_append_left _ hp))
    rw [← read_bytes h1 _ this]
    exact this
  obtain ⟨rs, g1, g2, g3⟩ := C68_fails_links h1 anEnv_links hm.nameable h2
  obtain ⟨rs', k1, k2⟩ := C68_ids_partial h1 anEnv_links hm h2
  have e : rs = rs' := relations_unique h2 g1 k1
  subst e
  refine ⟨r, es, rs, h1, h2, hm, h3, h4, (C14_package_bytes h2 _).2 hpic, fun n hn => ?_, g1, k2, g2 _ (by rw [h5]; exact .head _), g3⟩
  exact absurd (C68_fails_pictures h1 h2 hn) (by simp)

/-- A file with a picture and a link is read and saved. Reading gives the bytes of the picture and the address of the link, but neither is
written. -/
example : ∃ r es rs, readDocx { aReader with previews := false } 40 (smallArchive richRels richDocument [aPicture]) = .ok r ∧
    Packed anEnv r.file {} es ∧ Made r.file.document ∧
    r.images.map (fun i => (i.id, i.image)) = [(c!"rIdImage9", [1, 2, 3])] ∧
    r.hyperlinks = [(c!"rIdHyperlink8", c!"https://a.b/c", c!"External")] ∧
    (∃ n, ⟨n, .bytes []⟩ ∈ es) ∧ (∀ n, ⟨n, .bytes [1, 2, 3]⟩ ∉ es) ∧
    HasRelations es c!"word/_rels/document.xml.rels" rs ∧ (rs.map Relation.id).Nodup ∧
    (∃ x ∈ rs, x.id = c!"rIdHyperlink8" ∧ x.mode = some c!"External") ∧ ∀ x ∈ rs, x.mode = some c!"External" → x.target = [] :=
  rich_example rich_reads

end Docx.Props
