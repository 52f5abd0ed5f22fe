import Verif.Lemmas.PreparedRels
import Verif.Props.C07_C08_Strings

/-!
# The relationships of the main document in a written package
-/

namespace Docx

open Docx.Spec Docx.Xml

/-- The relationship of an image. -/
def imageRelation (x : Str × Str) : Relation := ⟨x.1, officeRel c!"image", x.2, none⟩

/-- The relationship of an external link whose stored address is `x.2`. -/
def linkRelation (x : Str × Str) : Relation := ⟨x.1, officeRel c!"hyperlink", (decodeAttr x.2).getD [], some c!"External"⟩

/-- A relationship id made for a picture. -/
def PicName (s : Str) : Prop := ∃ n, NameOf (createPicRid n) s

theorem PicName.plain {s : Str} (h : PicName s) : Plain s := by
  obtain ⟨n, h⟩ := h
  exact Plain.named ((plain_lit (by decide)).append (plain_dec n)) h

theorem mem_partPictures {l : Walk} {p : Pic} : p ∈ partPictures l ↔ Visited.pic p ∈ visited l := by
  rw [partPictures_eq, List.mem_filterMap]
  constructor
  · rintro ⟨x, hx, h⟩
    cases x with
    | pic q => simp only [Visited.pic?, Option.some.injEq] at h; exact h ▸ hx
    | fn f => simp [Visited.pic?] at h
  · intro h
    exact ⟨_, h, rfl⟩

theorem made_link {x : Str × Str} (h : ∃ n url, (Hyperlink.new n url .external).link = .external x.1 x.2) :
    ∃ n url, x = (createHyperlinkRid n, escapeOwned url) := by
  obtain ⟨n, url, h⟩ := h
  simp only [Hyperlink.new, HyperlinkData.external.injEq] at h
  exact ⟨n, url, Prod.ext h.1.symm h.2.symm⟩

/-- Weaker than `Made`: the ids of the links are only said to be plain. -/
structure Nameable (d : Document) : Prop where
  pictures : ∀ p ∈ partPictures (walkDocument d), ∃ n, p.id = createPicRid n
  links : ∀ x ∈ bodyLinks d, Plain x.1 ∧ ∃ url, x.2 = escapeOwned url

theorem _root_.Docx.Spec.Made.nameable {d : Document} (h : Made d) : Nameable d where
  pictures := h.pictures
  links x hx := by
    obtain ⟨n, url, rfl⟩ := made_link (h.links x hx)
    exact ⟨Plain.append (plain_lit (by decide)) (plain_dec n), url, rfl⟩

/-- The prepared images have plain ids and names. -/
theorem images_named {env : Env} {d : DocxFile} {w : World} (hm : Nameable d.document) :
    let i := collectImages env.crc (d.prepareForBuild env w).1.document
    (i.documentRels.map Prod.fst).Nodup ∧
    ∀ x ∈ i.documentRels, PicName x.1 ∧ ∃ name b, x.2 = mediaTarget name ∧ (name, b) ∈ i.media ∧ PicName name := by
  intro i
  have hpics := prepareForBuild_pictures env d w
  have h1 := (collectImages_spec env.crc (d.prepareForBuild env w).1.document).2.2.2.1
  obtain ⟨_, h2, h3, _⟩ := collectImages_names env.crc (d.prepareForBuild env w).1.document
  have hid : ∀ p, Visited.pic p ∈ visited (walkDocument (d.prepareForBuild env w).1.document) → ∃ n, p.id = createPicRid n := by
    intro p hp
    refine hm.pictures p ?_
    rw [← hpics]
    exact mem_partPictures.2 hp
  refine ⟨h1.ids, fun x hx => ⟨?_, ?_⟩⟩
  · obtain ⟨p, hp, hn⟩ := h2.named x hx
    obtain ⟨n, e⟩ := hid p hp
    rw [List.nil_append, e] at hn
    exact ⟨n, hn⟩
  · obtain ⟨name, b, e1, e2, p, hp, hn⟩ := h3 x hx
    obtain ⟨n, e⟩ := hid p hp
    rw [List.nil_append, e] at hn
    exact ⟨name, b, e1, e2, n, hn⟩

theorem link_decode {y : Str × Str} (h : Plain y.1 ∧ ∃ url, y.2 = escapeOwned url) :
    decodeRelation ⟨y.1, officeRel c!"hyperlink", y.2, some c!"External"⟩ = some (linkRelation y) := by
  obtain ⟨rid, path⟩ := y
  obtain ⟨hr, url, e⟩ := h
  dsimp only at hr e
  subst e
  have h1 : decodeAttr rid = some rid := hr.decode
  have h2 : decodeAttr (officeRel c!"hyperlink") = some (officeRel c!"hyperlink") := (plain_lit (by decide)).decode
  have h3 := Props.escapeOwned_attr url
  have h4 : decodeAttr c!"External" = some c!"External" := (plain_lit (by decide)).decode
  unfold decodeRelation linkRelation
  simp only [h1, h2, h3, h4, Option.getD_some]

theorem links_decode {r : DocumentRels} {ls : List (Str × Str)} (e : r.hyperlinks = ls.map fun x => (x.1, x.2, c!"External"))
    (h : ∀ y ∈ ls, Plain y.1 ∧ ∃ url, y.2 = escapeOwned url) :
    r.linkRelations.filterMap decodeRelation = ls.map linkRelation := by
  unfold DocumentRels.linkRelations
  rw [e, List.map_map]
  clear e
  induction ls with
  | nil => rfl
  | cons y ls ih =>
    rw [List.map_cons, List.filterMap_cons]
    have h1 := link_decode (h y (.head _))
    rw [Function.comp_apply]
    rw [h1]
    dsimp only
    rw [ih fun y hy => h y (.tail _ hy), List.map_cons]

/-- The relationships as they are written, with those of the collected images. -/
theorem packed_rels_written {d : DocxFile} {env : Env} {w : World} {es : List Entry}
    (hs : Sound d) (hp : ∀ l, (env.links l).Perm l) (hm : Nameable d.document) (h : Packed env d w es) :
    let imgs := (collectImages env.crc (d.prepareForBuild env w).1.document).documentRels
    ∃ (r : DocumentRels) (ls : List (Str × Str)),
      ⟨c!"word/_rels/document.xml.rels", .text (constText none r.nodes)⟩ ∈ es ∧ AllS r.strings ∧
      r.imageRelations.filterMap decodeRelation = imgs.map imageRelation ∧
      r.linkRelations.filterMap decodeRelation = ls.map linkRelation ∧
      r.hasFootnotes = !(partFootnotes (walkDocument d.document)).isEmpty ∧
      r.hasNumberings = d.documentRels.hasNumberings ∧
      r.headerCount = d.documentRels.headerCount ∧ r.footerCount = d.documentRels.footerCount ∧
      r.customXmlCount = d.customItems.length ∧
      (imgs.map Prod.fst).Nodup ∧ (∀ x ∈ imgs, PicName x.1 ∧ ∃ name b, PicName name ∧ x.2 = mediaTarget name ∧ ⟨c!"word/" ++ x.2, .bytes b⟩ ∈ es) ∧
      LinksOf ls (bodyLinks d.document) ∧ r = (d.preparePackage env w).1.documentRels := by
  intro imgs
  obtain ⟨ls, c, e1, hl⟩ := preparePackage_documentRels env hp d w
  obtain ⟨hn, hx⟩ := images_named (env := env) (w := w) hm
  have hi := preparePackage_images env d w
  have hf := packed_fits h
  generalize hi0 : collectImages env.crc (d.prepareForBuild env w).1.document = i at e1 hn hx hi
  have himgs : imgs = i.documentRels := by rw [← hi0]
  clear_value imgs
  subst himgs
  generalize d.preparePackage env w = q at e1 hi hf
  rw [hs.links, hs.footnotes, Bool.false_or, List.nil_append] at e1
  have hstr : AllS q.1.documentRels.strings := by
    rw [e1]
    intro s hs'
    unfold DocumentRels.strings at hs'
    simp only [List.mem_append, List.mem_flatMap, List.mem_map, List.mem_cons, List.not_mem_nil, or_false] at hs'
    rcases hs' with ⟨x, hxi, rfl | rfl⟩ | ⟨x, ⟨y, hy, rfl⟩, rfl | rfl | rfl⟩
    · exact (hx x hxi).1.plain.stored
    · obtain ⟨name, b, e, _, hn⟩ := (hx x hxi).2
      rw [e]
      exact hn.plain.target.stored
    · exact (hm.links y (hl.mem y hy)).1.stored
    · obtain ⟨url, e⟩ := (hm.links y (hl.mem y hy)).2
      rw [e]
      exact Props.escapeOwned_stored url
    · exact (plain_lit (s := c!"External") (by decide)).stored
  have himg : q.1.documentRels.imageRelations.filterMap decodeRelation = i.documentRels.map imageRelation := by
    rw [e1]
    refine decode_plain fun r hr => ?_
    unfold DocumentRels.imageRelations at hr
    obtain ⟨x, hxi, rfl⟩ := List.mem_map.1 hr
    obtain ⟨name, b, e, _, hn⟩ := (hx x hxi).2
    exact ⟨(hx x hxi).1.plain, plain_lit (s := officeRel c!"image") (by decide), by rw [e]; exact hn.plain.target, fun m hm => by simp at hm⟩
  have hlink : q.1.documentRels.linkRelations.filterMap decodeRelation = ls.map linkRelation := by
    exact links_decode (by rw [e1]) fun y hy => hm.links y (hl.mem y hy)
  refine ⟨q.1.documentRels, ls, fits_const hf (step_documentRels _ _ _) (documentRels_const _), hstr, himg, hlink,
    by rw [e1], by rw [e1], by rw [e1], by rw [e1], by rw [e1]; exact hs.custom, hn, fun x hxi => ⟨(hx x hxi).1, ?_⟩, hl, rfl⟩
  · obtain ⟨name, b, e, hmem, hpn⟩ := (hx x hxi).2
    have := fits_store hf (step_media env q.1 q.2.1 (name, b) (by rw [hi]; exact hmem))
    rw [e]
    exact ⟨name, b, hpn, rfl, this⟩

/-- The relationships in a written package, with those of the collected images. -/
theorem packed_relations_of {d : DocxFile} {env : Env} {w : World} {es : List Entry}
    (hs : Sound d) (hp : ∀ l, (env.links l).Perm l) (hm : Nameable d.document) (h : Packed env d w es) :
    let imgs := (collectImages env.crc (d.prepareForBuild env w).1.document).documentRels
    ∃ (r : DocumentRels) (ls : List (Str × Str)),
      HasRelations es c!"word/_rels/document.xml.rels"
        (r.fixedRelations ++ r.partRelations ++ imgs.map imageRelation ++ ls.map linkRelation) ∧
      r.hasFootnotes = !(partFootnotes (walkDocument d.document)).isEmpty ∧
      r.hasNumberings = d.documentRels.hasNumberings ∧
      r.headerCount = d.documentRels.headerCount ∧ r.footerCount = d.documentRels.footerCount ∧
      r.customXmlCount = d.customItems.length ∧
      (imgs.map Prod.fst).Nodup ∧ (∀ x ∈ imgs, PicName x.1 ∧ ∃ name b, x.2 = mediaTarget name ∧ ⟨c!"word/" ++ x.2, .bytes b⟩ ∈ es) ∧
      LinksOf ls (bodyLinks d.document) := by
  obtain ⟨r, ls, h1, h2, h3, h4, h5, h6, h7, h8, h9, h10, h11, h12, _⟩ := packed_rels_written hs hp hm h
  refine ⟨r, ls, ⟨_, h1, by rw [documentRels_read _ h2, h3, h4]⟩, h5, h6, h7, h8, h9, h10, fun x hx => ?_, h12⟩
  obtain ⟨k1, name, b, _, k2⟩ := h11 x hx
  exact ⟨k1, name, b, k2⟩

/-- The relationships in a written package. -/
theorem packed_relations {d : DocxFile} {env : Env} {w : World} {es : List Entry}
    (hs : Sound d) (hp : ∀ l, (env.links l).Perm l) (hm : Nameable d.document) (h : Packed env d w es) :
    ∃ (r : DocumentRels) (imgs ls : List (Str × Str)),
      HasRelations es c!"word/_rels/document.xml.rels"
        (r.fixedRelations ++ r.partRelations ++ imgs.map imageRelation ++ ls.map linkRelation) ∧
      r.hasFootnotes = !(partFootnotes (walkDocument d.document)).isEmpty ∧
      r.hasNumberings = d.documentRels.hasNumberings ∧
      r.headerCount = d.documentRels.headerCount ∧ r.footerCount = d.documentRels.footerCount ∧
      r.customXmlCount = d.customItems.length ∧
      (imgs.map Prod.fst).Nodup ∧ (∀ x ∈ imgs, PicName x.1 ∧ ∃ name b, x.2 = mediaTarget name ∧ ⟨c!"word/" ++ x.2, .bytes b⟩ ∈ es) ∧
      LinksOf ls (bodyLinks d.document) := by
  obtain ⟨r, ls, h⟩ := packed_relations_of hs hp hm h
  exact ⟨r, _, ls, h⟩

/-! ## Distinct ids -/

theorem numbered_id (rid : Nat → Str) (kind pre : Str) (l : List Nat) :
    ((l.map (numberedRelation rid kind pre)).map Relation.id) = l.map fun i => rid (i + 1) := by
  rw [List.map_map]
  rfl

/-- The two characters that tell the kinds of relationship ids apart. -/
def idKey (s : Str) : Str := (s.drop 3).take 2

theorem idKey_header (n : Nat) : idKey (createHeaderRid n) = c!"He" := rfl
theorem idKey_footer (n : Nat) : idKey (createFooterRid n) = c!"Fo" := rfl
theorem idKey_link (n : Nat) : idKey (createHyperlinkRid n) = c!"Hy" := rfl
theorem idKey_pic {s : Str} (h : PicName s) : idKey s = c!"Im" := by
  obtain ⟨n, rfl | ⟨m, rfl⟩⟩ := h <;> rfl

theorem digit_not_key : ∀ c ∈ c!"0123456789", c ≠ 'H' ∧ c ≠ 'F' ∧ c ≠ 'I' := by decide

theorem idKey_dec (n : Nat) : ∃ c t, idKey (c!"rId" ++ dec n) = c :: t ∧ c ≠ 'H' ∧ c ≠ 'F' ∧ c ≠ 'I' := by
  have h1 := dec_ne_nil n
  have h2 := dec_digits n
  generalize dec n = s at h1 h2
  cases s with
  | nil => exact absurd rfl h1
  | cons c s => exact ⟨c, s.take 1, by simp [idKey], digit_not_key c (h2 c (.head _))⟩

/-- The numbers of the fixed relationships. -/
def fixedNumbers (r : DocumentRels) : List Nat :=
  [1, 2, 3, 5] ++ (if r.hasComments then [6] else []) ++ (if r.hasNumberings then [7] else []) ++ (if r.hasFootnotes then [8] else [])

theorem fixed_ids (r : DocumentRels) : r.fixedRelations.map Relation.id = (fixedNumbers r).map fun n => c!"rId" ++ dec n := by
  unfold DocumentRels.fixedRelations fixedNumbers
  cases r.hasComments <;> cases r.hasNumberings <;> cases r.hasFootnotes <;> rfl

theorem rid_inj {a b : Nat} (h : c!"rId" ++ dec a = c!"rId" ++ dec b) : a = b := dec_inj (List.append_cancel_left h)

theorem fixedNumbers_nodup (r : DocumentRels) : (fixedNumbers r).Nodup := by
  unfold fixedNumbers
  cases r.hasComments <;> cases r.hasNumberings <;> cases r.hasFootnotes <;> decide

theorem fixedNumbers_le (r : DocumentRels) : ∀ n ∈ fixedNumbers r, n ≤ 8 := by
  unfold fixedNumbers
  cases r.hasComments <;> cases r.hasNumberings <;> cases r.hasFootnotes <;> decide

theorem fixedNumbers_lt (r : DocumentRels) (h : r.hasFootnotes = false) : ∀ n ∈ fixedNumbers r, n < 8 := by
  unfold fixedNumbers
  rw [h]
  cases r.hasComments <;> cases r.hasNumberings <;> decide

theorem relations_ids_nodup {r : DocumentRels} {imgs ls links : List (Str × Str)} (hi : (imgs.map Prod.fst).Nodup)
    (hp : ∀ x ∈ imgs, PicName x.1) (hl : LinksOf ls links)
    (hm : ∀ x ∈ links, ∃ n url, (Hyperlink.new n url .external).link = .external x.1 x.2)
    (hc : r.customXmlCount = 0 ∨ r.hasFootnotes = false) :
    ((r.fixedRelations ++ r.partRelations ++ imgs.map imageRelation ++ ls.map linkRelation).map Relation.id).Nodup := by
  have hinj : ∀ (f : Nat → Str) (l : List Nat), (∀ a b, f a = f b → a = b) → l.Nodup → (l.map f).Nodup := by
    intro f l hf h
    induction l with
    | nil => exact List.nodup_nil
    | cons a l ih =>
      rw [List.nodup_cons] at h
      rw [List.map_cons, List.nodup_cons]
      refine ⟨fun hmem => ?_, ih h.2⟩
      obtain ⟨b, hb, e⟩ := List.mem_map.1 hmem
      exact h.1 (hf _ _ e ▸ hb)
  have hh : ((List.range r.headerCount).map fun i => createHeaderRid (i + 1)).Nodup :=
    hinj _ _ (fun a b h => Nat.succ.inj (dec_inj (List.append_cancel_left h))) List.nodup_range
  have hf : ((List.range r.footerCount).map fun i => createFooterRid (i + 1)).Nodup :=
    hinj _ _ (fun a b h => Nat.succ.inj (dec_inj (List.append_cancel_left h))) List.nodup_range
  have hx : ((List.range r.customXmlCount).map fun i => c!"rId" ++ dec (i + 1 + 7)).Nodup :=
    hinj _ _ (fun a b h => by have := dec_inj (List.append_cancel_left h); omega) List.nodup_range
  have h0 : ((fixedNumbers r).map fun n => c!"rId" ++ dec n).Nodup := hinj _ _ (fun a b h => rid_inj h) (fixedNumbers_nodup r)
  unfold DocumentRels.partRelations
  simp only [List.map_append, numbered_id, fixed_ids]
  have hil : (imgs.map imageRelation).map Relation.id = imgs.map Prod.fst := by rw [List.map_map]; rfl
  have hll : (ls.map linkRelation).map Relation.id = ls.map Prod.fst := by rw [List.map_map]; rfl
  rw [hil, hll]
  have kn : ∀ s ∈ (fixedNumbers r).map fun n => c!"rId" ++ dec n, ∃ c t, idKey s = c :: t ∧ c ≠ 'H' ∧ c ≠ 'F' ∧ c ≠ 'I' := by
    intro s hs; obtain ⟨n, _, rfl⟩ := List.mem_map.1 hs; exact idKey_dec n
  have kx : ∀ s ∈ (List.range r.customXmlCount).map fun i => c!"rId" ++ dec (i + 1 + 7),
      ∃ c t, idKey s = c :: t ∧ c ≠ 'H' ∧ c ≠ 'F' ∧ c ≠ 'I' := by
    intro s hs; obtain ⟨n, _, rfl⟩ := List.mem_map.1 hs; exact idKey_dec _
  have kh : ∀ s ∈ (List.range r.headerCount).map fun i => createHeaderRid (i + 1), idKey s = c!"He" := by
    intro s hs; obtain ⟨n, _, rfl⟩ := List.mem_map.1 hs; exact idKey_header _
  have kf : ∀ s ∈ (List.range r.footerCount).map fun i => createFooterRid (i + 1), idKey s = c!"Fo" := by
    intro s hs; obtain ⟨n, _, rfl⟩ := List.mem_map.1 hs; exact idKey_footer _
  have ki : ∀ s ∈ imgs.map Prod.fst, idKey s = c!"Im" := by
    intro s hs; obtain ⟨x, hx, rfl⟩ := List.mem_map.1 hs; exact idKey_pic (hp x hx)
  have kl : ∀ s ∈ ls.map Prod.fst, idKey s = c!"Hy" := by
    intro s hs
    obtain ⟨x, hx, rfl⟩ := List.mem_map.1 hs
    obtain ⟨n, url, e⟩ := made_link (hm x (hl.mem x hx))
    rw [e]
    exact idKey_link n
  have apart : ∀ {a b : Str} {c d : Char} {s t : Str}, idKey a = c :: s → idKey b = d :: t → c ≠ d → a ≠ b := by
    intro a b c d s t h1 h2 h3 e
    subst e
    rw [h1] at h2
    simp only [List.cons.injEq] at h2
    exact h3 h2.1
  have apart2 : ∀ {a b : Str} {s t : Str}, idKey a = s → idKey b = t → s ≠ t → a ≠ b := by
    intro a b s t h1 h2 h3 e
    subst e
    exact h3 (h1 ▸ h2)
  rw [List.nodup_append, List.nodup_append, List.nodup_append, List.nodup_append, List.nodup_append]
  refine ⟨⟨⟨h0, ⟨⟨hh, hf, ?_⟩, hx, ?_⟩, ?_⟩, hi, ?_⟩, hl.nodup, ?_⟩
  · intro a ha b hb
    exact apart2 (kh a ha) (kf b hb) (by decide)
  · intro a ha b hb
    obtain ⟨c, t, e, h1, h2, _⟩ := kx b hb
    rcases List.mem_append.1 ha with ha | ha
    · exact apart (kh a ha) e (Ne.symm h1)
    · exact apart (kf a ha) e (Ne.symm h2)
  · intro a ha b hb
    obtain ⟨c, t, e, h1, h2, _⟩ := kn a ha
    rcases List.mem_append.1 hb with hb | hb
    · rcases List.mem_append.1 hb with hb | hb
      · exact apart e (kh b hb) h1
      · exact apart e (kf b hb) h2
    · obtain ⟨n, hn, rfl⟩ := List.mem_map.1 ha
      obtain ⟨i, hi', rfl⟩ := List.mem_map.1 hb
      intro e'
      have := rid_inj e'
      rcases hc with hc | hc
      · rw [hc] at hi'
        simp at hi'
      · have := fixedNumbers_lt r hc n hn
        omega
  · intro a ha b hb
    have kb := ki b hb
    rcases List.mem_append.1 ha with ha | ha
    · obtain ⟨c, t, e, _, _, h3⟩ := kn a ha
      exact apart e kb h3
    · rcases List.mem_append.1 ha with ha | ha
      · rcases List.mem_append.1 ha with ha | ha
        · exact apart2 (kh a ha) kb (by decide)
        · exact apart2 (kf a ha) kb (by decide)
      · obtain ⟨c, t, e, _, _, h3⟩ := kx a ha
        exact apart e kb h3
  · intro a ha b hb
    have kb := kl b hb
    rcases List.mem_append.1 ha with ha | ha
    · rcases List.mem_append.1 ha with ha | ha
      · obtain ⟨c, t, e, h1, _, _⟩ := kn a ha
        exact apart e kb h1
      · rcases List.mem_append.1 ha with ha | ha
        · rcases List.mem_append.1 ha with ha | ha
          · exact apart2 (kh a ha) kb (by decide)
          · exact apart2 (kf a ha) kb (by decide)
        · obtain ⟨c, t, e, h1, _, _⟩ := kx a ha
          exact apart e kb h1
    · exact apart2 (ki a ha) kb (by decide)

end Docx
