import Verif.Lemmas.PicturesAgain
import Verif.Props.C41_C43_Pictures
import Verif.Props.C61_ReadFile

/-!
# C62: pictures that are written and read
-/

namespace Docx.Props

open Docx Docx.Spec Docx.Xml

/-! ## What is said of a picture -/

/-- The numbers of a picture are such as the Rust types hold. -/
structure PictureHeld (p : Pic) : Prop where
  size : p.size.1 < 2 ^ 32 ∧ p.size.2 < 2 ^ 32
  height : p.relativeHeight < 2 ^ 32
  simple : (-(2 ^ 31) ≤ p.simplePosX ∧ p.simplePosX < 2 ^ 31) ∧ -(2 ^ 31) ≤ p.simplePosY ∧ p.simplePosY < 2 ^ 31
  top : -(2 ^ 31) ≤ p.distT ∧ p.distT < 2 ^ 31
  bottom : -(2 ^ 31) ≤ p.distB ∧ p.distB < 2 ^ 31
  left : -(2 ^ 31) ≤ p.distL ∧ p.distL < 2 ^ 31
  right : -(2 ^ 31) ≤ p.distR ∧ p.distR < 2 ^ 31

/-- What of a picture is the same when it is read: its size, whether it floats, and its distances from the text; of a floating one also
its place in a cell, its place in front of others, what its position is relative to (but for one value), and offsets that are not negative. -/
structure PictureKept (p q : Pic) : Prop where
  size : q.size = p.size
  floats : q.positionType = p.positionType
  distances : q.distT = p.distT ∧ q.distB = p.distB ∧ q.distL = p.distL ∧ q.distR = p.distR
  floating : p.positionType = .anchor →
    q.layoutInCell = p.layoutInCell ∧ q.relativeHeight = p.relativeHeight ∧ q.simplePosX = p.simplePosX ∧ q.simplePosY = p.simplePosY
  relativeTo : p.positionType = .anchor → q.relativeFromH = p.relativeFromH ∧ (p.relativeFromV ≠ .outsizeMargin → q.relativeFromV = p.relativeFromV)
  offsetH : p.positionType = .anchor → ∀ i, p.positionH = .offset i → 0 ≤ i → i < 2 ^ 31 → q.positionH = .offset i
  offsetV : p.positionType = .anchor → ∀ i, p.positionV = .offset i → 0 ≤ i → i < 2 ^ 31 → q.positionV = .offset i

/-- What of a picture is changed when it is read: rotation is lost; of an inline picture the settings for floating ones are replaced; of a
floating one `simplePos` comes back as `allowOverlap` and is itself lost, an alignment comes back as the offset 0, a negative offset as the
greatest number there is, and one of the things a position may be relative to as another one. -/
structure PictureChanged (p q : Pic) : Prop where
  rotation : q.rot = 0
  inline : p.positionType = .inline → q.layoutInCell = true ∧ q.relativeHeight = 0 ∧ q.allowOverlap = true ∧ q.simplePos = false
  overlap : p.positionType = .anchor → q.allowOverlap = p.simplePos ∧ q.simplePos = false
  alignH : p.positionType = .anchor → ∀ a, p.positionH = .align a → q.positionH = .offset 0
  alignV : p.positionType = .anchor → ∀ a, p.positionV = .align a → q.positionV = .offset 0
  negativeH : p.positionType = .anchor → ∀ i, p.positionH = .offset i → i < 0 → -(2 ^ 31) ≤ i → q.positionH = .offset (2 ^ 31 - 1)
  negativeV : p.positionType = .anchor → ∀ i, p.positionV = .offset i → i < 0 → -(2 ^ 31) ≤ i → q.positionV = .offset (2 ^ 31 - 1)
  outside : p.positionType = .anchor → p.relativeFromV = .outsizeMargin → q.relativeFromV = .margin

/-- The preview the reader keeps for a picture, if it keeps the picture: none without previews and for EMF, a PNG picture itself, another
one as it is converted. -/
def previewOf (e : FileEnv) (path : Str) (b : Bytes) (preview : Option Bytes) : Prop :=
  ((HasEmfExtension path ∨ HasEmfHeader b) ∨ e.previews = false → preview = some []) ∧
  (¬ (HasEmfExtension path ∨ HasEmfHeader b) → e.previews = true →
    (([137, 80, 78, 71, 13, 10, 26, 10] <+: b → preview = some b) ∧ (¬ [137, 80, 78, 71, 13, 10, 26, 10] <+: b → preview = e.decode b)))

/-- The picture `p` as given and the picture `q` as read, with the pictures listed for the main document: under the id of `q` there are the
bytes of `p`, once, or nothing if the picture cannot be converted. -/
def PictureReadAs (e : FileEnv) (listed : List ImageEntry) (p q : Pic) : Prop :=
  PictureKept p q ∧ ∃ path preview, ¬ HasEmfExtension path ∧ previewOf e path p.image preview ∧
    listed.filter (fun i => decide (i.id = q.id)) = preview.toList.map fun png => ⟨q.id, path, p.image, png⟩

/-! ## One picture -/

theorem asU32_small {i : Int} (h0 : 0 ≤ i) (h : i < 2 ^ 31) : ((asU32 i : Nat) : Int) = i := by
  unfold asU32
  omega

theorem offset_again {i : Int} (h0 : 0 ≤ i) (h : i < 2 ^ 31) : DrawingPosition.reread (.offset i) = .offset i := by
  show DrawingPosition.offset (toI32 (roundInt 53 _)) = _
  rw [asU32_small h0 h, toI32_small (by omega)]

/-- A picture read back, apart from its id. -/
theorem picture_kept (p : Pic) (h : PictureHeld p) : PictureKept p p.reread := by
  obtain ⟨h1, h2, h3, h4, h5, h6, h7⟩ := h
  have hs : (againSize p.size.1, againSize p.size.2) = p.size := by
    unfold againSize
    rw [u32FromStr_dec h1.1, u32FromStr_dec h1.2]
    rfl
  have a : ∀ {i : Int}, -(2 ^ 31) ≤ i ∧ i < 2 ^ 31 → again32 i = i := fun h => toI32_small h
  have d : (parseSigned 32 (decInt p.distR)).getD 0 = p.distR := by rw [parseSigned_decInt 32 _ h7]; rfl
  unfold Pic.reread
  cases hp : p.positionType with
  | inline =>
    refine ⟨hs, hp.symm, ⟨a h4, a h5, a h6, d⟩, ?_, ?_, ?_, ?_⟩ <;> (intro e; rw [hp] at e; cases e)
  | anchor =>
    refine ⟨hs, hp.symm, ⟨a h4, a h5, a h6, a h7⟩, fun _ => ⟨rfl, toU32_small h2, a h3.1, a h3.2⟩, fun _ => ⟨rfl, fun hv => if_neg hv⟩,
      fun _ i hi h0 hl => ?_, fun _ i hi h0 hl => ?_⟩
    · show p.positionH.reread = _
      rw [hi]; exact offset_again h0 hl
    · show p.positionV.reread = _
      rw [hi]; exact offset_again h0 hl

theorem offset_negative {i : Int} (h : i < 0) (h' : -(2 ^ 31) ≤ i) : DrawingPosition.reread (.offset i) = .offset (2 ^ 31 - 1) := by
  show DrawingPosition.offset (toI32 (roundInt 53 _)) = _
  have : ((asU32 i : Nat) : Int) = i + 2 ^ 32 := by unfold asU32; omega
  rw [this, roundInt_small (by decide) (by omega)]
  simp only [toI32, saturate]
  congr 1
  omega

theorem picture_changed (p : Pic) : PictureChanged p p.reread := by
  unfold Pic.reread
  cases hp : p.positionType with
  | inline => exact ⟨rfl, fun _ => ⟨rfl, rfl, rfl, rfl⟩, by simp [hp], by simp [hp], by simp [hp], by simp [hp], by simp [hp], by simp [hp]⟩
  | anchor =>
    refine ⟨rfl, by simp [hp], fun _ => ⟨rfl, rfl⟩, fun _ a ha => ?_, fun _ a ha => ?_, fun _ i hi h h' => ?_, fun _ i hi h h' => ?_, fun _ h => ?_⟩
    · show p.positionH.reread = _
      rw [ha]; rfl
    · show p.positionV.reread = _
      rw [ha]; rfl
    · show p.positionH.reread = _
      rw [hi]; exact offset_negative h h'
    · show p.positionV.reread = _
      rw [hi]; exact offset_negative h h'
    · exact if_pos h

theorem same_changed {p p' q : Pic} (h : SamePicture p p') (hk : PictureChanged p' q) : PictureChanged p q := by
  unfold SamePicture at h
  rw [← h]
  exact ⟨hk.1, hk.2, hk.3, hk.4, hk.5, hk.6, hk.7, hk.8⟩

theorem same_kept {p p' q : Pic} (h : SamePicture p p') (hk : PictureKept p' q) : PictureKept p q := by
  unfold SamePicture at h
  obtain ⟨k1, k2, k3, k4, k5, k6, k7⟩ := hk
  rw [← h]
  exact ⟨k1, k2, k3, k4, k5, k6, k7⟩

theorem same_held {p p' : Pic} (h : SamePicture p p') (hk : PictureHeld p) : PictureHeld p' := by
  unfold SamePicture at h
  rw [← h] at hk
  exact ⟨hk.1, hk.2, hk.3, hk.4, hk.5, hk.6, hk.7⟩

/-! ## The list of pictures -/

/-- What is listed for a target. -/
def listedFor (e : FileEnv) (es : List Entry) (t : Target) : List ImageEntry :=
  match readZip es t.path with
  | none => []
  | some c => (addImageWithOptions e.decode [] t.rid t.path c.toBytes e.previews).getD []

theorem addImage_append (f : Bytes → Option Bytes) (l : List ImageEntry) (id path : Str) (b : Bytes) (v : Bool) :
    ∃ new, addImageWithOptions f l id path b v = some (l ++ new) ∧ addImageWithOptions f [] id path b v = some new ∧
      ∃ preview : Option Bytes, new = preview.toList.map (fun png => (⟨id, path, b, png⟩ : ImageEntry)) ∧
        ((HasEmfExtension path ∨ HasEmfHeader b) ∨ v = false → preview = some []) ∧
        (¬ (HasEmfExtension path ∨ HasEmfHeader b) → v = true →
          (([137, 80, 78, 71, 13, 10, 26, 10] <+: b → preview = some b) ∧ (¬ [137, 80, 78, 71, 13, 10, 26, 10] <+: b → preview = f b))) := by
  by_cases h : (HasEmfExtension path ∨ HasEmfHeader b) ∨ v = false
  · refine ⟨_, (C43_add_image f l id path b v).1 h, (C43_add_image f [] id path b v).1 h, some [], rfl, fun _ => rfl, fun h1 h2 => ?_⟩
    rcases h with h | h
    · exact absurd h h1
    · rw [h2] at h; cases h
  · have hv : v = true := by cases v with | true => rfl | false => exact absurd (.inr rfl) h
    have hn : ¬ (HasEmfExtension path ∨ HasEmfHeader b) := fun h' => h (.inl h')
    by_cases hp : [137, 80, 78, 71, 13, 10, 26, 10] <+: b
    · obtain ⟨rest, hr⟩ := hp
      refine ⟨_, ((C43_add_image f l id path b v).2 hn hv).1 rest hr.symm, ((C43_add_image f [] id path b v).2 hn hv).1 rest hr.symm, some b, rfl,
        fun h' => absurd h' h, fun _ _ => ⟨fun _ => rfl, fun hc => absurd ⟨rest, hr⟩ hc⟩⟩
    · have hr : ∀ rest, b ≠ [137, 80, 78, 71, 13, 10, 26, 10] ++ rest := fun rest e => hp ⟨rest, e.symm⟩
      refine ⟨_, ((C43_add_image f l id path b v).2 hn hv).2 hr, ((C43_add_image f [] id path b v).2 hn hv).2 hr, f b, ?_,
        fun h' => absurd h' h, fun _ _ => ⟨fun hc => absurd hc hp, fun _ => rfl⟩⟩
      cases f b <;> rfl

theorem addImagesFrom_eq (e : FileEnv) (es : List Entry) : ∀ (ts : List Target) (r : ReadFile),
    addImagesFrom e es ts r = .ok { r with images := r.images ++ ts.flatMap (listedFor e es) }
  | [], r => by simp [addImagesFrom]
  | t :: ts, r => by
    unfold addImagesFrom
    rw [List.flatMap_cons]
    cases hz : readZip es t.path with
    | none =>
      have : listedFor e es t = [] := by unfold listedFor; rw [hz]
      dsimp only
      rw [addImagesFrom_eq e es ts r, this, List.nil_append]
    | some c =>
      obtain ⟨new, h1, h2, _⟩ := addImage_append e.decode r.images t.rid t.path c.toBytes e.previews
      have : listedFor e es t = new := by unfold listedFor; rw [hz]; dsimp only; rw [h2]; rfl
      dsimp only
      unfold ReadFile.addImage
      rw [h1]
      dsimp only
      rw [Got.ok_bind, addImagesFrom_eq e es ts, this]
      simp

theorem listedFor_id (e : FileEnv) (es : List Entry) (t : Target) : ∀ i ∈ listedFor e es t, i.id = t.rid := by
  intro i hi
  unfold listedFor at hi
  split at hi
  · cases hi
  · rename_i c _
    obtain ⟨new, _, h2, preview, h3, _⟩ := addImage_append e.decode [] t.rid t.path c.toBytes e.previews
    rw [h2, Option.getD_some, h3] at hi
    obtain ⟨_, _, rfl⟩ := List.mem_map.1 hi
    rfl

theorem listed_filter (e : FileEnv) (es : List Entry) (id : Str) (ts : List Target) :
    (ts.flatMap (listedFor e es)).filter (fun i => decide (i.id = id)) = (ts.filter fun t => decide (t.rid = id)).flatMap (listedFor e es) := by
  induction ts with
  | nil => rfl
  | cons t ts ih =>
    rw [List.flatMap_cons, List.filter_append, ih]
    have h := listedFor_id e es t
    by_cases ht : t.rid = id
    · rw [List.filter_cons_of_pos (by simpa using ht), List.flatMap_cons, List.filter_eq_self.2 fun i hi => by simpa using (h i hi).trans ht]
    · rw [List.filter_cons_of_neg (by simpa using ht), List.filter_eq_nil_iff.2 fun i hi => by simpa using fun e => ht ((h i hi).symm.trans e), List.nil_append]

theorem filter_rid {ts : List Target} (hn : (ts.map (·.rid)).Nodup) {t : Target} (ht : t ∈ ts) :
    ts.filter (fun u => decide (u.rid = t.rid)) = [t] := by
  induction ts with
  | nil => cases ht
  | cons u ts ih =>
    rw [List.map_cons, List.nodup_cons] at hn
    rcases List.mem_cons.1 ht with rfl | ht
    · rw [List.filter_cons_of_pos (by simp), List.filter_eq_nil_iff.2]
      intro v hv
      simp only [decide_eq_true_eq]
      exact fun e => hn.1 (e ▸ List.mem_map_of_mem hv)
    · rw [List.filter_cons_of_neg, ih hn.2 ht]
      simp only [decide_eq_true_eq]
      exact fun e => hn.1 (e ▸ List.mem_map_of_mem ht)

theorem media_not_emf (name : Str) : ¬ HasEmfExtension (c!"word/" ++ mediaTarget name) := by
  rintro ⟨base, ext, h, he⟩
  have hl : ext.length = 4 := by have := congrArg List.length he; simpa using this
  have h' : (c!"word/" ++ (c!"media/" ++ name)) ++ c!".png" = base ++ ext := by
    rw [← h]; simp [mediaTarget, List.append_assoc]
  have := List.append_inj_right' h' (by rw [hl]; rfl)
  rw [← this] at he
  revert he
  decide

/-- No picture begins with a byte order mark. -/
def NoMarks (l : List Pic) : Prop := ∀ p ∈ l, ¬ [0xef, 0xbb, 0xbf] <+: p.image

theorem media_target (name : Str) : ¬ c!"../" <+: mediaTarget name := by
  rintro ⟨t, h⟩
  exact absurd (List.cons.inj h).1 (by decide)

/-- The pictures of a file that is read. -/
theorem file_pictures {e : FileEnv} {cs : List Call} {d : DocxFile} {env : Env} {w : World} {es : List Entry} (S : Sendable cs d env)
    (h : Packed env d w es) (hp : ∀ p ∈ partPictures (walkDocument d.document), PictureHeld p)
    (hm : NoMarks (partPictures (walkDocument d.document))) {r : ReadFile}
    (hr : (d.preparePackage env w).1.document.Readable)
    (hq : partPictures (walkDocument r.file.document) = partPictures (walkDocument ((d.preparePackage env w).1.document.reread e.x)))
    {m : ReadRels} {rs : List Relation} {r₀ : ReadFile} (h1 : HasRelations es c!"word/_rels/document.xml.rels" rs) (h2 : Finds m c!"word" rs)
    (h3 : ∀ q ∈ rs, q.mode = none → ¬ c!"../" <+: q.target → placeOf c!"word" q = c!"word/" ++ q.target ∧ LookedUp (c!"word/" ++ q.target))
    (h4 : addImages e es m r₀ = .ok { r₀ with images := r.images }) :
    ∃ before listed, r.images = before ++ listed ∧
      List.Forall₂ (fun p q => PictureReadAs e listed p q ∧ PictureChanged p q) (partPictures (walkDocument d.document))
        (partPictures (walkDocument r.file.document)) := by
  obtain ⟨rs', h1', hpic⟩ := package_pictures S.made S.links S.dependencies h
  cases hasRelations_unique h h1 h1'
  have himg : r.images = r₀.images ++ ((m.targets (officeType c!"image")).getD []).flatMap (listedFor e es) := by
    unfold addImages at h4
    rw [addImagesFrom_eq] at h4
    have := Got.ok.inj h4
    exact (congrArg ReadFile.images this).symm
  refine ⟨_, _, himg, ?_⟩
  rw [hq, document_pictures e.x _ hr]
  rw [List.forall₂_map_right_iff]
  refine ((List.forall₂_and_left _ _).2 ⟨fun p h => And.intro (hp p h) (hm p h), hpic⟩).imp ?_
  rintro p q ⟨⟨hh, hb⟩, hs, hpl, name, hf, hmem⟩
  have hid : q.reread.id = q.id := by
    have : seen q.id = q.id := by unfold seen; rw [hpl.decode]; rfl
    unfold Pic.reread
    split <;> exact this
  refine ⟨⟨same_kept hs (picture_kept q (same_held hs hh)), ?_⟩, same_changed hs (picture_changed q)⟩
  rw [hid]
  have hrel : (⟨q.id, imageType, mediaTarget name, none⟩ : Relation) ∈ rs := by
    have : (⟨q.id, imageType, mediaTarget name, none⟩ : Relation) ∈ rs.filter fun r => decide (r.id = q.id) := by rw [hf]; exact .head _
    exact (List.mem_filter.1 this).1
  obtain ⟨hpl1, hpl2⟩ := h3 _ hrel rfl (media_target name)
  have ht : (⟨q.id, c!"word/" ++ mediaTarget name, none⟩ : Target) ∈ (m.targets (officeType c!"image")).getD [] := by
    rw [h2.mem_targets]
    exact ⟨_, hrel, rfl, by rw [hpl1]⟩
  have hz : readZip es (c!"word/" ++ mediaTarget name) = some (.bytes p.image) := by
    have := readZip_of (Docx.packed_nodup h) hmem hpl2
    rw [this, Content.withoutBom, dropBomBytes, if_neg (by rw [List.isPrefixOf_iff_prefix]; exact hb)]
  obtain ⟨new, _, e2, preview, e3, e4, e5⟩ := addImage_append e.decode [] q.id (c!"word/" ++ mediaTarget name) p.image e.previews
  refine ⟨c!"word/" ++ mediaTarget name, preview, media_not_emf name, ⟨e4, e5⟩, ?_⟩
  rw [listed_filter]
  have := filter_rid (h2.ids_nodup _) ht
  dsimp only at this
  rw [this, List.flatMap_cons, List.flatMap_nil, List.append_nil, ← e3]
  unfold listedFor
  dsimp only
  rw [hz]
  show (addImageWithOptions e.decode [] q.id (c!"word/" ++ mediaTarget name) p.image e.previews).getD [] = new
  rw [e2]
  rfl

/-! ## The claims -/

/-- **C62.** The pictures of the body of a file that is packed and read, where no comments are in the body: there are the same number of
pictures in the same order, each is kept in the sense of `PictureKept`, and under its id the file read lists the bytes given for it, once
(after what is listed for headers and footers), unless a preview was asked for and the bytes cannot be converted. -/
theorem C62_pictures (e : FileEnv) (cs : List Call) (d : DocxFile) (env : Env) (w : World) (es : List Entry)
    (S : Sendable cs d env) (h : Packed env d w es) (ht : ∀ c ∈ d.document.children, ∀ t, c ≠ .toc t) (hs : AllS d.document.strings)
    (hr : d.document.Readable) (hn : bodyComments d.document = []) (hx : ∀ l, .commentsExtended l ∉ cs)
    (hp : ∀ p ∈ partPictures (walkDocument d.document), PictureHeld p) (hm : NoMarks (partPictures (walkDocument d.document))) :
    ∃ k, ∀ n, k ≤ n → ∃ r before listed, readDocx e n es = .ok r ∧ r.images = before ++ listed ∧
      List.Forall₂ (PictureReadAs e listed) (partPictures (walkDocument d.document)) (partPictures (walkDocument r.file.document)) := by
  obtain ⟨k, hk'⟩ := packed_file e S h ht hs hr (good := fun cs' _ => cs' = []) (no_records e S.made h hn hx)
  refine ⟨k, fun n hn' => ?_⟩
  obtain ⟨cs', rs', q, r, rfl, h1, h2, h3, h4, h5, h6, h7, h8, h9, h10, _, _, rfl, hr', m, rs, r₀, a1, a2, a3, a4⟩ := hk' n hn'
  obtain ⟨before, listed, b1, b2⟩ := file_pictures S h hp hm hr' (children_pictures _ _ h3) a1 a2 a3 a4
  exact ⟨r, before, listed, h1, b1, b2.imp fun _ _ h => h.1⟩

/-- **C62, with comments.** The same of a file whose body has comments that are kept. -/
theorem C62_pictures_comments (e : FileEnv) (cs : List Call) (d : DocxFile) (env : Env) (w : World) (es : List Entry) (items : List CommentItem)
    (S : Sendable cs d env) (h : Packed env d w es) (ht : ∀ c ∈ d.document.children, ∀ t, c ≠ .toc t) (hs : AllS d.document.strings)
    (hr : d.document.Readable) (hc : Copied d) (hb : bodyComments d.document = items.map commentOf) (hk : ∀ c ∈ items, c.Kept)
    (hne : ∃ c ∈ items, c.paragraphs ≠ [])
    (hp : ∀ p ∈ partPictures (walkDocument d.document), PictureHeld p) (hm : NoMarks (partPictures (walkDocument d.document))) :
    ∃ k, ∀ n, k ≤ n → ∃ r before listed, readDocx e n es = .ok r ∧ r.images = before ++ listed ∧
      List.Forall₂ (PictureReadAs e listed) (partPictures (walkDocument d.document)) (partPictures (walkDocument r.file.document)) := by
  have hsome : ∃ c ∈ bodyComments d.document, directParagraphs c ≠ [] := by
    obtain ⟨c, hc, hne⟩ := hne
    refine ⟨commentOf c, by rw [hb]; exact List.mem_map_of_mem hc, fun h0 => hne ?_⟩
    have := commentOf_ids c
    rw [directParagraphs_ids, h0] at this
    exact List.length_eq_zero_iff.1 this.symm
  obtain ⟨co, rec, e1, e2, k, hk'⟩ := C57_package e.x d env w es items hc S.ids h hb hk hne
  obtain ⟨k', hk2⟩ := packed_file e S h ht hs hr
    (good := fun cs' rs' => ((threads cs' rs').map fun c => (seenComment c).map CommentItem.dropIds) = (afterComments items).map fun c => some c.dropIds)
    ⟨co, rec, e1, e2, k, fun n hn => by
      obtain ⟨cs', rs', a1, a2, a3⟩ := hk' n hn
      exact ⟨cs', rs', fun _ => a1, fun h => absurd hsome h, a2, a3⟩⟩
  refine ⟨k', fun n hn' => ?_⟩
  obtain ⟨cs', rs', q, r, hg, h1, h2, h3, h4, h5, h6, h7, h8, h9, h10, _, _, rfl, hr', m, rs, r₀, a1, a2, a3, a4⟩ := hk2 n hn'
  have hq : partPictures (walkDocument r.file.document) = partPictures (walkDocument ((d.preparePackage env w).1.document.reread e.x)) := by
    split at h3
    · exact children_pictures _ _ h3
    · exact stored_pictures _ _ _ h3
  obtain ⟨before, listed, b1, b2⟩ := file_pictures S h hp hm hr' hq a1 a2 a3 a4
  exact ⟨r, before, listed, h1, b1, b2.imp fun _ _ h => h.1⟩

/-- **C62, what is lost.** Under the same hypotheses, pictures are changed in the way `PictureChanged` says. -/
theorem C62_changes (e : FileEnv) (cs : List Call) (d : DocxFile) (env : Env) (w : World) (es : List Entry)
    (S : Sendable cs d env) (h : Packed env d w es) (ht : ∀ c ∈ d.document.children, ∀ t, c ≠ .toc t) (hs : AllS d.document.strings)
    (hr : d.document.Readable) (hn : bodyComments d.document = []) (hx : ∀ l, .commentsExtended l ∉ cs)
    (hp : ∀ p ∈ partPictures (walkDocument d.document), PictureHeld p) (hm : NoMarks (partPictures (walkDocument d.document))) :
    ∃ k, ∀ n, k ≤ n → ∃ r, readDocx e n es = .ok r ∧
      List.Forall₂ PictureChanged (partPictures (walkDocument d.document)) (partPictures (walkDocument r.file.document)) := by
  obtain ⟨k, hk'⟩ := packed_file e S h ht hs hr (good := fun cs' _ => cs' = []) (no_records e S.made h hn hx)
  refine ⟨k, fun n hn' => ?_⟩
  obtain ⟨cs', rs', q, r, rfl, h1, h2, h3, h4, h5, h6, h7, h8, h9, h10, _, _, rfl, hr', m, rs, r₀, a1, a2, a3, a4⟩ := hk' n hn'
  obtain ⟨before, listed, b1, b2⟩ := file_pictures S h hp hm hr' (children_pictures _ _ h3) a1 a2 a3 a4
  exact ⟨r, h1, b2.imp fun _ _ h => h.2⟩

/-- **C62, a picture that cannot be shown.** With previews on, a picture that is neither EMF nor PNG and that cannot be converted is not
listed at all: reading succeeds, the picture is in the body, and no bytes are listed under its id. -/
theorem C62_unconverted (e : FileEnv) (listed : List ImageEntry) (p q : Pic) (h : PictureReadAs e listed p q) (hv : e.previews = true)
    (hemf : ¬ HasEmfHeader p.image) (hpng : ¬ [137, 80, 78, 71, 13, 10, 26, 10] <+: p.image) (hd : e.decode p.image = none) :
    ∀ i ∈ listed, i.id ≠ q.id := by
  obtain ⟨_, path, preview, h1, h2, h3⟩ := h
  rw [(h2.2 (by rintro (h | h); exacts [h1 h, hemf h]) hv).2 hpng, hd] at h3
  intro i hi e
  have : i ∈ listed.filter (fun i => decide (i.id = q.id)) := List.mem_filter.2 ⟨hi, by simpa using e⟩
  rw [h3] at this
  cases this

/-- **C62, what is listed otherwise.** Exactly one entry is listed under the id, and it has the bytes given. -/
theorem C62_listed (e : FileEnv) (listed : List ImageEntry) (p q : Pic) (h : PictureReadAs e listed p q)
    (hc : e.previews = false ∨ HasEmfHeader p.image ∨ [137, 80, 78, 71, 13, 10, 26, 10] <+: p.image ∨ (e.decode p.image).isSome) :
    ∃ i, listed.filter (fun i => decide (i.id = q.id)) = [i] ∧ i.image = p.image := by
  obtain ⟨_, path, preview, h1, h2, h3⟩ := h
  suffices hs : preview.isSome by
    obtain ⟨png, hpng⟩ := Option.isSome_iff_exists.1 hs
    rw [hpng] at h3
    exact ⟨_, h3, rfl⟩
  by_cases he : (HasEmfExtension path ∨ HasEmfHeader p.image) ∨ e.previews = false
  · rw [h2.1 he]; rfl
  · have hv : e.previews = true := by cases hv : e.previews with | true => rfl | false => exact absurd (.inr hv) he
    have hn : ¬ (HasEmfExtension path ∨ HasEmfHeader p.image) := fun h => he (.inl h)
    have h4 := h2.2 hn hv
    by_cases hpng : [137, 80, 78, 71, 13, 10, 26, 10] <+: p.image
    · rw [h4.1 hpng]; rfl
    · rw [h4.2 hpng]
      rcases hc with hc | hc | hc | hc
      · rw [hv] at hc; cases hc
      · exact absurd (.inr hc) hn
      · exact absurd hc hpng
      · exact hc

/-! ## Witnesses -/

/-- An inline picture and a floating one. -/
def inlinePicture : Pic := { id := createPicRid 1, image := [137, 80, 78, 71, 13, 10, 26, 10, 5], size := (9525, 19050), distT := -3 }

def floatingPicture : Pic :=
  { id := createPicRid 2, image := [1, 2], size := (3, 4), positionType := .anchor, positionH := .offset 12, positionV := .align .top,
    relativeFromV := .page, simplePos := true, rot := 90 }

def picturedCalls : List Call :=
  [.addParagraph { id := c!"x", children := [.run { children := [.picture inlinePicture] }, .run { children := [.picture floatingPicture] }] }]

theorem pictured_pack : packs (fun d _ => copiedB d && decide (∀ i ∈ bodyIds (walkStory ⟨d.document, d.comments, d.footnotes⟩), ∀ c ∈ i,
      c ≠ '&' ∧ c ≠ '<' ∧ c ≠ '"' ∧ c ≠ '\r' ∧ c ≠ '\t' ∧ c ≠ '\n') &&
    decide (d.settings.defaultTabStop = 840 ∧ d.settings.docId = none ∧ d.settings.docVars = [] ∧
      partPictures (walkDocument d.document) = [inlinePicture, floatingPicture] ∧ bodyLinks d.document = []) &&
    (bodyComments d.document).isEmpty) picturedCalls = true := by decide +kernel

theorem pictured_parts : (DocxFile.new.calls picturedCalls).map (fun d => (d.document.children,
    Side.ofDocument .header d.document, Side.ofDocument .footer d.document, d.document.sectionProperty.base, d.styles, d.numberings)) =
    some ([.paragraph { id := c!"x", children := [.run { children := [.picture inlinePicture] }, .run { children := [.picture floatingPicture] }] }],
      [], [], {}, {}, {}) := by rfl

/-- A packed file with two pictures meets the hypotheses of `C62_pictures` and `C62_changes`. -/
example : ∃ d es, Sendable picturedCalls d anEnv ∧ Packed anEnv d {} es ∧ (∀ c ∈ d.document.children, ∀ t, c ≠ .toc t) ∧
    AllS d.document.strings ∧ d.document.Readable ∧ bodyComments d.document = [] ∧ (∀ l, Call.commentsExtended l ∉ picturedCalls) ∧
    (∀ p ∈ partPictures (walkDocument d.document), PictureHeld p) ∧ NoMarks (partPictures (walkDocument d.document)) ∧
    partPictures (walkDocument d.document) = [inlinePicture, floatingPicture] := by
  obtain ⟨d, es, h1, h2, h3⟩ := packs_spec pictured_pack
  rw [Bool.and_eq_true, Bool.and_eq_true, Bool.and_eq_true, decide_eq_true_eq, decide_eq_true_eq] at h3
  obtain ⟨⟨⟨cp, i1⟩, s1, s2, s3, p1, p2⟩, n1⟩ := h3
  have h4 := pictured_parts
  rw [h1] at h4
  simp only [Option.map_some, Option.some.injEq, Prod.mk.injEq] at h4
  obtain ⟨a, b, c, f, st, nu⟩ := h4
  have hmade : ∀ p ∈ partPictures (walkDocument d.document), ∃ n, p.id = createPicRid n := by
    rw [p1]
    intro p hp
    rcases List.mem_cons.1 hp with rfl | hp
    · exact ⟨1, rfl⟩
    · rw [List.mem_singleton.1 hp]; exact ⟨2, rfl⟩
  have hpage : AllS d.document.sectionProperty.base.strings ∧ SectionBase.Placed d.document.sectionProperty.base := by
    rw [f]
    refine ⟨fun s hs => ?_, by simp [SectionBase.Placed]⟩
    simp [-String.reduceToList, SectionBase.strings, optStrings] at hs
    subst hs
    exact stored_of_plain (plain_lit (by decide))
  refine ⟨d, es, ?_, h2, ?_, (copiedB_spec cp).body, ⟨?_, fun s hs => (hpage.1 s hs).2.1, hpage.2⟩, List.isEmpty_iff.1 n1, ?_, ?_, ?_, p1⟩
  · exact {
      made := h1
      links := fun l => .refl _
      props := fun l => .refl _
      dependencies := ⟨hmade, by rw [p2]; exact fun _ h => (by cases h)⟩
      pictures := ⟨hmade, fun side h hh => by
        cases side
        · rw [b] at hh; cases hh
        · rw [c] at hh; cases hh⟩
      plainly := ⟨fun x hx => by simp [picturedCalls] at hx, fun s hs => by simp [picturedCalls] at hs⟩
      order := by intro side; cases side <;> (unfold InOrder; decide)
      ids := i1
      parts := by
        intro side h hh
        cases side
        · rw [b] at hh; cases hh
        · rw [c] at hh; cases hh
      custom := fun name value hm => by simp [picturedCalls] at hm
      styles := by
        rw [st]
        exact ⟨by constructor <;> simp, paragraphProperty_default_kept, fun _ h => (by cases h)⟩
      numberings := by
        rw [nu]
        exact ⟨fun _ h => (by cases h), fun _ h => (by cases h)⟩
      settings := by
        refine ⟨by rw [s1]; omega, fun i hi => ?_, fun v hv => ?_⟩
        · rw [s2] at hi; cases hi
        · rw [s3] at hv; cases hv
      page := hpage }
  · rw [a]
    intro c hc t e
    rw [List.mem_singleton.1 hc] at e
    cases e
  · rw [a]
    intro c hc
    rw [List.mem_singleton.1 hc]
    have hq : KeptItem (.paragraph c!"x" {} []) := by
      rw [KeptItem]
      exact ⟨plain_lit (by decide), kept_default, fun p hp => by cases hp⟩
    have hr := (fineParagraph hq).read
    refine ⟨hr.1, hr.2.1, fun c hc => ?_⟩
    simp only [List.mem_cons, List.not_mem_nil, or_false] at hc
    rcases hc with rfl | rfl
    · exact ⟨by simp [RunProperty.Readable, RunProperty.strings, optStrings, optS], fun c hc => by rw [List.mem_singleton.1 hc]; trivial⟩
    · exact ⟨by simp [RunProperty.Readable, RunProperty.strings, optStrings, optS], fun c hc => by rw [List.mem_singleton.1 hc]; trivial⟩
  · intro l hl
    simp [picturedCalls] at hl
  · rw [p1]
    intro p hp
    rcases List.mem_cons.1 hp with rfl | hp
    · constructor <;> decide
    · rw [List.mem_singleton.1 hp]; constructor <;> decide
  · rw [p1]
    unfold NoMarks
    decide

/-- The pictures, and a paragraph with comments. -/
def picturedCommentCalls : List Call := picturedCalls ++ commentedCalls

theorem picturedComment_pack : packs (fun d _ => copiedB d && decide (∀ i ∈ bodyIds (walkStory ⟨d.document, d.comments, d.footnotes⟩), ∀ c ∈ i,
      c ≠ '&' ∧ c ≠ '<' ∧ c ≠ '"' ∧ c ≠ '\r' ∧ c ≠ '\t' ∧ c ≠ '\n') &&
    decide (d.settings.defaultTabStop = 840 ∧ d.settings.docId = none ∧ d.settings.docVars = [] ∧
      partPictures (walkDocument d.document) = [inlinePicture, floatingPicture] ∧ bodyLinks d.document = [])) picturedCommentCalls = true := by
  decide +kernel

theorem picturedComment_parts : (DocxFile.new.calls picturedCommentCalls).map (fun d => (bodyComments d.document, d.document.children,
    Side.ofDocument .header d.document, Side.ofDocument .footer d.document, d.document.sectionProperty.base, d.styles, d.numberings)) =
    some (threadItems.map commentOf,
      [.paragraph { id := c!"x", children := [.run { children := [.picture inlinePicture] }, .run { children := [.picture floatingPicture] }] },
       .paragraph { id := c!"x", children := (threadItems.map commentOf).flatMap fun c => [.commentStart c.id c, .commentEnd c.id] }],
      [], [], {}, {}, {}) := by rfl

/-- A packed file with two pictures and three comments meets the hypotheses of `C62_pictures_comments`. -/
example : ∃ d es, Sendable picturedCommentCalls d anEnv ∧ Packed anEnv d {} es ∧ (∀ c ∈ d.document.children, ∀ t, c ≠ .toc t) ∧
    AllS d.document.strings ∧ d.document.Readable ∧ Copied d ∧ bodyComments d.document = threadItems.map commentOf ∧
    (∀ c ∈ threadItems, c.Kept) ∧ (∃ c ∈ threadItems, c.paragraphs ≠ []) ∧
    (∀ p ∈ partPictures (walkDocument d.document), PictureHeld p) ∧ NoMarks (partPictures (walkDocument d.document)) ∧
    partPictures (walkDocument d.document) = [inlinePicture, floatingPicture] := by
  obtain ⟨d, es, h1, h2, h3⟩ := packs_spec picturedComment_pack
  rw [Bool.and_eq_true, Bool.and_eq_true, decide_eq_true_eq, decide_eq_true_eq] at h3
  obtain ⟨⟨cp, i1⟩, s1, s2, s3, p1, p2⟩ := h3
  have h4 := picturedComment_parts
  rw [h1] at h4
  simp only [Option.map_some, Option.some.injEq, Prod.mk.injEq] at h4
  obtain ⟨bc, a, b, c, f, st, nu⟩ := h4
  have hmade : ∀ p ∈ partPictures (walkDocument d.document), ∃ n, p.id = createPicRid n := by
    rw [p1]
    intro p hp
    rcases List.mem_cons.1 hp with rfl | hp
    · exact ⟨1, rfl⟩
    · rw [List.mem_singleton.1 hp]; exact ⟨2, rfl⟩
  have hpage : AllS d.document.sectionProperty.base.strings ∧ SectionBase.Placed d.document.sectionProperty.base := by
    rw [f]
    refine ⟨fun s hs => ?_, by simp [SectionBase.Placed]⟩
    simp [-String.reduceToList, SectionBase.strings, optStrings] at hs
    subst hs
    exact stored_of_plain (plain_lit (by decide))
  refine ⟨d, es, ?_, h2, ?_, (copiedB_spec cp).body, ⟨?_, fun s hs => (hpage.1 s hs).2.1, hpage.2⟩, copiedB_spec cp, bc, threadItems_kept,
    ⟨_, .head _, fun h => (by cases h)⟩, ?_, ?_, p1⟩
  · exact {
      made := h1
      links := fun l => .refl _
      props := fun l => .refl _
      dependencies := ⟨hmade, by rw [p2]; exact fun _ h => (by cases h)⟩
      pictures := ⟨hmade, fun side h hh => by
        cases side
        · rw [b] at hh; cases hh
        · rw [c] at hh; cases hh⟩
      plainly := ⟨fun x hx => by simp [picturedCommentCalls, picturedCalls, commentedCalls] at hx, fun s hs => by simp [picturedCommentCalls, picturedCalls, commentedCalls] at hs⟩
      order := by intro side; cases side <;> (unfold InOrder; decide)
      ids := i1
      parts := by
        intro side h hh
        cases side
        · rw [b] at hh; cases hh
        · rw [c] at hh; cases hh
      custom := fun name value hm => by simp [picturedCommentCalls, picturedCalls, commentedCalls] at hm
      styles := by
        rw [st]
        exact ⟨by constructor <;> simp, paragraphProperty_default_kept, fun _ h => (by cases h)⟩
      numberings := by
        rw [nu]
        exact ⟨fun _ h => (by cases h), fun _ h => (by cases h)⟩
      settings := by
        refine ⟨by rw [s1]; omega, fun i hi => ?_, fun v hv => ?_⟩
        · rw [s2] at hi; cases hi
        · rw [s3] at hv; cases hv
      page := hpage }
  · rw [a]
    intro c hc t e
    simp only [List.mem_cons, List.not_mem_nil, or_false] at hc
    rcases hc with rfl | rfl <;> cases e
  · rw [a]
    intro c hc
    have hq : KeptItem (.paragraph c!"x" {} []) := by
      rw [KeptItem]
      exact ⟨plain_lit (by decide), kept_default, fun p hp => by cases hp⟩
    have hr := (fineParagraph hq).read
    rcases List.mem_cons.1 hc with rfl | hc
    · refine ⟨hr.1, hr.2.1, fun c hc => ?_⟩
      simp only [List.mem_cons, List.not_mem_nil, or_false] at hc
      rcases hc with rfl | rfl
      · exact ⟨by simp [RunProperty.Readable, RunProperty.strings, optStrings, optS], fun c hc => by rw [List.mem_singleton.1 hc]; trivial⟩
      · exact ⟨by simp [RunProperty.Readable, RunProperty.strings, optStrings, optS], fun c hc => by rw [List.mem_singleton.1 hc]; trivial⟩
    · rw [List.mem_singleton.1 hc]
      refine ⟨hr.1, hr.2.1, fun c hc => ?_⟩
      obtain ⟨m, hm, hc⟩ := List.mem_flatMap.1 hc
      obtain ⟨i, hi, rfl⟩ := List.mem_map.1 hm
      have hfit : i.id < 2 ^ 64 := (threadItems_kept i hi).id
      have e : (commentOf i).id = i.id := by rw [commentOf_eq]
      simp only [List.mem_cons, List.not_mem_nil, or_false] at hc
      rcases hc with rfl | rfl
      · show Fits (commentOf i).id
        rw [e]; exact hfit
      · show Fits (commentOf i).id
        rw [e]; exact hfit
  · rw [p1]
    intro p hp
    rcases List.mem_cons.1 hp with rfl | hp
    · constructor <;> decide
    · rw [List.mem_singleton.1 hp]; constructor <;> decide
  · rw [p1]
    unfold NoMarks
    decide

end Docx.Props
