import Verif.Lemmas.Relations
import Verif.Lemmas.MediaNames

/-!
# The entries of a package
-/

namespace Docx

set_option linter.unusedSimpArgs false

open Docx.Spec Docx.Xml

theorem packed_fits {env : Env} {d : DocxFile} {w : World} {es : List Entry} (h : Packed env d w es) :
    List.Forall₂ ZipStep.Fits (zipDocxSteps env (d.preparePackage env w).1 (d.preparePackage env w).2.1) es := by
  rcases h with ⟨w', h⟩ | ⟨w', h⟩
  · obtain ⟨g, h1, _⟩ := Props.pack_runs h
    exact runSteps_fits _ _ _ _ h1
  · obtain ⟨l, g1, x, g2, e1, e2, e3, _⟩ := Props.buildThenPack_runs h
    exact pack_fits (build_built e1 e2) (preparePackage_rels env d w) e3

theorem packed_nodup {env : Env} {d : DocxFile} {w : World} {es : List Entry} (h : Packed env d w es) :
    (es.map Entry.name).Nodup := by
  rcases h with ⟨w', h⟩ | ⟨w', h⟩
  · exact Props.C17_pack env d w w' es h
  · exact Props.C17_build_pack env d w w' es h

theorem fits_mem {ss : List ZipStep} {es : List Entry} (h : List.Forall₂ ZipStep.Fits ss es) {s : ZipStep} (hs : s ∈ ss) :
    ∃ e ∈ es, s.Fits e := by
  induction h with
  | nil => cases hs
  | cons h1 _ ih =>
    rcases List.mem_cons.1 hs with rfl | hs
    · exact ⟨_, .head _, h1⟩
    · obtain ⟨e, he, hf⟩ := ih hs
      exact ⟨e, .tail _ he, hf⟩

theorem fits_mem' {ss : List ZipStep} {es : List Entry} (h : List.Forall₂ ZipStep.Fits ss es) {e : Entry} (he : e ∈ es) :
    ∃ s ∈ ss, s.Fits e := by
  induction h with
  | nil => cases he
  | cons h1 _ ih =>
    rcases List.mem_cons.1 he with rfl | he
    · exact ⟨_, .head _, h1⟩
    · obtain ⟨s, hs, hf⟩ := ih he
      exact ⟨s, .tail _ hs, hf⟩

theorem fits_write {ss : List ZipStep} {es : List Entry} (h : List.Forall₂ ZipStep.Fits ss es) {n : Str} {p : Part}
    (hs : .write n p ∈ ss) : ∃ s g g', p g = some (.ok s, g') ∧ ⟨n, .text s⟩ ∈ es := by
  obtain ⟨e, he, s, g, g', rfl, h1⟩ := fits_mem h hs
  exact ⟨s, g, g', h1, he⟩

theorem fits_const {ss : List ZipStep} {es : List Entry} (h : List.Forall₂ ZipStep.Fits ss es) {n t : Str} {p : Part}
    (hs : .write n p ∈ ss) (hp : p.Const t) : ⟨n, .text t⟩ ∈ es := by
  obtain ⟨s, g, g', h1, h2⟩ := fits_write h hs
  rw [hp g] at h1
  simp only [Option.some.injEq, Prod.mk.injEq, Except.ok.injEq] at h1
  rw [h1.1]
  exact h2

theorem fits_store {ss : List ZipStep} {es : List Entry} (h : List.Forall₂ ZipStep.Fits ss es) {n : Str} {b : Bytes}
    (hs : .store n b ∈ ss) : ⟨n, .bytes b⟩ ∈ es := by
  obtain ⟨e, he, hf⟩ := fits_mem h hs
  cases hf
  exact he

theorem fits_file {ss : List ZipStep} {es : List Entry} (h : List.Forall₂ ZipStep.Fits ss es) {n : Str} {p : Part}
    (hs : .write n p ∈ ss) : HasFile es n := by
  obtain ⟨s, g, g', h1, h2⟩ := fits_write h hs
  exact ⟨_, h2, by simp⟩

/-- One entry for each name. -/
theorem entry_unique {es : List Entry} (h : (es.map Entry.name).Nodup) {n : Str} {a b : Content} (ha : ⟨n, a⟩ ∈ es)
    (hb : ⟨n, b⟩ ∈ es) : a = b := by
  induction es with
  | nil => cases ha
  | cons e es ih =>
    rw [List.map_cons, List.nodup_cons] at h
    rcases List.mem_cons.1 ha with rfl | ha <;> rcases List.mem_cons.1 hb with hb | hb
    · simp at hb; exact hb.symm
    · exact absurd (List.mem_map_of_mem (f := Entry.name) hb) h.1
    · rw [← hb] at h; exact absurd (List.mem_map_of_mem (f := Entry.name) ha) h.1
    · exact ih h.2 ha hb

/-! ## Steps -/

theorem mem_fixed {env : Env} {d : DocxFile} {p : PackageMetadata} {s : ZipStep} (h : s ∈ fixedSteps env d) :
    s ∈ zipDocxSteps env d p := by
  rw [zipDocxSteps_split]
  exact List.mem_append_left _ h


section
variable (env : Env) (d : DocxFile) (p : PackageMetadata)

theorem step_contentTypes : .write c!"[Content_Types].xml" d.contentTypesPart ∈ zipDocxSteps env d p := mem_fixed (.tail _ (.tail _ (.tail _ (.tail _ (.head _)))))
theorem step_rels : .write c!"_rels/.rels" d.relsPart ∈ zipDocxSteps env d p := mem_fixed (.tail _ (.tail _ (.tail _ (.tail _ (.tail _ (.head _))))))
theorem step_app : .write c!"docProps/app.xml" appPart ∈ zipDocxSteps env d p := mem_fixed (.tail _ (.tail _ (.tail _ (.tail _ (.tail _ (.tail _ (.head _)))))))
theorem step_core : .write c!"docProps/core.xml" d.corePart ∈ zipDocxSteps env d p := mem_fixed (.tail _ (.tail _ (.tail _ (.tail _ (.tail _ (.tail _ (.tail _ (.head _))))))))
theorem step_custom : .write c!"docProps/custom.xml" (d.customPart env) ∈ zipDocxSteps env d p := mem_fixed (.tail _ (.tail _ (.tail _ (.tail _ (.tail _ (.tail _ (.tail _ (.tail _ (.head _)))))))))
theorem step_documentRels : .write c!"word/_rels/document.xml.rels" d.documentRelsPart ∈ zipDocxSteps env d p := mem_fixed (.tail _ (.tail _ (.tail _ (.tail _ (.tail _ (.tail _ (.tail _ (.tail _ (.tail _ (.head _))))))))))
theorem step_document : .write c!"word/document.xml" d.document.write ∈ zipDocxSteps env d p := mem_fixed (.tail _ (.tail _ (.tail _ (.tail _ (.tail _ (.tail _ (.tail _ (.tail _ (.tail _ (.tail _ (.head _)))))))))))
theorem step_styles : .write c!"word/styles.xml" d.stylesPart ∈ zipDocxSteps env d p := mem_fixed (.tail _ (.tail _ (.tail _ (.tail _ (.tail _ (.tail _ (.tail _ (.tail _ (.tail _ (.tail _ (.tail _ (.head _))))))))))))
theorem step_settings : .write c!"word/settings.xml" d.settingsPart ∈ zipDocxSteps env d p := mem_fixed (.tail _ (.tail _ (.tail _ (.tail _ (.tail _ (.tail _ (.tail _ (.tail _ (.tail _ (.tail _ (.tail _ (.tail _ (.head _)))))))))))))
theorem step_fontTable : .write c!"word/fontTable.xml" fontTablePart ∈ zipDocxSteps env d p := mem_fixed (.tail _ (.tail _ (.tail _ (.tail _ (.tail _ (.tail _ (.tail _ (.tail _ (.tail _ (.tail _ (.tail _ (.tail _ (.tail _ (.head _))))))))))))))
theorem step_comments : .write c!"word/comments.xml" (writeComments d.comments) ∈ zipDocxSteps env d p := mem_fixed (.tail _ (.tail _ (.tail _ (.tail _ (.tail _ (.tail _ (.tail _ (.tail _ (.tail _ (.tail _ (.tail _ (.tail _ (.tail _ (.tail _ (.head _)))))))))))))))
theorem step_numbering : .write c!"word/numbering.xml" d.numberingPart ∈ zipDocxSteps env d p := mem_fixed (.tail _ (.tail _ (.tail _ (.tail _ (.tail _ (.tail _ (.tail _ (.tail _ (.tail _ (.tail _ (.tail _ (.tail _ (.tail _ (.tail _ (.tail _ (.head _))))))))))))))))
theorem step_commentsExtended : .write c!"word/commentsExtended.xml" d.commentsExtendedPart ∈ zipDocxSteps env d p := mem_fixed (.tail _ (.tail _ (.tail _ (.tail _ (.tail _ (.tail _ (.tail _ (.tail _ (.tail _ (.tail _ (.tail _ (.tail _ (.tail _ (.tail _ (.tail _ (.tail _ (.head _)))))))))))))))))
theorem step_footnotes : .write c!"word/footnotes.xml" (writeFootnotes d.footnotes) ∈ zipDocxSteps env d p := mem_fixed (.tail _ (.tail _ (.tail _ (.tail _ (.tail _ (.tail _ (.tail _ (.tail _ (.tail _ (.tail _ (.tail _ (.tail _ (.tail _ (.tail _ (.tail _ (.tail _ (.tail _ (.head _))))))))))))))))))

theorem partSteps_part (kind : Str) (write : Header → Part) : ∀ (hs : List Header) (i : Nat) (rs : List (Nat × List (Str × Str)))
    (j : Nat) (h : Header), hs[j]? = some h → .write (partName kind (i + j + 1)) (write h) ∈ partSteps kind write i hs rs
  | [], i, rs, j, h, e => by simp at e
  | a :: hs, i, rs, 0, h, e => by
    simp only [List.getElem?_cons_zero, Option.some.injEq] at e
    subst e
    cases rs with
    | nil => exact .head _
    | cons r rs => exact .head _
  | a :: hs, i, rs, j + 1, h, e => by
    rw [List.getElem?_cons_succ] at e
    have ih := fun rs => partSteps_part kind write hs (i + 1) rs j h e
    rw [show i + 1 + j + 1 = i + (j + 1) + 1 by omega] at ih
    cases rs with
    | nil => exact .tail _ (ih _)
    | cons r rs =>
      obtain ⟨k, r⟩ := r
      simp only [partSteps]
      refine .tail _ ?_
      split
      · exact .tail _ (ih _)
      · exact ih _

theorem step_header (j : Nat) (h : Header) (e : d.document.headers[j]? = some h) :
    .write (partName c!"header" (j + 1)) h.writeHeader ∈ zipDocxSteps env d p := by
  rw [zipDocxSteps_split]
  refine List.mem_append_right _ ?_
  unfold otherSteps
  iterate 5 refine List.mem_append_left _ ?_
  have := partSteps_part c!"header" Header.writeHeader d.document.headers 0 p.headerRels j h e
  rwa [Nat.zero_add] at this

theorem step_footer (j : Nat) (h : Header) (e : d.document.footers[j]? = some h) :
    .write (partName c!"footer" (j + 1)) h.writeFooter ∈ zipDocxSteps env d p := by
  rw [zipDocxSteps_split]
  refine List.mem_append_right _ ?_
  unfold otherSteps
  iterate 4 refine List.mem_append_left _ ?_
  refine List.mem_append_right _ ?_
  have := partSteps_part c!"footer" Header.writeFooter d.document.footers 0 p.footerRels j h e
  rwa [Nat.zero_add] at this

theorem step_media (m : Str × Bytes) (h : m ∈ p.media) : .store (mediaName m.1) m.2 ∈ zipDocxSteps env d p := by
  rw [zipDocxSteps_split]
  refine List.mem_append_right _ ?_
  unfold otherSteps
  iterate 3 refine List.mem_append_left _ ?_
  refine List.mem_append_right _ ?_
  rw [if_neg (fun e => by rw [e] at h; cases h)]
  exact .tail _ (List.mem_map_of_mem (f := fun m : Str × Bytes => ZipStep.store (mediaName m.1) m.2) h)

theorem step_taskpanes (h : d.taskpanes = true) : .write c!"word/webextensions/taskpanes.xml" taskpanesPart ∈ zipDocxSteps env d p := by
  rw [zipDocxSteps_split]
  refine List.mem_append_right _ ?_
  unfold otherSteps
  iterate 2 refine List.mem_append_left _ ?_
  refine List.mem_append_right _ ?_
  rw [if_pos h]
  exact .tail _ (.head _)

theorem step_taskpanesRels (h : d.taskpanes = true) :
    .write c!"word/webextensions/_rels/taskpanes.xml.rels" d.taskpanesRelsPart ∈ zipDocxSteps env d p := by
  rw [zipDocxSteps_split]
  refine List.mem_append_right _ ?_
  unfold otherSteps
  iterate 2 refine List.mem_append_left _ ?_
  refine List.mem_append_right _ ?_
  rw [if_pos h]
  exact .tail _ (.tail _ (.tail _ (.head _)))

theorem webExtensionSteps_part : ∀ (es : List WebExtension) (i j : Nat) (e : WebExtension), es[j]? = some e →
    .write (webExtensionName (i + j + 1)) (webExtensionPart e) ∈ webExtensionSteps i es
  | [], i, j, e, h => by simp at h
  | a :: es, i, 0, e, h => by
    simp only [List.getElem?_cons_zero, Option.some.injEq] at h
    subst h
    exact .head _
  | a :: es, i, j + 1, e, h => by
    rw [List.getElem?_cons_succ] at h
    have ih := webExtensionSteps_part es (i + 1) j e h
    rw [show i + 1 + j + 1 = i + (j + 1) + 1 by omega] at ih
    exact .tail _ ih

theorem step_webExtension (h : d.taskpanes = true) (j : Nat) (e : WebExtension) (he : d.webExtensions[j]? = some e) :
    .write (webExtensionName (j + 1)) (webExtensionPart e) ∈ zipDocxSteps env d p := by
  rw [zipDocxSteps_split]
  refine List.mem_append_right _ ?_
  unfold otherSteps
  iterate 2 refine List.mem_append_left _ ?_
  refine List.mem_append_right _ ?_
  rw [if_pos h]
  have := webExtensionSteps_part d.webExtensions 0 j e he
  rw [Nat.zero_add] at this
  exact List.mem_append_right _ this

theorem customItemSteps_part : ∀ (xs : List (List XmlData)) (i j : Nat) (x : List XmlData), xs[j]? = some x →
    .write (itemRelsName (i + j + 1)) (indexed d.customItemRels (i + j) customItemRelsPart) ∈ customItemSteps d i xs ∧
    .write (itemName (i + j + 1)) (customItemPart x) ∈ customItemSteps d i xs ∧
    .write (itemPropsName (i + j + 1)) (indexed d.customItemProps (i + j) customItemPropsPart) ∈ customItemSteps d i xs
  | [], i, j, x, h => by simp at h
  | a :: xs, i, 0, x, h => by
    simp only [List.getElem?_cons_zero, Option.some.injEq] at h
    subst h
    exact ⟨.head _, .tail _ (.head _), .tail _ (.tail _ (.head _))⟩
  | a :: xs, i, j + 1, x, h => by
    rw [List.getElem?_cons_succ] at h
    have ih := customItemSteps_part xs (i + 1) j x h
    rw [show i + 1 + j = i + (j + 1) by omega] at ih
    exact ⟨List.mem_append_right _ ih.1, List.mem_append_right _ ih.2.1, List.mem_append_right _ ih.2.2⟩

theorem step_customItem (j : Nat) (x : List XmlData) (e : d.customItems[j]? = some x) :
    .write (itemRelsName (j + 1)) (indexed d.customItemRels j customItemRelsPart) ∈ zipDocxSteps env d p ∧
    .write (itemName (j + 1)) (customItemPart x) ∈ zipDocxSteps env d p ∧
    .write (itemPropsName (j + 1)) (indexed d.customItemProps j customItemPropsPart) ∈ zipDocxSteps env d p := by
  have := customItemSteps_part d d.customItems 0 j x e
  rw [Nat.zero_add] at this
  rw [zipDocxSteps_split]
  unfold otherSteps
  exact ⟨List.mem_append_right _ (List.mem_append_right _ this.1), List.mem_append_right _ (List.mem_append_right _ this.2.1),
    List.mem_append_right _ (List.mem_append_right _ this.2.2)⟩

end

/-! ## The relationships of the main document -/

/-- A relationship to a numbered part. -/
def numberedRelation (rid : Nat → Str) (kind : Str) (pre : Str) (i : Nat) : Relation :=
  ⟨rid (i + 1), officeRel kind, pre ++ dec (i + 1) ++ c!".xml", none⟩

/-- The relationships every main document has. -/
def DocumentRels.fixedRelations (r : DocumentRels) : List Relation :=
  [ ⟨c!"rId1", officeRel c!"styles", c!"styles.xml", none⟩,
    ⟨c!"rId2", officeRel c!"fontTable", c!"fontTable.xml", none⟩,
    ⟨c!"rId3", officeRel c!"settings", c!"settings.xml", none⟩,
    ⟨c!"rId5", c!"http://schemas.microsoft.com/office/2011/relationships/commentsExtended", c!"commentsExtended.xml", none⟩ ]
  ++ (if r.hasComments then [⟨c!"rId6", officeRel c!"comments", c!"comments.xml", none⟩] else [])
  ++ (if r.hasNumberings then [⟨c!"rId7", officeRel c!"numbering", c!"numbering.xml", none⟩] else [])
  ++ (if r.hasFootnotes then [⟨c!"rId8", officeRel c!"footnotes", c!"footnotes.xml", none⟩] else [])

/-- The relationships to headers, footers and custom items. -/
def DocumentRels.partRelations (r : DocumentRels) : List Relation :=
  (List.range r.headerCount).map (numberedRelation createHeaderRid c!"header" c!"header")
  ++ (List.range r.footerCount).map (numberedRelation createFooterRid c!"footer" c!"footer")
  ++ (List.range r.customXmlCount).map (numberedRelation (fun n => c!"rId" ++ dec (n + 7)) c!"customXml" c!"../customXml/item")

/-- The relationships to images. -/
def DocumentRels.imageRelations (r : DocumentRels) : List Relation :=
  r.images.map fun x => ⟨x.1, officeRel c!"image", x.2, none⟩

/-- The relationships to the targets of hyperlinks. -/
def DocumentRels.linkRelations (r : DocumentRels) : List Relation :=
  r.hyperlinks.map fun x => ⟨x.1, officeRel c!"hyperlink", x.2.1, some x.2.2⟩

/-- All relationships. -/
def DocumentRels.relations (r : DocumentRels) : List Relation :=
  r.fixedRelations ++ r.partRelations ++ r.imageRelations ++ r.linkRelations

theorem relationN_none (i t g : Str) : relationN ⟨i, t, g, none⟩ = relationshipN i t g := rfl
theorem relationN_some (i t g m : Str) : relationN ⟨i, t, g, some m⟩ = relationshipWithModeN i t g m := rfl

theorem flatMap_ite {α β : Type} (c : Prop) [Decidable c] (a : List α) (f : α → List β) :
    (if c then a else []).flatMap f = if c then a.flatMap f else [] := by split <;> rfl

theorem flatMap_map' {α β γ : Type} (f : α → β) (g : β → List γ) (l : List α) : (l.map f).flatMap g = l.flatMap fun x => g (f x) := by
  induction l with
  | nil => rfl
  | cons x l ih => rw [List.map_cons, List.flatMap_cons, ih, List.flatMap_cons]

theorem documentRels_nodes (r : DocumentRels) : r.nodes = relationshipsN (r.relations.flatMap relationN) := by
  unfold DocumentRels.nodes DocumentRels.relations DocumentRels.fixedRelations DocumentRels.partRelations
    DocumentRels.imageRelations DocumentRels.linkRelations
  simp only [List.flatMap_append, flatMap_ite, flatMap_map', List.flatMap_cons, List.flatMap_nil, numberedRelation,
    relationN_none, relationN_some, List.append_nil, List.append_assoc]

/-! ## Reading them -/

/-- No character with a meaning in XML. -/
def Plain (s : Str) : Prop := ∀ c ∈ s, c ≠ '&' ∧ c ≠ '<' ∧ c ≠ '"' ∧ c ≠ '\r' ∧ c ≠ '\t' ∧ c ≠ '\n'

theorem Plain.append {a b : Str} (ha : Plain a) (hb : Plain b) : Plain (a ++ b) := by
  intro c hc
  rcases List.mem_append.1 hc with hc | hc
  · exact ha c hc
  · exact hb c hc

theorem plain_lit {s : Str} (h : plainB s = true) : Plain s := by
  intro c hc
  simpa [not_or, and_assoc] using List.all_eq_true.1 h c hc

theorem plain_dec (n : Nat) : Plain (dec n) := fun c hc => by
  have h' : ∀ c ∈ c!"0123456789", c ≠ '&' ∧ c ≠ '<' ∧ c ≠ '"' ∧ c ≠ '\r' ∧ c ≠ '\t' ∧ c ≠ '\n' := by decide
  exact h' c (dec_digits n c hc)

theorem Plain.decode {s : Str} (h : Plain s) : decodeAttr s = some s := decodeAttr_plain h
theorem Plain.stored {s : Str} (h : Plain s) : Stored s := stored_of_plain h

theorem Plain.named {p s : Str} (h : Plain p) (hs : NameOf p s) : Plain s := by
  rcases hs with rfl | ⟨n, rfl⟩
  · exact h
  · exact (h.append (plain_lit (by decide))).append (plain_dec n)

theorem Plain.target {s : Str} (h : Plain s) : Plain (mediaTarget s) :=
  ((plain_lit (by decide)).append h).append (plain_lit (by decide))

/-- A relationship without special characters. -/
structure PlainRelation (r : Relation) : Prop where
  id : Plain r.id
  type : Plain r.type
  target : Plain r.target
  mode : ∀ m, r.mode = some m → Plain m

theorem PlainRelation.decode {r : Relation} (h : PlainRelation r) : decodeRelation r = some r := by
  obtain ⟨i, t, g, m⟩ := r
  unfold decodeRelation
  simp only [h.id.decode, h.type.decode, h.target.decode]
  cases m with
  | none => rfl
  | some m => simp only [(h.mode m rfl).decode]

theorem decode_plain {l : List Relation} (h : ∀ r ∈ l, PlainRelation r) : l.filterMap decodeRelation = l := by
  induction l with
  | nil => rfl
  | cons r l ih =>
    rw [List.filterMap_cons, (h r (.head _)).decode]
    dsimp only
    rw [ih fun r hr => h r (.tail _ hr)]

theorem fixed_plain (r : DocumentRels) : ∀ x ∈ r.fixedRelations, PlainRelation x := by
  have h1 : ∀ x ∈ ({ hasComments := true, hasNumberings := true, hasFootnotes := true } : DocumentRels).fixedRelations,
      plainB x.id = true ∧ plainB x.type = true ∧ plainB x.target = true ∧ x.mode = none := by decide
  intro x hx
  have h2 := h1 x (by
    unfold DocumentRels.fixedRelations at hx ⊢
    simp only [if_true]
    simp only [List.mem_append] at hx ⊢
    rcases hx with ((hx | hx) | hx) | hx
    · exact .inl (.inl (.inl hx))
    · refine .inl (.inl (.inr ?_)); split at hx; exacts [hx, absurd hx (by simp)]
    · refine .inl (.inr ?_); split at hx; exacts [hx, absurd hx (by simp)]
    · refine .inr ?_; split at hx; exacts [hx, absurd hx (by simp)])
  exact ⟨plain_lit h2.1, plain_lit h2.2.1, plain_lit h2.2.2.1, fun m hm => by rw [h2.2.2.2] at hm; simp at hm⟩

theorem numbered_plain {rid : Nat → Str} (hr : ∀ n, Plain (rid n)) {kind pre : Str} (hk : Plain (officeRel kind)) (hp : Plain pre)
    (i : Nat) : PlainRelation (numberedRelation rid kind pre i) :=
  ⟨hr _, hk, (hp.append (plain_dec _)).append (plain_lit (by decide)), fun m hm => by simp [numberedRelation] at hm⟩

theorem parts_plain (r : DocumentRels) : ∀ x ∈ r.partRelations, PlainRelation x := by
  intro x hx
  unfold DocumentRels.partRelations at hx
  simp only [List.mem_append, List.mem_map] at hx
  rcases hx with (⟨i, _, rfl⟩ | ⟨i, _, rfl⟩) | ⟨i, _, rfl⟩
  · exact numbered_plain (fun n => (plain_lit (by decide)).append (plain_dec n)) (plain_lit (by decide)) (plain_lit (by decide)) i
  · exact numbered_plain (fun n => (plain_lit (by decide)).append (plain_dec n)) (plain_lit (by decide)) (plain_lit (by decide)) i
  · exact numbered_plain (fun n => (plain_lit (by decide)).append (plain_dec _)) (plain_lit (by decide)) (plain_lit (by decide)) i

/-- What is read from `word/_rels/document.xml.rels`, up to the image and hyperlink relationships. -/
theorem documentRels_read (r : DocumentRels) (h : AllS r.strings) :
    relationsIn (readEvents (constText none r.nodes)) =
      r.fixedRelations ++ r.partRelations ++ r.imageRelations.filterMap decodeRelation ++ r.linkRelations.filterMap decodeRelation := by
  have hok := DocumentRels.ok r h
  rw [documentRels_nodes] at hok ⊢
  rw [relations_read none _ hok]
  unfold DocumentRels.relations
  rw [List.filterMap_append, List.filterMap_append, List.filterMap_append, decode_plain (fixed_plain r), decode_plain (parts_plain r)]

end Docx
