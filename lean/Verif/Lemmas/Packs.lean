import Verif.Lemmas.BareWalk
import Verif.Lemmas.WalkPlaces
import Verif.Lemmas.Calls
import Verif.Lemmas.Found
import Verif.Lemmas.PreparedRels
import Verif.Props.C45_Parts
import Verif.Spec.Writes

/-!
# When a package is written
-/

namespace Docx

open Docx.Spec Docx.Props

/-- Every part of the list writes. -/
def AllWrite (ss : List ZipStep) : Prop := ∀ n p, ZipStep.write n p ∈ ss → p.Writes

theorem AllWrite.nil : AllWrite [] := by intro n p h; simp at h
theorem AllWrite.append {a b : List ZipStep} (h1 : AllWrite a) (h2 : AllWrite b) : AllWrite (a ++ b) := by
  intro n p h
  rcases List.mem_append.1 h with h | h
  · exact h1 n p h
  · exact h2 n p h
theorem AllWrite.write {n : Str} {p : Part} {a : List ZipStep} (h1 : p.Writes) (h2 : AllWrite a) :
    AllWrite (.write n p :: a) := by
  intro m q h
  simp only [List.mem_cons, ZipStep.write.injEq] at h
  rcases h with ⟨rfl, rfl⟩ | h
  · exact h1
  · exact h2 m q h
theorem AllWrite.directory {n : Str} {a : List ZipStep} (h2 : AllWrite a) : AllWrite (.directory n :: a) := by
  intro m q h
  simp only [List.mem_cons, reduceCtorEq, false_or] at h
  exact h2 m q h
theorem AllWrite.store {n : Str} {b : Bytes} {a : List ZipStep} (h2 : AllWrite a) : AllWrite (.store n b :: a) := by
  intro m q h
  simp only [List.mem_cons, reduceCtorEq, false_or] at h
  exact h2 m q h
theorem AllWrite.ite {c : Prop} [Decidable c] {a b : List ZipStep} (h1 : AllWrite a) (h2 : AllWrite b) :
    AllWrite (if c then a else b) := by
  split <;> assumption


theorem partSteps_write (kind : Str) (write : Header → Part) :
    ∀ (hs : List Header) (i : Nat) (rs : List (Nat × List (Str × Str))), (∀ h ∈ hs, (write h).Writes) →
      AllWrite (partSteps kind write i hs rs)
  | [], i, rs, _ => by simp only [partSteps]; exact .nil
  | h :: hs, i, [], hw => by
    simp only [partSteps]
    exact .write (hw h (.head _)) (partSteps_write kind write hs _ _ fun x hx => hw x (.tail _ hx))
  | h :: hs, i, (j, r) :: rs, hw => by
    simp only [partSteps]
    exact .write (hw h (.head _)) (.ite (.write (imageRels_const r).writes (partSteps_write kind write hs _ _ fun x hx => hw x (.tail _ hx)))
      (partSteps_write kind write hs _ _ fun x hx => hw x (.tail _ hx)))

theorem indexed_all {α : Type} (l : List α) (i : Nat) (f : α → Part) (hf : ∀ a, (f a).Writes) (hi : i < l.length) :
    (indexed l i f).Writes := by
  unfold indexed
  rw [List.getElem?_eq_getElem hi]
  exact hf _

theorem customItemSteps_write (d : DocxFile) : ∀ (xs : List (List XmlData)) (i : Nat), i + xs.length ≤ d.customItemRels.length →
    i + xs.length ≤ d.customItemProps.length → AllWrite (customItemSteps d i xs)
  | [], i, _, _ => .nil
  | x :: xs, i, h1, h2 => by
    simp only [List.length_cons] at h1 h2
    simp only [customItemSteps]
    exact .append (.write (indexed_all _ _ _ (fun n => (customItemRels_const n).writes) (by omega)) (.write (customItem_const x).writes
      (.write (indexed_all _ _ _ (fun n => (customItemProps_const n).writes) (by omega)) .nil)))
      (customItemSteps_write d xs _ (by omega) (by omega))

theorem webExtensionSteps_write : ∀ (es : List WebExtension) (i : Nat), AllWrite (webExtensionSteps i es)
  | [], i => .nil
  | e :: es, i => .write (webExtension_const e).writes (webExtensionSteps_write es _)

theorem zipDocxSteps_write (env : Env) (d : DocxFile) (p : PackageMetadata) (hd : Part.Writes d.document.write)
    (hc : Part.Writes (writeComments d.comments)) (hf : Part.Writes (writeFootnotes d.footnotes))
    (hh : ∀ h ∈ d.document.headers, Part.Writes h.writeHeader) (hft : ∀ h ∈ d.document.footers, Part.Writes h.writeFooter)
    (h1 : d.customItems.length ≤ d.customItemRels.length) (h2 : d.customItems.length ≤ d.customItemProps.length) :
    AllWrite (zipDocxSteps env d p) := by
  unfold zipDocxSteps
  refine .append (.append (.append (.append (.append (.append ?_ ?_) ?_) ?_) ?_) ?_) (customItemSteps_write d _ _ (by omega) (by omega))
  · refine .directory (.directory (.directory (.directory ?_)))
    exact .write (contentTypes_const d).writes (.write (rels_const d).writes (.write app_const.writes
      (.write (core_const d).writes (.write (custom_const env d).writes (.write (documentRels_const d).writes
      (.write hd (.write (styles_writes d) (.write (settings_const d).writes
      (.write fontTable_const.writes (.write hc (.write (numbering_writes d)
      (.write (commentsExtended_const d).writes (.write hf .nil)))))))))))))
  · exact partSteps_write _ _ _ _ _ hh
  · exact partSteps_write _ _ _ _ _ hft
  · refine .ite .nil (.directory ?_)
    intro n q h
    simp at h
  · refine .ite (.append ?_ (webExtensionSteps_write _ _)) .nil
    exact .directory (.write taskpanes_const.writes (.directory (.write (taskpanesRels_const d).writes .nil)))
  · exact .ite .nil (.directory .nil)

/-! ## What is unsupported -/

/-- The unsupported content of a walk. -/
def bad (i : Item) : List Unit := if i.unwritable then [()] else []

theorem pick_bad (l : Walk) : pick (fun _ => bad) l = [] ↔ ∀ x ∈ l, x.2.unwritable = false := by
  unfold pick
  rw [List.flatMap_eq_nil_iff]
  refine forall_congr' fun x => forall_congr' fun _ => ?_
  unfold bad
  cases e : x.2.unwritable <;> simp [e]

theorem supported_of {away : Place → Bool} {l : Walk} (h : pick (fun _ => bad) l = []) : supported away l = true := by
  rw [pick_bad] at h
  unfold supported Walk.within
  rw [List.all_eq_true]
  intro i hi
  obtain ⟨x, hx, rfl⟩ := List.mem_map.1 hi
  rw [h x (List.mem_filter.1 hx).1]
  rfl

theorem bad_blank (i : Item) : bad (blankItem i) = bad i := by
  unfold bad
  cases i with
  | runChild c => cases c <;> rfl
  | _ => rfl

theorem bad_bare (i : Item) : bad (bareItem i) = bad i := by
  unfold bad
  cases i with
  | runChild c => cases c <;> rfl
  | _ => rfl

theorem writes_of {out : Part} {b : Bool} {name : Str} {shape : List Node → Prop} (hb : b = true)
    (h : ∀ g, WritesElement (out g) b name shape) : out.Writes := by
  intro g
  have h := h g
  rw [hb, WritesElement, if_pos rfl] at h
  obtain ⟨_, _, g', e, _⟩ := h
  exact ⟨_, g', e⟩

theorem prepareForBuild_bad (env : Env) (d : DocxFile) (w : World) :
    pick (fun _ => bad) (walkDocument (d.prepareForBuild env w).1.document) = pick (fun _ => bad) (walkDocument d.document) :=
  prepareForBuild_pick ⟨fun _ _ => rfl, fun _ _ => rfl⟩ (fun _ i => bad_blank i) env d w

theorem preparePackage_bad (env : Env) (d : DocxFile) (w : World) :
    pick (fun _ => bad) (walkDocument (d.preparePackage env w).1.document) = pick (fun _ => bad) (walkDocument d.document) := by
  have h := preparePackage_document env d w
  have hb := collectImages_bare env.crc (d.prepareForBuild env w).1.document
  generalize (collectImages env.crc (d.prepareForBuild env w).1.document).document = y at h hb
  rw [h, ← walkDocument_bare (fun _ i => bad_bare i), hb, walkDocument_bare (fun _ i => bad_bare i), prepareForBuild_bad]


/-- Preparation keeps what a question about supported content is about. -/
theorem preparePackage_supported (away : Place → Bool) (env : Env) (d : DocxFile) (w : World) :
    supported away (walkDocument (d.preparePackage env w).1.document) = supported away (walkDocument d.document) := by
  have e : ∀ l : Walk, supported away l = (pick (fun w i => if w.any away then [] else bad i) l).isEmpty := by
    intro l
    induction l with
    | nil => rfl
    | cons x l ih =>
      obtain ⟨w, i⟩ := x
      rw [pick_cons]
      unfold supported Walk.within at ih ⊢
      cases h : w.any away
      · rw [List.filter_cons_of_pos (by simp [h]), List.map_cons, List.all_cons, ih]
        unfold bad
        cases i.unwritable <;> simp
      · rw [List.filter_cons_of_neg (by simp [h]), ih]
        simp
  have k1 : ∀ (w : List Place) (i : Item), (if w.any away then [] else bad (blankItem i)) = if w.any away then [] else bad i :=
    fun w i => by rw [bad_blank]
  have k2 : ∀ (w : List Place) (i : Item), (if w.any away then [] else bad (bareItem i)) = if w.any away then [] else bad i :=
    fun w i => by rw [bad_bare]
  rw [e, e]
  congr 1
  have h := preparePackage_document env d w
  have hb := collectImages_bare env.crc (d.prepareForBuild env w).1.document
  generalize (collectImages env.crc (d.prepareForBuild env w).1.document).document = y at h hb
  rw [h, ← walkDocument_bare k2, hb, walkDocument_bare k2, prepareForBuild_pick ⟨fun w _ => ?_, fun w _ => ?_⟩ k1]
  · simp [bad, Item.unwritable]
  · simp [bad, Item.unwritable]

theorem mem_walk_header {d : Document} {h : Header} (hh : h ∈ d.headers) : ∃ w, ∀ x ∈ walkHeader (.header :: w) h, x ∈ walkDocument d := by
  unfold Document.headers at hh
  have key : ∀ (p : SectionProperty) (w : List Place), h ∈ p.headers → ∀ x ∈ walkHeader (.header :: w) h, x ∈ walkSectionProperty w p := by
    intro p w hp x hx
    unfold SectionProperty.headers at hp
    refine List.mem_append_left _ (List.mem_flatMap.2 ?_)
    obtain ⟨y, hy, rfl⟩ := List.mem_map.1 hp
    refine ⟨y, ?_, hx⟩
    revert hy
    cases p.header <;> cases p.firstHeader <;> cases p.evenHeader <;> simp
  rcases List.mem_append.1 hh with hh | hh
  · exact ⟨_, fun x hx => List.mem_append_right _ (key _ _ hh x hx)⟩
  · obtain ⟨p, hp, hh⟩ := List.mem_flatMap.1 hh
    obtain ⟨c, hc, e⟩ := List.mem_filterMap.1 hp
    cases c with
    | «section» s =>
      simp only [Option.some.injEq] at e
      subst e
      exact ⟨_, fun x hx => List.mem_append_left _ (List.mem_flatMap.2 ⟨_, hc, List.mem_append_right _ (key _ _ hh x hx)⟩)⟩
    | _ => cases e

theorem mem_walk_footer {d : Document} {h : Header} (hh : h ∈ d.footers) : ∃ w, ∀ x ∈ walkHeader (.footer :: w) h, x ∈ walkDocument d := by
  unfold Document.footers at hh
  have key : ∀ (p : SectionProperty) (w : List Place), h ∈ p.footers → ∀ x ∈ walkHeader (.footer :: w) h, x ∈ walkSectionProperty w p := by
    intro p w hp x hx
    unfold SectionProperty.footers at hp
    refine List.mem_append_right _ (List.mem_flatMap.2 ?_)
    obtain ⟨y, hy, rfl⟩ := List.mem_map.1 hp
    refine ⟨y, ?_, hx⟩
    revert hy
    cases p.footer <;> cases p.firstFooter <;> cases p.evenFooter <;> simp
  rcases List.mem_append.1 hh with hh | hh
  · exact ⟨_, fun x hx => List.mem_append_right _ (key _ _ hh x hx)⟩
  · obtain ⟨p, hp, hh⟩ := List.mem_flatMap.1 hh
    obtain ⟨c, hc, e⟩ := List.mem_filterMap.1 hp
    cases c with
    | «section» s =>
      simp only [Option.some.injEq] at e
      subst e
      exact ⟨_, fun x hx => List.mem_append_left _ (List.mem_flatMap.2 ⟨_, hc, List.mem_append_right _ (key _ _ hh x hx)⟩)⟩
    | _ => cases e

theorem pushed_comments (m : List (Nat × Str)) : ∀ (l : List Found) (s : List Comment × List CommentExtended) (c : Comment),
    c ∈ (l.foldl (pushComment m) s).1 → c ∈ s.1 ∨ c ∈ l.filterMap Found.comment?
  | [], s, c, h => .inl h
  | .comment a :: l, s, c, h => by
    rcases pushed_comments m l _ c h with h | h
    · rcases List.mem_append.1 h with h | h
      · exact .inl h
      · obtain ⟨_, _, rfl⟩ := List.mem_map.1 h
        exact .inr (.head _)
    · exact .inr (.tail _ h)
  | .link _ _ :: l, s, c, h => by
    rcases pushed_comments m l _ c h with h | h
    · exact .inl h
    · exact .inr h

theorem preparePackage_comments (env : Env) (d : DocxFile) (w : World) :
    (d.preparePackage env w).1.comments = (d.prepareForBuild env w).1.comments := by
  unfold DocxFile.preparePackage
  generalize d.prepareForBuild env w = p
  generalize hi : collectImages env.crc p.1.document = i
  simp only [hi]
  split <;> split <;> rfl

theorem preparePackage_footnotes (env : Env) (d : DocxFile) (w : World) :
    (d.preparePackage env w).1.footnotes =
      (d.prepareForBuild env w).1.footnotes ++ partFootnotes (walkDocument (d.prepareForBuild env w).1.document) := by
  unfold DocxFile.preparePackage
  generalize d.prepareForBuild env w = p
  have hf := (collectImages_spec env.crc p.1.document).2.2.2.2.2.2
  generalize hi : collectImages env.crc p.1.document = i at hf
  simp only [hi]
  rw [← hf]
  by_cases h : i.footnotes = []
  · rw [if_pos h, h, List.append_nil]
    split <;> rfl
  · rw [if_neg h]
    split <;> rfl

/-- The comments to be written are in the body or were there before, up to paragraph ids. -/
theorem prepareForBuild_comments (env : Env) (d : DocxFile) (w : World) :
    (d.prepareForBuild env w).1.comments.map blankComment = d.comments.map blankComment ∨
      ∀ c ∈ (d.prepareForBuild env w).1.comments, c ∈ bodyComments (d.prepareForBuild env w).1.document := by
  unfold DocxFile.prepareForBuild
  dsimp only
  unfold DocxFile.updateDependencies
  dsimp only
  split
  · exact .inl (congrArg Story.comments (refreshDuplicateParaIds_blank _ 1))
  · refine .inr fun c hc => ?_
    rw [← found_comments]
    rcases pushed_comments _ _ _ c hc with h | h
    · cases h
    · exact h

theorem prepareForBuild_blankFootnotes (env : Env) (d : DocxFile) (w : World) :
    (d.prepareForBuild env w).1.footnotes.map blankFootnote = d.footnotes.map blankFootnote := by
  unfold DocxFile.prepareForBuild
  dsimp only
  unfold DocxFile.updateDependencies
  dsimp only
  split <;> exact congrArg Story.footnotes (refreshDuplicateParaIds_blank _ 1)

theorem walkParagraphs_blank {α : Type} {k : List Place → Item → List α} (hk : ∀ w i, k w (blankItem i) = k w i) :
    ∀ (l : List Paragraph) (w : List Place), pick k (walkParagraphs w (l.map blankParagraph)) = pick k (walkParagraphs w l)
  | [], _ => rfl
  | p :: l, w => by simp only [List.map_cons, walkParagraphs, pick_append, walkParagraph_blank hk, walkParagraphs_blank hk l]

theorem pick_of_mem {l l' : Walk} (h : ∀ x ∈ l, x ∈ l') (hb : pick (fun _ => bad) l' = []) : pick (fun _ => bad) l = [] := by
  rw [pick_bad] at hb ⊢
  exact fun x hx => hb x (h x hx)

theorem flatMap_bad {α : Type} {l : List α} {f : α → Walk} (h : ∀ a ∈ l, pick (fun _ => bad) (f a) = []) :
    pick (fun _ => bad) (l.flatMap f) = [] := by
  rw [pick_flatMap, List.flatMap_eq_nil_iff]
  exact h

theorem mem_within {β : Type} {keep : List Place → Bool} {f : Item → Option β} {l : Walk} {b : β}
    (h : b ∈ (l.within keep).filterMap f) : ∃ w i, (w, i) ∈ l ∧ f i = some b := by
  obtain ⟨i, hi, e⟩ := List.mem_filterMap.1 h
  obtain ⟨x, hx, rfl⟩ := List.mem_map.1 hi
  exact ⟨x.1, x.2, (List.mem_filter.1 hx).1, e⟩

/-- A writable document is written. -/
theorem writable_packs (env : Env) (d : DocxFile) (w : World) (hw : Writable d)
    (h1 : d.customItems.length ≤ d.customItemRels.length) (h2 : d.customItems.length ≤ d.customItemProps.length) :
    ∃ es w', d.pack env w = some (.ok es, w') := by
  have hd : pick (fun _ => bad) (walkDocument d.document) = [] := (pick_bad _).2 hw.document
  have hb := preparePackage_bad env d w
  have hb' := prepareForBuild_bad env d w
  rw [hd] at hb hb'
  obtain ⟨_, b1, b2, b3, b4, b5⟩ := preparePackage_books env d w
  have key := zipDocxSteps_write env (d.preparePackage env w).1 (d.preparePackage env w).2.1
    (writes_of (supported_of hb) fun g => C45_document _ g)
    (writes_of (supported_of (away := elsewhere) (flatMap_bad fun c hc => ?_)) fun g => C45_comments _ g)
    (writes_of (supported_of (away := elsewhere) (flatMap_bad fun c hc => ?_)) fun g => C45_footnotes _ g)
    (fun h hh => writes_of (supported_of (away := elsewhere) ?_) fun g => C45_header h g)
    (fun h hh => writes_of (supported_of (away := elsewhere) ?_) fun g => C45_footer h g)
    (by rw [b3, b5]; exact h1) (by rw [b3, b4]; exact h2)
  · obtain ⟨es, g, e⟩ := runSteps_writes _ key (d.preparePackage env w).2.2.gen
    refine ⟨es, { (d.preparePackage env w).2.2 with gen := g }, ?_⟩
    unfold DocxFile.pack
    simp only [e]
  · rw [preparePackage_comments] at hc
    rcases prepareForBuild_comments env d w with h | h
    · have := List.mem_map_of_mem (f := blankComment) hc
      rw [h] at this
      obtain ⟨c', hc', e⟩ := List.mem_map.1 this
      rw [← walkComment_blank (fun _ i => bad_blank i), ← e, walkComment_blank (fun _ i => bad_blank i)]
      exact (pick_bad _).2 (hw.comments c' hc')
    · obtain ⟨w', i, hi, e⟩ := mem_within (h c hc)
      cases i with
      | comment i c' =>
        simp only [Item.comment?, Option.some.injEq] at e
        subst e
        rw [walkComment_place _ _ (.comment :: w')]
        exact pick_of_mem (fun x hx => walkDocument_closed _ _ hi x hx) hb'
      | _ => cases e
  · rw [preparePackage_footnotes] at hc
    rcases List.mem_append.1 hc with hc | hc
    · have := List.mem_map_of_mem (f := blankFootnote) hc
      rw [prepareForBuild_blankFootnotes] at this
      obtain ⟨c', hc', e⟩ := List.mem_map.1 this
      have e2 := congrArg Footnote.content e
      simp only [blankFootnote] at e2
      rw [← walkParagraphs_blank (fun _ i => bad_blank i), ← e2, walkParagraphs_blank (fun _ i => bad_blank i)]
      exact (pick_bad _).2 (hw.footnotes c' hc')
    · obtain ⟨w', i, hi, e⟩ := mem_within hc
      cases i with
      | footnote i c' =>
        simp only [Item.footnote?, Option.some.injEq] at e
        subst e
        rw [walkParagraphs_place _ _ (.footnote :: w')]
        exact pick_of_mem (fun x hx => walkDocument_closed _ _ hi x hx) hb'
      | _ => cases e
  · obtain ⟨w', h'⟩ := mem_walk_header hh
    rw [walkHeader_place _ _ (.header :: w')]
    exact pick_of_mem h' hb
  · obtain ⟨w', h'⟩ := mem_walk_footer hh
    rw [walkHeader_place _ _ (.footer :: w')]
    exact pick_of_mem h' hb

end Docx
