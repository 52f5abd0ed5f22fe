import Verif.Lemmas.HeldSpots
import Verif.Lemmas.HeldPackage
import Verif.Spec.References

/-!
# What is written of a document are the strings it was given, and generated ids
-/

namespace Docx

open Docx.Spec

set_option linter.unusedSimpArgs false

/-! ## Collecting pictures keeps the paragraph ids -/

theorem visitEach_flatMap {σ α β : Type} (f : α → Visit σ α) (c : α → List β) (h : ∀ x s, c (f x s).1 = c x) :
    ∀ (l : List α) (s : σ), (visitEach f l s).1.flatMap c = l.flatMap c
  | [], _ => rfl
  | x :: l, s => by simp only [visitEach, List.flatMap_cons, h, visitEach_flatMap f c h l]

section
variable {σ : Type} (v : Visitor σ)

theorem collectHeader_visit (x : Header) (s : σ) : collectHeader (visitHeader v x s).1 = collectHeader x := by
  simp only [collectHeader, visitHeader]
  refine visitEach_flatMap _ _ (fun x s => ?_) _ _
  cases x with
  | paragraph x => exact collectParagraph_visit x s
  | table x => exact collectTable_visit x s
  | sdt x => exact collectSdt_visit x s

theorem collectSection_visit (x : Section) (s : σ) : collectSection (visitSection v x s).1 = collectSection x := by
  simp only [collectSection, visitSection]
  congr 1
  refine visitEach_flatMap _ _ (fun x s => ?_) _ _
  cases x with
  | paragraph x => exact collectParagraph_visit x s
  | table x => exact collectTable_visit x s
  | sdt x => exact collectSdt_visit x s
  | toc x => exact collectToc_visit x s
  | _ => rfl

theorem visitDocument_ids (x : Document) (s : σ) : bodyIds (walkDocument (visitDocument v x s).1) = bodyIds (walkDocument x) := by
  rw [walkDocument_ids, walkDocument_ids]
  simp only [visitDocument]
  congr 1
  refine visitEach_flatMap _ _ (fun x s => ?_) _ _
  cases x with
  | paragraph x => exact collectParagraph_visit x s
  | table x => exact collectTable_visit x s
  | sdt x => exact collectSdt_visit x s
  | toc x => exact collectToc_visit x s
  | «section» x => exact collectSection_visit v x s
  | _ => rfl

theorem visitParts_ids (g : SectionProperty → Visit σ SectionProperty)
    (h : ∀ p s, collectSectionProperty (g p s).1 = collectSectionProperty p) (x : Document) (s : σ) :
    bodyIds (walkDocument (visitParts g x s).1) = bodyIds (walkDocument x) := by
  rw [walkDocument_ids, walkDocument_ids]
  simp only [visitParts, h]
  congr 1
  refine visitEach_flatMap _ _ (fun x s => ?_) _ _
  cases x with
  | «section» x => simp only [visitSectionProperties, collectDocumentChild, collectSection, h]
  | _ => rfl

end

theorem collectPart_visit {σ : Type} (f : Header → Visit σ Header) (h : ∀ x s, collectHeader (f x s).1 = collectHeader x)
    (o : Option (Str × Header)) (s : σ) : collectPart (visitPart f o s).1 = collectPart o := by
  cases o with
  | none => rfl
  | some x => simp only [visitPart, collectPart, h]

theorem collectImages_ids (crc : Bytes → Nat) (d : Document) :
    bodyIds (walkDocument (collectImages crc d).document) = bodyIds (walkDocument d) := by
  have hc : ∀ pfx x s, collectHeader (collectHeaderImages crc pfx x s).1 = collectHeader x := fun pfx x s =>
    collectHeader_visit _ x _
  unfold collectImages
  dsimp only
  rw [visitParts_ids, visitParts_ids]
  · exact visitDocument_ids _ _ _
  · intro p s
    simp only [collectSectionProperty, visitHeadersOfProperty, collectPart_visit _ (hc _)]
  · intro p s
    simp only [collectSectionProperty, visitFootersOfProperty, collectPart_visit _ (hc _)]

/-! ## The written document -/

section
variable {P : Str → Prop}

theorem walkHeader_spots (x : Header) (w : List Place) (h : ∀ s ∈ x.strings, P s) : ∀ s ∈ pick spot (walkHeader w x), P s := by
  intro s hs
  simp only [walkHeader, pick_flatMap] at hs
  obtain ⟨c, hc, hs⟩ := List.mem_flatMap.1 hs
  have h' : ∀ s ∈ c.strings, P s := fun s hs => h s (List.mem_flatMap.2 ⟨c, hc, hs⟩)
  cases c with
  | paragraph p => exact walkParagraph_spots p _ h' s hs
  | table p => exact walkTable_spots p _ h' s hs
  | sdt p => exact walkSdt_spots p _ h' s hs

theorem walkSection_spots (x : Section) (w : List Place) (h : ∀ s ∈ x.strings, P s) : ∀ s ∈ pick spot (walkSection w x), P s := by
  intro s hs
  simp only [walkSection, pick_append, walkSectionProperty_dead _ _ deadSpot_header deadSpot_footer, List.append_nil, pick_flatMap] at hs
  obtain ⟨c, hc, hs⟩ := List.mem_flatMap.1 hs
  have h' : ∀ s ∈ c.strings, P s := fun s hs => h s (List.mem_append_left _ (List.mem_flatMap.2 ⟨c, hc, hs⟩))
  cases c with
  | paragraph p => exact walkParagraph_spots p _ h' s hs
  | table p => exact walkTable_spots p _ h' s hs
  | sdt p => exact walkSdt_spots p _ h' s hs
  | toc p => exact walkToc_spots p _ h' s hs
  | commentStart i c =>
    simp only [walkSectionChild, pick_cons, walkComment_dead _ _ deadSpot_comment, spot, List.append_nil] at hs
    cases hs
  | _ => cases hs

theorem walkDocument_spots (x : Document) (h : ∀ s ∈ x.strings, P s) : ∀ s ∈ pick spot (walkDocument x), P s := by
  intro s hs
  simp only [walkDocument, pick_append, walkSectionProperty_dead _ _ deadSpot_header deadSpot_footer, List.append_nil, pick_flatMap] at hs
  obtain ⟨c, hc, hs⟩ := List.mem_flatMap.1 hs
  have h' : ∀ s ∈ c.strings, P s := fun s hs => h s (List.mem_append_left _ (List.mem_flatMap.2 ⟨c, hc, hs⟩))
  cases c with
  | paragraph p => exact walkParagraph_spots p _ h' s hs
  | table p => exact walkTable_spots p _ h' s hs
  | sdt p => exact walkSdt_spots p _ h' s hs
  | toc p => exact walkToc_spots p _ h' s hs
  | «section» p => exact walkSection_spots p _ h' s hs
  | commentStart i c =>
    simp only [walkDocumentChild, pick_cons, walkComment_dead _ _ deadSpot_comment, spot, List.append_nil] at hs
    cases hs
  | _ => cases hs

theorem partPictures_spot {l : Walk} (h : ∀ s ∈ pick spot l, P s) : ∀ p ∈ partPictures l, P p.id := by
  intro p hp
  simp only [partPictures, Walk.within, List.mem_filterMap, List.mem_map, List.mem_filter] at hp
  obtain ⟨i, ⟨⟨w, i'⟩, ⟨hm, hw⟩, rfl⟩, he⟩ := hp
  cases i' with
  | picture q =>
    simp only [Item.picture?, Option.some.injEq] at he
    subst he
    refine h _ (List.mem_flatMap.2 ⟨_, hm, ?_⟩)
    simp only [spot]
    rw [if_pos hw]
    exact .head _
  | _ => cases he

/-- The picture ids of a part whose pictures were collected. -/
theorem collected_ids (hP : Generates P) {pfx : Str} (hpfx : pfx = [] ∨ pfx = c!"header" ∨ pfx = c!"footer")
    {media : List (Str × Bytes)} {a b : List Visited} {rels : List (Str × Str)} (hok : PartOk media a b rels)
    (hn : PartNamed pfx a b rels) (h : ∀ p ∈ a.filterMap Visited.pic?, P p.id) : ∀ q ∈ b.filterMap Visited.pic?, P q.id := by
  intro q hq
  have hall : ∀ {R : Pic → Pic → Prop} {a b : List Pic}, List.Forall₂ R a b → ∀ q ∈ b, ∃ p ∈ a, R p q := by
    intro R a b h
    induction h with
    | nil => intro q h; cases h
    | cons h _ ih =>
      intro q hq
      rcases List.mem_cons.1 hq with rfl | hq
      · exact ⟨_, .head _, h⟩
      · obtain ⟨p, hp, hr⟩ := ih q hq
        exact ⟨p, .tail _ hp, hr⟩
  obtain ⟨p, _, _, name, hm, _⟩ := hall (matches_pictures hok.items) q hq
  obtain ⟨p', hp', hname⟩ := hn.named _ hm
  exact hP.named pfx hpfx _ _ (h p' (List.mem_filterMap.2 ⟨_, hp', rfl⟩)) hname

/-- The ids of the paragraphs the writer gives unique ids to. -/
abbrev fileIds (d : DocxFile) : List Str := bodyIds (walkStory ⟨d.document, d.comments, d.footnotes⟩)

theorem prepared_ids (hP : Generates P) (env : Env) (d : DocxFile) (w : World) (hid : ∀ i ∈ fileIds d, P i) :
    ∃ x : Story, x.document = { d.document with children := (expandAutoTocs d.styles.styles d.document.children w.toc).1 } ∧
      (d.prepareForBuild env w).1.document = (refreshDuplicateParaIds x 1).1.document ∧
      x.comments = d.comments ∧ x.footnotes = d.footnotes ∧
      ∀ i ∈ bodyIds (walkStory (refreshDuplicateParaIds x 1).1), P i := by
  refine ⟨⟨{ d.document with children := (expandAutoTocs d.styles.styles d.document.children w.toc).1 }, d.comments, d.footnotes⟩,
    rfl, ?_, rfl, rfl, ?_⟩
  · unfold DocxFile.prepareForBuild
    exact updateDependencies_document _ _
  · refine refreshDuplicateParaIds_from hP.para _ _ fun i hi => hid i ?_
    simp only [fileIds, walkStory, bodyIds_append, List.mem_append] at hi ⊢
    rwa [expandAutoTocs_ids] at hi

theorem prepared_bodyIds (hP : Generates P) (env : Env) (d : DocxFile) (w : World) (hid : ∀ i ∈ fileIds d, P i) :
    ∀ i ∈ bodyIds (walkDocument (d.preparePackage env w).1.document), P i := by
  obtain ⟨x, e1, e2, _, _, h⟩ := prepared_ids hP env d w hid
  rw [preparePackage_document, collectImages_ids, e2]
  intro i hi
  refine h i ?_
  simp only [walkStory, bodyIds_append, List.mem_append]
  exact .inl (.inl hi)

/-- The strings of the written document are strings of the document given, or generated. -/
theorem prepared_strings (hP : Generates P) (env : Env) (d : DocxFile) (w : World) (hs : ∀ s ∈ d.document.strings, P s)
    (hid : ∀ i ∈ fileIds d, P i) : ∀ s ∈ (d.preparePackage env w).1.document.strings, P s := by
  have hids := prepared_bodyIds hP env d w hid
  obtain ⟨x, e1, e2, _⟩ := prepared_ids hP env d w hid
  have hpic := prepareForBuild_pictures env d w
  have hsp := (collectImages_spec env.crc (d.prepareForBuild env w).1.document).2.2.2.1
  have hnm := (collectImages_names env.crc (d.prepareForBuild env w).1.document).2.1
  refine spotsDocument _ ?_ ?_
  · rw [preparePackage_document, collectImages_bare, e2, refreshDuplicateParaIds_bare, e1]
    refine bareDocument_strings hP.empty _ fun s h => ?_
    simp only [Document.strings, List.mem_append] at h hs
    rcases h with h | h
    · obtain ⟨c, hc, h⟩ := List.mem_flatMap.1 h
      refine expandAutoTocs_strings hP.toc _ _ _ (fun c hc s h => hs s (.inl (List.mem_flatMap.2 ⟨c, hc, h⟩))) c hc s h
    · exact hs s (.inr h)
  · intro s h
    rcases spot_ids s h with h | ⟨p, hp, rfl⟩
    · exact hids s h
    · rw [preparePackage_document, partPictures_eq] at hp
      refine collected_ids hP (.inl rfl) hsp hnm ?_ p hp
      rw [← partPictures_eq, hpic]
      exact partPictures_spot (walkDocument_spots _ hs)

end

end Docx
