import Verif.Lemmas.PackedParts
import Verif.Lemmas.DocRels

/-!
# The relationships of headers and footers
-/

namespace Docx

open Docx.Spec Docx.Xml

/-- The relationships collected for the headers or footers. -/
def Side.rels : Side → CollectedImages → List (Nat × List (Str × Str))
  | .header, i => i.headerRels
  | .footer, i => i.footerRels

theorem heads_all (side : Side) (d : Document) :
    (Side.all side d).map Prod.snd = (match side with | .header => headersOf d | .footer => footersOf d) := by
  cases side
  · rw [← headers_all, headers_eq]
  · rw [← footers_all, footers_eq]

theorem named_nil (pfx : Str) (a b : List Visited) : PartNamed pfx a b [] :=
  ⟨fun x hx => (by cases hx), fun x hx => (by cases hx)⟩

/-- The relationships of a numbered part: what is known about them. -/
structure Numbered (side : Side) (d : Document) (i : CollectedImages) (out : List (List (Str × Str))) : Prop where
  length : (Side.all side i.document).length = (Side.all side d).length
  rels : Side.rels side i = Docx.sparse out
  outs : out.length = (Side.all side d).length
  ok : ∀ (j : Nat) (x y : Str × Header) (o : List (Str × Str)), (Side.all side d)[j]? = some x → (Side.all side i.document)[j]? = some y → out[j]? = some o →
    PartOk i.media (headerItems x.2) (headerItems y.2) o ∧ PartNamed (Side.kind side) (headerItems x.2) (headerItems y.2) o

theorem part_images (side : Side) (crc : Bytes → Nat) (d : Document) : ∃ out, Numbered side d (collectImages crc d) out := by
  obtain ⟨_, _, _, _, ⟨hl, ho, e1, e2, e3⟩, ⟨fl, fo, f1, f2, f3⟩, _⟩ := collectImages_spec crc d
  obtain ⟨_, _, _, ⟨ho', g1, g2⟩, fo', g3, g4⟩ := collectImages_names crc d
  have ha := heads_all side d
  have hb := heads_all side (collectImages crc d).document
  have glue : ∀ {a b : List (List (Str × Str))} {j : Nat} {o : List (Str × Str)}, sparse a = sparse b → a[j]? = some o →
      o = [] ∨ b[j]? = some o := by
    intro a b j o e h
    have h1 := relsOfPart_sparse a j
    have h2 := relsOfPart_sparse b j
    rw [e, h2, h] at h1
    cases hb : b[j]? with
    | none => rw [hb] at h1; exact .inl (by simpa using h1.symm)
    | some p => rw [hb] at h1; exact .inr (by simpa using h1)
  cases side with
  | header =>
    dsimp only at ha hb
    have l1 := congrArg List.length ha
    have l2 := congrArg List.length hb
    rw [List.length_map] at l1 l2
    refine ⟨ho, ⟨by rw [l1, l2, hl], e1, by rw [l1, e2], fun j x y o hx hy h => ?_⟩⟩
    have hx' : (headersOf d)[j]? = some x.2 := by rw [← ha, List.getElem?_map, hx]; rfl
    have hy' : (headersOf (collectImages crc d).document)[j]? = some y.2 := by rw [← hb, List.getElem?_map, hy]; rfl
    refine ⟨e3 j _ _ o hx' hy' h, ?_⟩
    rcases glue (e1.symm.trans g1) h with rfl | h
    · exact named_nil _ _ _
    · exact g2 j _ _ o hx' hy' h
  | footer =>
    dsimp only at ha hb
    have l1 := congrArg List.length ha
    have l2 := congrArg List.length hb
    rw [List.length_map] at l1 l2
    refine ⟨fo, ⟨by rw [l1, l2, fl], f1, by rw [l1, f2], fun j x y o hx hy h => ?_⟩⟩
    have hx' : (footersOf d)[j]? = some x.2 := by rw [← ha, List.getElem?_map, hx]; rfl
    have hy' : (footersOf (collectImages crc d).document)[j]? = some y.2 := by rw [← hb, List.getElem?_map, hy]; rfl
    refine ⟨f3 j _ _ o hx' hy' h, ?_⟩
    rcases glue (f1.symm.trans g3) h with rfl | h
    · exact named_nil _ _ _
    · exact g4 j _ _ o hx' hy' h

/-! ## The steps -/

theorem numberedSteps_rels (kind : Str) (write : Header → Part) (hk : ∀ a b, partName kind a ≠ partRelsName kind b) :
    ∀ (l : List (Header × List (Str × Str))) (i : Nat),
      (∀ j x, l[j]? = some x → x.2 ≠ [] → .write (partRelsName kind (i + j + 1)) (imageRelsPart x.2) ∈ numberedSteps kind write i l) ∧
      ∀ n, partRelsName kind n ∈ (numberedSteps kind write i l).map ZipStep.name → ∃ j x, n = i + j + 1 ∧ l[j]? = some x ∧ x.2 ≠ []
  | [], i => ⟨fun j x h => (by simp at h), fun n h => (by simp [numberedSteps] at h)⟩
  | (h, o) :: l, i => by
    obtain ⟨i1, i2⟩ := numberedSteps_rels kind write hk l (i + 1)
    constructor
    · intro j x hx hne
      cases j with
      | zero =>
        simp only [List.getElem?_cons_zero, Option.some.injEq] at hx
        subst hx
        refine .tail _ (List.mem_append_left _ ?_)
        rw [relSteps, if_neg hne]
        exact .head _
      | succ j =>
        rw [List.getElem?_cons_succ] at hx
        refine .tail _ (List.mem_append_right _ ?_)
        have := i1 j x hx hne
        rwa [show i + 1 + j + 1 = i + (j + 1) + 1 by omega] at this
    · intro n hn
      simp only [numberedSteps, List.map_cons, List.map_append] at hn
      rcases List.mem_cons.1 hn with hn | hn
      · exact absurd hn.symm (hk _ _)
      rcases List.mem_append.1 hn with hn | hn
      · rw [relSteps] at hn
        split at hn
        · cases hn
        · rename_i hne
          simp only [List.map_cons, List.map_nil, List.mem_singleton, ZipStep.name] at hn
          exact ⟨0, (h, o), partRelsName_inj hn, rfl, hne⟩
      · obtain ⟨j, x, e1, e2, e3⟩ := i2 n hn
        exact ⟨j + 1, x, by omega, by rwa [List.getElem?_cons_succ], e3⟩

theorem kind_names_differ (side : Side) (a b : Nat) : partName (Side.kind side) a ≠ partRelsName (Side.kind side) b := by
  cases side
  · exact header_names_differ a b
  · exact footer_names_differ a b

/-- The relationships given to the writer. -/
def Side.metadata : Side → PackageMetadata → List (Nat × List (Str × Str))
  | .header, p => p.headerRels
  | .footer, p => p.footerRels

theorem mem_partSteps {side : Side} {env : Env} {d : DocxFile} {p : PackageMetadata} {s : ZipStep}
    (h : s ∈ partSteps (Side.kind side) side.write 0 ((Side.all side d.document).map Prod.snd) (Side.metadata side p)) :
    s ∈ zipDocxSteps env d p := by
  rw [zipDocxSteps_split, otherSteps_eq]
  refine List.mem_append_right _ ?_
  cases side
  · rw [← headers_all] at h
    exact List.mem_append_left _ h
  · rw [← footers_all] at h
    exact List.mem_append_right _ (List.mem_append_left _ h)

theorem rels_name_part {side : Side} {env : Env} {d : DocxFile} {p : PackageMetadata} {n : Nat}
    (h : partRelsName (Side.kind side) n ∈ (zipDocxSteps env d p).map ZipStep.name) :
    partRelsName (Side.kind side) n ∈
      (partSteps (Side.kind side) side.write 0 ((Side.all side d.document).map Prod.snd) (Side.metadata side p)).map ZipStep.name := by
  rw [zipDocxSteps_split, otherSteps_eq, List.map_append, List.map_append, List.map_append, List.map_append, List.map_append,
    fixedSteps_names] at h
  have hpre : c!"word/_rels/" ++ Side.kind side <+: partRelsName (Side.kind side) n := numbered_prefix _ _ _
  have hfix : partRelsName (Side.kind side) n ∉ fixedNames := by
    intro hm
    have : ∀ s ∈ fixedNames, ∀ q ∈ [c!"word/_rels/" ++ c!"header", c!"word/_rels/" ++ c!"footer"], ¬ q <+: s := by decide
    exact this _ hm _ (by cases side <;> simp [Side.kind]) hpre
  have hno : ∀ {ps l : List Str}, Begin ps l → (ps.all fun q => clash (c!"word/_rels/" ++ Side.kind side) q) = true →
      partRelsName (Side.kind side) n ∉ l := by
    intro ps l hb hc hm
    obtain ⟨q, hq, hq'⟩ := hb _ hm
    exact clash_ne (List.all_eq_true.1 hc q hq) hpre hq'
  rcases List.mem_append.1 h with h | h
  · exact absurd h hfix
  rcases List.mem_append.1 h with h | h
  · cases side with
    | header => rw [← headers_all]; exact h
    | footer => exact absurd h (hno (partSteps_begin _ _ _ _ _) (by decide))
  rcases List.mem_append.1 h with h | h
  · cases side with
    | header => exact absurd h (hno (partSteps_begin _ _ _ _ _) (by decide))
    | footer => rw [← footers_all]; exact h
  rcases List.mem_append.1 h with h | h
  · exact absurd h (hno (mediaSteps_begin _) (by cases side <;> decide))
  rcases List.mem_append.1 h with h | h
  · exact absurd h (hno (taskpanesSteps_begin _) (by cases side <;> decide))
  · exact absurd h (hno (itemSteps_begin _) (by cases side <;> decide))

/-! ## Preparation -/

theorem own_blank (side : Side) (p : SectionProperty) :
    Side.own side (blankSectionProperty p) = (Side.own side p).map fun x => (x.1, blankHeader x.2) := by
  have h : ∀ a b c : Option (Str × Header), [blankPart a, blankPart b, blankPart c].filterMap id =
      ([a, b, c].filterMap id).map fun x => (x.1, blankHeader x.2) := by
    intro a b c
    cases a <;> cases b <;> cases c <;> rfl
  cases side
  · exact h p.header p.firstHeader p.evenHeader
  · exact h p.footer p.firstFooter p.evenFooter

theorem all_blank (side : Side) (d : Document) :
    Side.all side (blankDocument d) = (Side.all side d).map (fun x => (x.1, blankHeader x.2)) := by
  have e : sectionProperties (blankDocument d) = (sectionProperties d).map blankSectionProperty := by
    rw [sectionProperties_eq, sectionProperties_eq, List.map_cons]
    congr 1
    simp only [blankDocument, List.filterMap_map, List.map_filterMap]
    congr 1
    funext c
    cases c <;> rfl
  unfold Side.all
  rw [e, List.map_flatMap, flatMap_map']
  exact flatMap_congr' fun p _ => own_blank side p

theorem prepareForBuild_parts (side : Side) (env : Env) (d : DocxFile) (w : World) :
    (Side.all side (d.prepareForBuild env w).1.document).map (fun x => (x.1, blankHeader x.2)) =
      (Side.all side d.document).map fun x => (x.1, blankHeader x.2) := by
  obtain ⟨x, e1, e2⟩ := prepareForBuild_document env d w
  rw [← all_blank, ← all_blank, e2, refreshDuplicateParaIds_document, all_blank, all_blank]
  congr 1
  unfold Side.all
  rw [sectionProperties_eq, sectionProperties_eq, e1]
  dsimp only
  rw [expandAutoTocs_sections]

theorem blank_pictures {h h' : Header} (e : blankHeader h = blankHeader h') :
    partPictures (walkHeader [] h) = partPictures (walkHeader [] h') := by
  have hk : ∀ w i, (fun w i => if inPart w then (Item.picture? i).toList else []) w (blankItem i) =
      (fun w i => if inPart w then (Item.picture? i).toList else []) w i := by
    intro w i
    cases i <;> simp [Item.picture?, blankItem]
  rw [partPictures_pick, partPictures_pick, ← walkHeader_blank hk h [], e, walkHeader_blank hk]

end Docx
