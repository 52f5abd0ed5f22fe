import Verif.Lemmas.Passed
import Verif.Lemmas.Witness
import Verif.Spec.References
import Verif.Props.C45_Parts

/-!
# C19: references to headers and footers
-/

namespace Docx.Props

set_option linter.unusedSimpArgs false

open Docx Docx.Spec Docx.Xml

theorem opt_filter {α : Type} (name other : Str) (h : other ≠ name) (o : Option α) (f : α → List (Str × Str)) :
    (optN o fun a => leafN other (f a)).filter (isNamed name) = [] := by
  cases o with
  | none => rfl
  | some a => simp [optN, leafN, isNamed, h]

theorem opt_reference (name : Str) (o : Option PartReference) :
    (optN o (PartReference.nodes name)).filter (isNamed name) =
      (o.map fun r => Node.elem name [(c!"w:type", r.type), (c!"r:id", r.id)] []).toList := by
  cases o with
  | none => rfl
  | some a => simp [-String.reduceToList, optN, leafN, isNamed, PartReference.nodes]

theorem opt_other (name other : Str) (h : other ≠ name) (o : Option PartReference) :
    (optN o (PartReference.nodes other)).filter (isNamed name) = [] := by
  cases o with
  | none => rfl
  | some a => simp [-String.reduceToList, optN, leafN, isNamed, PartReference.nodes, h]

theorem leaf_other (name other : Str) (h : other ≠ name) (as : List (Str × Str)) : (leafN other as).filter (isNamed name) = [] := by
  simp [leafN, isNamed, h]

theorem refs_filter (a b : Str) (h : b ≠ a) (o1 o2 o3 q1 q2 q3 : Option PartReference) :
    (optN o1 (PartReference.nodes a)).filter (isNamed a) ++ (optN o2 (PartReference.nodes a)).filter (isNamed a) ++
      (optN o3 (PartReference.nodes a)).filter (isNamed a) ++ (optN q1 (PartReference.nodes b)).filter (isNamed a) ++
      (optN q2 (PartReference.nodes b)).filter (isNamed a) ++ (optN q3 (PartReference.nodes b)).filter (isNamed a) =
    [o1, o2, o3].flatMap fun o => (o.map fun r => Node.elem a [(c!"w:type", r.type), (c!"r:id", r.id)] []).toList := by
  simp only [List.flatMap_cons, List.flatMap_nil, opt_reference, opt_other a b h, List.append_nil, List.append_assoc]

theorem refs_filter' (a b : Str) (h : b ≠ a) (o1 o2 o3 q1 q2 q3 : Option PartReference) :
    (optN q1 (PartReference.nodes b)).filter (isNamed a) ++ (optN q2 (PartReference.nodes b)).filter (isNamed a) ++
      (optN q3 (PartReference.nodes b)).filter (isNamed a) ++ (optN o1 (PartReference.nodes a)).filter (isNamed a) ++
      (optN o2 (PartReference.nodes a)).filter (isNamed a) ++ (optN o3 (PartReference.nodes a)).filter (isNamed a) =
    [o1, o2, o3].flatMap fun o => (o.map fun r => Node.elem a [(c!"w:type", r.type), (c!"r:id", r.id)] []).toList := by
  simp only [List.flatMap_cons, List.flatMap_nil, opt_reference, opt_other a b h, List.append_nil, List.nil_append, List.append_assoc]

/-- The references among the children of `w:sectPr`. -/
theorem sect_references (side : Side) (p : SectionBase) :
    ∃ sect, p.nodes = [.elem c!"w:sectPr" [] sect] ∧
      sect.filter (isNamed side.element) = (side.references p).flatMap fun o =>
        (o.map fun r => Node.elem side.element [(c!"w:type", r.type), (c!"r:id", r.id)] []).toList := by
  refine ⟨_, rfl, ?_⟩
  have hother : ∀ n : Str, n ≠ c!"w:headerReference" → n ≠ c!"w:footerReference" → n ≠ side.element := by
    intro n h1 h2
    cases side
    · exact h1
    · exact h2
  simp only [List.filter_append]
  rw [PageSize.nodes, PageMargin.nodes, leaf_other _ _ (hother _ (by decide) (by decide)), leaf_other _ _ (hother _ (by decide) (by decide)),
    leaf_other _ _ (hother _ (by decide) (by decide))]
  have hg : (optN p.docGrid DocGrid.nodes).filter (isNamed side.element) = [] := opt_filter _ _ (hother _ (by decide) (by decide)) _ _
  have hn : (optN p.pageNumType PageNumType.nodes).filter (isNamed side.element) = [] := opt_filter _ _ (hother _ (by decide) (by decide)) _ _
  have ht : (if p.textDirection ≠ c!"lrTb" then valN c!"w:textDirection" p.textDirection else []).filter (isNamed side.element) = [] := by
    split
    · exact leaf_other _ _ (hother _ (by decide) (by decide)) _
    · rfl
  have hs : (optN p.sectionType (fun t => valN c!"w:type" t.toStr)).filter (isNamed side.element) = [] :=
    opt_filter _ _ (hother _ (by decide) (by decide)) _ _
  have hl : (if p.titlePg = true then leafN c!"w:titlePg" else []).filter (isNamed side.element) = [] := by
    split
    · exact leaf_other _ _ (hother _ (by decide) (by decide)) _
    · rfl
  rw [hg, hn, ht, hs, hl]
  simp only [List.nil_append, List.append_nil]
  cases side
  · exact refs_filter c!"w:headerReference" c!"w:footerReference" (by decide) _ _ _ _ _ _
  · exact refs_filter' c!"w:footerReference" c!"w:headerReference" (by decide) _ _ _ _ _ _

/-- What the body of a written document has for the section properties of the document. -/
theorem document_sections (d : Document) {g g' : Gen} {s : Str} (h : d.write g = some (.ok s, g')) :
    ∃ body, s = standaloneDeclaration ++ (Node.elem c!"w:document" documentAttrs [.elem c!"w:body" [] body]).print ∧
      (∃ pre, body = pre ++ d.sectionProperty.base.nodes) ∧
      ∀ c, .section c ∈ d.children → ∃ id, .elem c!"w:p" [(c!"w14:paraId", id)] [.elem c!"w:pPr" [] c.property.base.nodes] ∈ body := by
  rw [Document.write, ← Document_build_flat] at h
  rcases writePart_flat d.nodes g c!"w:document" documentAttrs _ rfl with ⟨_, h2⟩ | ⟨cs, g1, _, h2, h3⟩
  · rw [h2] at h; cases h
  · rw [h3] at h
    simp only [Option.some.injEq, Prod.mk.injEq, Except.ok.injEq] at h
    simp only [elemN] at h2
    split at h2
    · cases h2
    · rename_i body g2 e
      simp only [Option.some.injEq, Prod.mk.injEq] at h2
      refine ⟨body, by rw [← h.1, ← h2.1], ?_, ?_⟩
      · simp only [catN, N.thenN, emitN] at e
        split at e
        · cases e
        · simp only [List.append_nil, Option.some.injEq, Prod.mk.injEq] at e
          exact ⟨_, e.1.symm⟩
      · intro c hc
        simp only [catN, N.thenN, emitN] at e
        split at e
        · cases e
        · rename_i ns g3 e1
          simp only [List.append_nil, Option.some.injEq, Prod.mk.injEq] at e
          obtain ⟨a1, a2, ms, e3, e4⟩ := eachN_mem hc e1
          simp only [DocumentChild.nodes, Section.nodes, withParaIdN, catN, N.thenN, emitN] at e3
          split at e3
          · cases e3
          · simp only [List.append_nil, Option.some.injEq, Prod.mk.injEq] at e3
            have hl : ∀ n, n ∈ [Node.elem c!"w:p" _ [Node.elem c!"w:pPr" [] c.property.base.nodes]] → n ∈ body := fun n hn => by
              rw [← e.1]
              refine List.mem_append_left _ (e4 _ ?_)
              rw [← e3.1]
              exact List.mem_append_right _ hn
            exact ⟨_, hl _ (.head _)⟩

theorem zip_references (side : Side) (l : List (Option (Str × Header))) (p : SectionBase)
    (h : side.references p = List.zipWith (fun (t : Str) (o : Option (Str × Header)) => o.map fun x => (⟨t, x.1⟩ : PartReference)) referenceTypes l)
    (hl : l.length = 3) :
    ((side.references p).flatMap fun o => (o.map fun r => Node.elem side.element [(c!"w:type", r.type), (c!"r:id", r.id)] []).toList) =
      referenceElements side (l.map (Option.map Prod.fst)) := by
  rw [h]
  unfold referenceElements referenceTypes
  match l, hl with
  | [a, b, c], _ => cases a <;> cases b <;> cases c <;> rfl

/-- The references in the properties that end the body, whatever they are. -/
theorem packed_body_references {side : Side} {d : DocxFile} {env : Env} {w : World} {es : List Entry} (h : Packed env d w es) :
    ∃ pre sect,
      ⟨c!"word/document.xml", .text (Props.standaloneDeclaration ++
        (Node.elem c!"w:document" documentAttrs [.elem c!"w:body" [] (pre ++ [.elem c!"w:sectPr" [] sect])]).print)⟩ ∈ es ∧
      sect.filter (isNamed side.element) = (side.references d.document.sectionProperty.base).flatMap fun o =>
        (o.map fun r => Node.elem side.element [(c!"w:type", r.type), (c!"r:id", r.id)] []).toList := by
  have hf := packed_fits h
  have hp := preparePackage_sections env d w
  generalize d.preparePackage env w = q at hf hp
  have hb : q.1.document.sectionProperty.base = d.document.sectionProperty.base := by
    rw [sectionProperties_eq, sectionProperties_eq, List.map_cons, List.map_cons, List.cons.injEq] at hp
    have := congrArg SectionProperty.base hp.1
    exact this
  obtain ⟨s, g, g', h3, h4⟩ := fits_write hf (step_document env q.1 q.2.1)
  obtain ⟨body, e1, ⟨pre, e2⟩, _⟩ := document_sections _ h3
  obtain ⟨sect, e4, e5⟩ := sect_references side d.document.sectionProperty.base
  rw [hb, e4] at e2
  rw [e1, e2] at h4
  exact ⟨pre, sect, h4, e5⟩

/-- The references written for section `i`. -/
theorem packed_references {side : Side} {d : DocxFile} {env : Env} {w : World} {es : List Entry} (h : Packed env d w es) {i : Nat}
    {p : SectionProperty} (hi : (sectionProperties d.document)[i]? = some p) (hr : Referred p) :
    SectionReferences es side i ((side.parts p).map (Option.map Prod.fst)) := by
  have hf := packed_fits h
  have hp := preparePackage_sections env d w
  generalize d.preparePackage env w = q at hf hp
  have h1 : ((sectionProperties q.1.document).map bareSectionProperty)[i]? = some (bareSectionProperty p) := by
    rw [hp, List.getElem?_map, hi]
    rfl
  rw [List.getElem?_map] at h1
  cases h2 : (sectionProperties q.1.document)[i]? with
  | none => rw [h2] at h1; cases h1
  | some y =>
    rw [h2] at h1
    simp only [Option.map_some, Option.some.injEq] at h1
    have hb : y.base = p.base := by
      have := congrArg SectionProperty.base h1
      exact this
    obtain ⟨s, g, g', h3, h4⟩ := fits_write hf (step_document env q.1 q.2.1)
    obtain ⟨body, e1, e2, e3⟩ := document_sections _ h3
    obtain ⟨sect, e4, e5⟩ := sect_references side p.base
    rw [zip_references side (side.parts p) p.base (hr side) (by cases side <;> rfl)] at e5
    rw [e1] at h4
    refine ⟨body, sect, h4, e5, ?_, ?_⟩
    · rintro rfl
      rw [sectionProperties_eq] at h2
      simp only [List.getElem?_cons_zero, Option.some.injEq] at h2
      rw [h2, hb, e4] at e2
      exact e2
    · intro hi0
      obtain ⟨j, rfl⟩ : ∃ j, i = j + 1 := ⟨i - 1, by omega⟩
      rw [sectionProperties_eq] at h2
      rw [List.getElem?_cons_succ] at h2
      obtain ⟨c, hc, hc'⟩ := List.mem_filterMap.1 (List.mem_of_getElem? h2)
      cases c with
      | «section» c =>
        simp only [sectionProp?, Option.some.injEq] at hc'
        obtain ⟨id, hid⟩ := e3 c hc
        rw [hc', hb, e4] at hid
        exact ⟨id, hid⟩
      | _ => cases hc'

/-- The part with a number. -/
theorem packed_resolves {side : Side} {d : DocxFile} {env : Env} {w : World} {es : List Entry}
    (hs : Sound d) (hp : ∀ l, (env.links l).Perm l) (hm : Made d.document) (h : Packed env d w es) {j : Nat}
    {x : Str × Header} (e : (Side.all side d.document)[j]? = some x) (hj : j < Side.count side d) :
    ResolvesTo es side (side.rid (j + 1)) x.2 := by
  obtain ⟨r, imgs, ls, h1, _, _, h4, h5, _, _, h8, h9⟩ := packed_relations hs hp hm.nameable h
  obtain ⟨h', s, g, g', p1, p2, p3⟩ := packed_part h e
  refine ⟨_, Side.kind side ++ dec (j + 1) ++ c!".xml", h', s, g, g', h1, ?_, ?_, p2, p1⟩
  · refine relations_part side (fun x hx => (h8 x hx).1) (fun x hx => ?_) (n := Side.count side d) ?_ ?_ hj
    · obtain ⟨n, url, e⟩ := hm.links x (h9.mem x hx)
      simp only [Hyperlink.new, HyperlinkData.external.injEq] at e
      exact ⟨n, e.1.symm⟩
    · rintro rfl; exact h4
    · rintro rfl; exact h5
  · have : c!"word/" ++ (Side.kind side ++ dec (j + 1) ++ c!".xml") = partName (Side.kind side) (j + 1) := by
      simp only [partName, List.append_assoc]
    rw [this]
    exact p3

/-- **C19.** In a written package, the properties of every section have a reference for exactly the headers (or footers) given for that
section, and the reference leads, by its relationship, to the part that holds the header given, when headers are given in the order
default, first page, even pages and before sections are added. Missing: other orders of the calls (`C19_fails`). -/
theorem C19_references_resolve_partial (side : Side) (cs : List Call) (d : DocxFile) (env : Env) (w : World) (es : List Entry)
    (hc : DocxFile.new.calls cs = some d) (hp : ∀ l, (env.links l).Perm l) (hm : Made d.document) (hpl : Plainly cs)
    (ho : InOrder side cs) (h : Packed env d w es) :
    (side.passed cs).length = (sectionProperties d.document).length ∧
    ∀ i hs, (side.passed cs)[i]? = some hs → ∃ rids, SectionReferences es side i rids ∧ List.Forall₂ (Leads es side) hs rids := by
  have hh := heads_passed side hpl hc
  refine ⟨by rw [← hh, List.length_map], fun i hs hi => ?_⟩
  rw [← hh, List.getElem?_map] at hi
  cases hsp : (sectionProperties d.document)[i]? with
  | none => rw [hsp] at hi; cases hi
  | some p =>
    rw [hsp] at hi
    simp only [Option.map_some, Option.some.injEq] at hi
    have hpm := List.mem_of_getElem? hsp
    refine ⟨_, packed_references h hsp (referred hpl hc p hpm), ?_⟩
    rw [← hi, Side.heads, List.forall₂_map_left_iff, List.forall₂_map_right_iff, List.forall₂_same]
    intro o hoo
    cases o with
    | none => exact .none
    | some x =>
      refine .some ?_
      have hx : x ∈ Side.all side d.document := by
        unfold Side.all
        exact List.mem_flatMap.2 ⟨p, hpm, List.mem_filterMap.2 ⟨_, hoo, rfl⟩⟩
      obtain ⟨j, hj⟩ := List.mem_iff_getElem?.1 hx
      have hj' := hj
      rw [all_numbered hpl ho hc] at hj'
      unfold Side.numbered at hj'
      rw [List.getElem?_map, List.getElem?_zipIdx] at hj'
      cases hg : (cs.flatMap side.given)[j]? with
      | none => rw [hg] at hj'; cases hj'
      | some y =>
        rw [hg] at hj'
        simp only [Option.map_some, Option.some.injEq, Nat.zero_add] at hj'
        have hlt : j < Side.count side d := by
          rw [← all_length hpl (inOrder_once ho) hc]
          exact (List.getElem?_eq_some_iff.1 hj).1
        have := packed_resolves (calls_sound hc) hp hm h hj hlt
        rw [← hj'] at this ⊢
        exact this

/-! ## Examples -/

private def orderCalls : List Call :=
  [ .header (aHeader c!"h"), .footer (aHeader c!"g"), .evenHeader (aHeader c!"e"), .addParagraph (aParagraph c!"p"),
    .addSection { children := [.paragraph (aParagraph c!"q")], tempFirstHeader := some (aHeader c!"s"), tempEvenFooter := some (aHeader c!"t") },
    .addSection { tempHeader := some (aHeader c!"u") } ]

private theorem order_pack : packs (fun d _ =>
    decide (partPictures (walkDocument d.document) = [] ∧ bodyLinks d.document = [])) orderCalls = true := by decide +kernel

private theorem order_plainly : Plainly orderCalls := by
  refine ⟨fun x hx => by simp [orderCalls] at hx, fun s hs => ?_⟩
  simp only [orderCalls, List.mem_cons, reduceCtorEq, Call.addSection.injEq, List.not_mem_nil, or_false, false_or] at hs
  rcases hs with rfl | rfl <;> intro side <;> cases side <;> simp [Side.parts, Side.references]

example : ∃ d es, DocxFile.new.calls orderCalls = some d ∧ Packed anEnv d {} es ∧ (∀ l, (anEnv.links l).Perm l) ∧ Made d.document ∧
    Plainly orderCalls ∧ (∀ side, InOrder side orderCalls) ∧
    Side.passed .header orderCalls =
      [[some (aHeader c!"h"), none, some (aHeader c!"e")], [none, some (aHeader c!"s"), none], [some (aHeader c!"u"), none, none]] := by
  obtain ⟨d, es, h1, h2, h3⟩ := packs_spec order_pack
  rw [decide_eq_true_eq] at h3
  obtain ⟨p, l⟩ := h3
  refine ⟨d, es, h1, h2, anEnv_links, ⟨fun x hx => (by rw [p] at hx; cases hx), fun x hx => (by rw [l] at hx; cases hx)⟩,
    order_plainly, fun side => ?_, rfl⟩
  cases side
  · show [0, 2, 3, 3].Pairwise fun a b => a < b ∨ (a = 3 ∧ b = 3)
    decide
  · show [0, 3].Pairwise fun a b => a < b ∨ (a = 3 ∧ b = 3)
    decide

private def swapCalls : List Call := [.firstHeader (aHeader c!"f"), .header (aHeader c!"h")]

private theorem swap_pack : packs (fun d _ =>
    decide (partPictures (walkDocument d.document) = [] ∧ bodyLinks d.document = [] ∧ d.documentRels.headerCount = 2)) swapCalls = true := by
  decide +kernel

private theorem swap_plainly : Plainly swapCalls :=
  ⟨fun x hx => by simp [swapCalls] at hx, fun s hs => by simp [swapCalls] at hs⟩

/-- **C19 fails** when the header of the first page is given before the default header: the reference to the default header leads to the
part that holds the header of the first page, and the other way round. -/
theorem C19_fails : ∃ cs d env w es x y, DocxFile.new.calls cs = some d ∧ (∀ l, (env.links l).Perm l) ∧ Made d.document ∧ Plainly cs ∧
    Packed env d w es ∧ Side.passed .header cs = [[some x, some y, none]] ∧ bareHeader x ≠ bareHeader y ∧
    ∃ r1 r2, SectionReferences es .header 0 [some r1, some r2, none] ∧ ResolvesTo es .header r1 y ∧ ResolvesTo es .header r2 x := by
  obtain ⟨d, es, h1, h2, h3⟩ := packs_spec swap_pack
  rw [decide_eq_true_eq] at h3
  obtain ⟨p, l, c⟩ := h3
  have hm : Made d.document := ⟨fun x hx => (by rw [p] at hx; cases hx), fun x hx => (by rw [l] at hx; cases hx)⟩
  have h1' : DocxFile.new.calls swapCalls = some d := h1
  refine ⟨swapCalls, d, anEnv, {}, es, aHeader c!"h", aHeader c!"f", h1, anEnv_links, hm, swap_plainly, h2, rfl, ?_,
    createHeaderRid 2, createHeaderRid 1, ?_, ?_, ?_⟩
  · intro e
    have := congrArg Header.children e
    simp [bareHeader, aHeader, aParagraph, bareHeaderChild, bareParagraph, aRun, bareParagraphChild, bareParagraphChildren, bareRun, bareRunChildren, bareRunChild] at this
  · simp only [swapCalls, DocxFile.calls, DocxFile.call, Option.bind_some, Option.some.injEq] at h1'
    have := packed_references (side := .header) h2 (i := 0) (p := d.document.sectionProperty) (by rw [sectionProperties_eq]; rfl)
      (referred swap_plainly h1 _ (by rw [sectionProperties_eq]; exact .head _))
    rw [← h1'] at this
    exact this
  · refine packed_resolves (side := .header) (j := 1) (x := (createHeaderRid 1, aHeader c!"f")) (calls_sound h1) anEnv_links hm h2 ?_ ?_
    · simp only [swapCalls, DocxFile.calls, DocxFile.call, Option.bind_some, Option.some.injEq] at h1'
      rw [← h1']
      rfl
    · show 1 < d.documentRels.headerCount
      omega
  · refine packed_resolves (side := .header) (j := 0) (x := (createHeaderRid 2, aHeader c!"h")) (calls_sound h1) anEnv_links hm h2 ?_ ?_
    · simp only [swapCalls, DocxFile.calls, DocxFile.call, Option.bind_some, Option.some.injEq] at h1'
      rw [← h1']
      rfl
    · show 0 < d.documentRels.headerCount
      omega

end Docx.Props
