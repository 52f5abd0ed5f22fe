import Verif.Lemmas.FileParts
import Verif.Props.C54_Numbering
import Verif.Props.C57_Comments
import Verif.Props.C58_Settings

/-! # A packed file, read as a whole -/

namespace Docx

open Docx.Xml Docx.Spec Docx.Props

/-- What is asked of the calls that make a file, and of what they give it, for the file to be read back. -/
structure Sendable (cs : List Call) (d : DocxFile) (env : Env) : Prop where
  /-- The file is what the calls make. -/
  made : DocxFile.new.calls cs = some d
  /-- Maps are written in some order. -/
  links : ∀ l, (env.links l).Perm l
  props : ∀ l, (env.props l).Perm l
  /-- Pictures and links have ids the library makes. -/
  dependencies : Made d.document
  pictures : MadePictures d.document
  /-- No document is put in as a whole; headers and footers are given in the order default, first page, even pages. -/
  plainly : Plainly cs
  order : ∀ side, InOrder side cs
  ids : ∀ i ∈ bodyIds (walkStory ⟨d.document, d.comments, d.footnotes⟩), PlainValue i
  /-- Headers and footers, custom properties, styles, numberings, settings and page set-up are of the kinds that are kept. -/
  parts : ∀ side : Side, ∀ h ∈ side.ofDocument d.document, ∃ items, h = headerOf items ∧ KeptItems items
  custom : ∀ name value, Call.customProperty name value ∈ cs → PlainValue name ∧ PlainValue value
  styles : Styles.Kept d.styles
  numberings : Numberings.Kept d.numberings
  settings : Settings.Kept d.settings
  page : AllS d.document.sectionProperty.base.strings ∧ SectionBase.Placed d.document.sectionProperty.base

theorem elem_opens (name : Str) (attrs : List (Str × Str)) (f : List Node) : (printForest [.elem name attrs f]).head? = some '<' := by
  cases f <;> simp [printForest, Node.print]

theorem styles_opens (s : Styles) : Part.Opens (buildElement s.build) := by
  intro out g g' h
  rw [← Styles_build_flat] at h
  obtain ⟨g0, f, g1, h1, rfl⟩ := buildElement_text ⟨g, g', h⟩
  unfold Styles.nodes at h1
  obtain ⟨f', _, e⟩ := elemN_eq h1
  rw [e]
  exact elem_opens _ _ _

theorem sectionProperty_bare {p : SectionProperty} {b : SectionBase} (h : bareSectionProperty p = bareSectionProperty { base := b }) :
    p = { base := b } := by
  obtain ⟨b', h1, h2, h3, h4, h5, h6⟩ := p
  simp only [bareSectionProperty, SectionProperty.mk.injEq] at h
  obtain ⟨rfl, e1, e2, e3, e4, e5, e6⟩ := h
  have key : ∀ o : Option (Str × Header), barePart o = barePart none → o = none := by
    intro o ho
    cases o with
    | none => rfl
    | some x => cases ho
  rw [key _ e1, key _ e2, key _ e3, key _ e4, key _ e5, key _ e6]

/-- References are read as they are. -/
theorem references_reread {side : Side} {p : SectionProperty} (h : Referred p)
    (hn : ∀ o ∈ side.parts p, ∀ y, o = some y → ∃ j, y.1 = side.rid j) : side.references p.base.reread = side.references p.base := by
  have e : side.references p.base.reread = (side.references p.base).map (Option.map PartReference.reread) := by cases side <;> rfl
  rw [e, h side]
  rw [List.map_congr_left (g := id), List.map_id]
  intro o ho
  rw [← List.map_uncurry_zip_eq_zipWith] at ho
  obtain ⟨⟨t, y⟩, hz, rfl⟩ := List.mem_map.1 ho
  obtain ⟨h1, h2⟩ := List.of_mem_zip hz
  cases y with
  | none => rfl
  | some y =>
    obtain ⟨j, hj⟩ := hn _ h2 y rfl
    have e1 : seen t = t := by
      have : ∀ t ∈ referenceTypes, seen t = t := by decide +kernel
      exact this t h1
    have e2 : seen y.1 = y.1 := by
      rw [hj]
      have : Plain (side.rid j) := by
        cases side
        · exact Plain.append (plain_lit (s := c!"rIdHeader") (by decide)) (plain_dec j)
        · exact Plain.append (plain_lit (s := c!"rIdFooter") (by decide)) (plain_dec j)
      exact Spec.PlainValue.seen this
    simp only [Function.uncurry, Option.map_some, PartReference.reread, id, e1, e2]

/-- The three parts of a section are found. -/
theorem slots_read {side : Side} {cs : List Call} {d : DocxFile} (hc : DocxFile.new.calls cs = some d) (hpl : Plainly cs)
    (ho : InOrder side cs) {l : List (Str × Header × ReadRels)}
    (hl : ∀ j h, (side.ofDocument d.document)[j]? = some h → ∃ q rels, partWith l (side.rid (j + 1)) = some (q, rels) ∧ KeptPart h q) :
    List.Forall₂ (Option.Rel KeptPart) (Side.heads side d.document.sectionProperty)
      ((side.references d.document.sectionProperty.base.reread).map fun o => (leadsTo l o).map Prod.snd) := by
  have hall : side.ofDocument d.document = (Side.all side d.document).map Prod.snd := by rw [heads_all]; cases side <;> rfl
  have hin : ∀ o ∈ side.parts d.document.sectionProperty, ∀ y, o = some y → ∃ j, (side.ofDocument d.document)[j]? = some y.2 ∧ y.1 = side.rid (j + 1) := by
    rintro o hoo y rfl
    have hx : y ∈ Side.all side d.document := by
      unfold Side.all
      rw [sectionProperties_eq]
      exact List.mem_flatMap.2 ⟨_, .head _, List.mem_filterMap.2 ⟨_, hoo, rfl⟩⟩
    obtain ⟨j, hj⟩ := List.mem_iff_getElem?.1 hx
    refine ⟨j, by rw [hall, List.getElem?_map, hj]; rfl, ?_⟩
    rw [all_numbered hpl ho hc] at hj
    unfold Side.numbered at hj
    rw [List.getElem?_map, List.getElem?_zipIdx] at hj
    cases hg : (cs.flatMap side.given)[j]? with
    | none => rw [hg] at hj; cases hj
    | some z =>
      rw [hg] at hj
      simp only [Option.map_some, Option.some.injEq, Nat.zero_add] at hj
      rw [← hj]
  have href := referred hpl hc d.document.sectionProperty (by rw [sectionProperties_eq]; exact .head _)
  rw [references_reread href fun o ho y e => by obtain ⟨j, _, h⟩ := hin o ho y e; exact ⟨_, h⟩, href side]
  unfold Side.heads
  have hlen : (side.parts d.document.sectionProperty).length = 3 := by cases side <;> rfl
  generalize side.parts d.document.sectionProperty = ps at hin hlen
  have key : ∀ (ts : List Str) (ps : List (Option (Str × Header))), ts.length = ps.length →
      (∀ o ∈ ps, ∀ y, o = some y → ∃ j, (side.ofDocument d.document)[j]? = some y.2 ∧ y.1 = side.rid (j + 1)) →
      List.Forall₂ (Option.Rel KeptPart) (ps.map (Option.map Prod.snd))
        ((List.zipWith (fun (t : Str) (o : Option (Str × Header)) => o.map fun x => (⟨t, x.1⟩ : PartReference)) ts ps).map
          fun o => (leadsTo l o).map Prod.snd) := by
    intro ts
    induction ts with
    | nil => intro ps hn _; cases ps with | nil => exact .nil | cons => cases hn
    | cons t ts ih =>
      intro ps hn hin
      cases ps with
      | nil => cases hn
      | cons o ps =>
        refine .cons ?_ (ih ps (Nat.succ.inj hn) fun o ho => hin o (.tail _ ho))
        cases o with
        | none => exact .none
        | some y =>
          obtain ⟨j, h1, h2⟩ := hin _ (.head _) y rfl
          obtain ⟨q, rels, h3, h4⟩ := hl j _ h1
          have : leadsTo l (some ⟨t, y.1⟩) = some (y.1, q) := by
            simp only [leadsTo, Option.bind_some, h2, h3, Option.map_some]
          simp only [Option.map_some, this]
          exact .some h4
  exact key _ _ (by rw [hlen]; rfl) hin

/-- The one of two things that belongs to a side. -/
def Side.pick {α : Type} (side : Side) (a b : α) : α :=
  match side with
  | .header => a
  | .footer => b

theorem parts_assigned {headers footers : List (Str × Header × ReadRels)} (b : SectionBase) (side : Side) :
    Side.heads side ({ base := b, header := leadsTo headers b.headerReference, firstHeader := leadsTo headers b.firstHeaderReference, evenHeader := leadsTo headers b.evenHeaderReference, footer := leadsTo footers b.footerReference, firstFooter := leadsTo footers b.firstFooterReference, evenFooter := leadsTo footers b.evenFooterReference } : SectionProperty) =
      (side.references b).map fun o => (leadsTo (Side.pick side headers footers) o).map Prod.snd := by
  cases side <;> rfl

/-- What the properties read are. -/
def KeptProperties (cs : List Call) (m : List (Str × Str)) : Prop :=
  ∀ name value, (name, value) ∈ m ↔ lastProperty cs name = some value ∧ blankText value = false

/-- The relationships there can be to parts with fixed names. -/
def everyFixed : List Relation := ({ hasComments := true, hasNumberings := true, hasFootnotes := true } : DocumentRels).fixedRelations

theorem fixed_every (r : DocumentRels) {q : Relation} (hq : q ∈ r.fixedRelations) : q ∈ everyFixed := by
  unfold everyFixed
  unfold DocumentRels.fixedRelations at hq ⊢
  simp only [if_true]
  simp only [List.mem_append] at hq ⊢
  rcases hq with ((hx | hx) | hx) | hx
  · exact .inl (.inl (.inl hx))
  · refine .inl (.inl (.inr ?_)); split at hx; exacts [hx, absurd hx (by simp)]
  · refine .inl (.inr ?_); split at hx; exacts [hx, absurd hx (by simp)]
  · refine .inr ?_; split at hx; exacts [hx, absurd hx (by simp)]

theorem fixed_unique (r : DocumentRels) {q q' : Relation} (hq : q ∈ r.fixedRelations) (hq' : q' ∈ r.fixedRelations) (h : q.type = q'.type) :
    q = q' := by
  have : ∀ a ∈ everyFixed, ∀ b ∈ everyFixed, a.type = b.type → a = b := by decide +kernel
  exact this _ (fixed_every r hq) _ (fixed_every r hq') h

theorem fixed_mem (r : DocumentRels) :
    ⟨c!"rId1", officeRel c!"styles", c!"styles.xml", none⟩ ∈ r.fixedRelations ∧
    ⟨c!"rId3", officeRel c!"settings", c!"settings.xml", none⟩ ∈ r.fixedRelations ∧
    ⟨c!"rId5", c!"http://schemas.microsoft.com/office/2011/relationships/commentsExtended", c!"commentsExtended.xml", none⟩ ∈ r.fixedRelations ∧
    (r.hasComments = true → ⟨c!"rId6", officeRel c!"comments", c!"comments.xml", none⟩ ∈ r.fixedRelations) ∧
    (r.hasNumberings = true → ⟨c!"rId7", officeRel c!"numbering", c!"numbering.xml", none⟩ ∈ r.fixedRelations) := by
  unfold DocumentRels.fixedRelations
  simp only [List.mem_append]
  refine ⟨.inl (.inl (.inl (.head _))), .inl (.inl (.inl (.tail _ (.tail _ (.head _))))),
    .inl (.inl (.inl (.tail _ (.tail _ (.tail _ (.head _)))))), fun h => .inl (.inl (.inr ?_)), fun h => .inl (.inr ?_)⟩
  · rw [if_pos h]; exact .head _
  · rw [if_pos h]; exact .head _

theorem fixed_without (r : DocumentRels) :
    (r.hasComments = false → ∀ q ∈ r.fixedRelations, q.type ≠ officeType c!"comments") ∧
    (r.hasNumberings = false → ∀ q ∈ r.fixedRelations, q.type ≠ officeType c!"numbering") ∧
    (∀ q ∈ r.fixedRelations, q.type ≠ officeType c!"theme") ∧ (∀ q ∈ r.fixedRelations, q.type ≠ officeType c!"webSettings") := by
  have h1 : ∀ q ∈ ({ hasComments := false, hasNumberings := true, hasFootnotes := true } : DocumentRels).fixedRelations,
    q.type ≠ officeType c!"comments" := by decide +kernel
  have h2 : ∀ q ∈ ({ hasComments := true, hasNumberings := false, hasFootnotes := true } : DocumentRels).fixedRelations,
    q.type ≠ officeType c!"numbering" := by decide +kernel
  have h3 : ∀ q ∈ everyFixed, q.type ≠ officeType c!"theme" ∧ q.type ≠ officeType c!"webSettings" := by decide +kernel
  refine ⟨fun h q hq => h1 q ?_, fun h q hq => h2 q ?_, fun q hq => (h3 q (fixed_every r hq)).1, fun q hq => (h3 q (fixed_every r hq)).2⟩
  · unfold DocumentRels.fixedRelations at hq ⊢
    rw [h] at hq
    simp only [Bool.false_eq_true, if_true, if_false, List.mem_append] at hq ⊢
    rcases hq with ((hx | hx) | hx) | hx
    · exact .inl (.inl (.inl hx))
    · exact .inl (.inl (.inr hx))
    · refine .inl (.inr ?_); split at hx; exacts [hx, absurd hx (by simp)]
    · refine .inr ?_; split at hx; exacts [hx, absurd hx (by simp)]
  · unfold DocumentRels.fixedRelations at hq ⊢
    rw [h] at hq
    simp only [Bool.false_eq_true, if_true, if_false, List.mem_append] at hq ⊢
    rcases hq with ((hx | hx) | hx) | hx
    · exact .inl (.inl (.inl hx))
    · refine .inl (.inl (.inr ?_)); split at hx; exacts [hx, absurd hx (by simp)]
    · exact .inl (.inr hx)
    · refine .inr ?_; split at hx; exacts [hx, absurd hx (by simp)]

theorem Got.ok_bind {α β : Type} (a : α) (f : α → Got β) : (Got.ok a).bind f = f a := rfl

theorem Got.ofSome {α : Type} (a : α) : Got.ofOption (some a) = .ok a := rfl

theorem Read.ok_got {α : Type} (a : α) (es : List REvent) : (Read.ok a es).got = .ok a := rfl

theorem reread_type {o : Option PartReference} {t : Str} (h : ∀ r, o = some r → r.type = t) (hs : seen t = t) :
    ∀ r, o.map PartReference.reread = some r → r.type = t := by
  intro r hr
  cases o with
  | none => cases hr
  | some r' =>
    cases hr
    rw [PartReference.reread, h r' rfl, hs]

set_option maxHeartbeats 2000000 in
/-- A packed file is read, part by part, if its part of styles is read as `sty` and its document part is read as one with `gd`. -/
theorem packed_file_with (e : FileEnv) {cs : List Call} {d : DocxFile} {env : Env} {w : World} {es : List Entry} (S : Sendable cs d env)
    (h : Packed env d w es) {sty : Styles}
    (hsty : ∃ s, ⟨c!"word/styles.xml", .text s⟩ ∈ es ∧ ∃ k, ∀ n, k ≤ n → readStyles e.x n s = .ok sty [.endDocument])
    {gd : Document → Prop}
    (hdoc : ∃ text, ⟨c!"word/document.xml", .text text⟩ ∈ es ∧ ∃ k, ∀ n, k ≤ n → ∃ q, readDocument e.x n text = .ok q [] ∧
      q.sectionProperty = { base := d.document.sectionProperty.base.reread } ∧ gd q)
    {good : List Comment → List CommentExtended → Prop}
    (hcom : ∃ comments records, ⟨c!"word/comments.xml", .text comments⟩ ∈ es ∧ ⟨c!"word/commentsExtended.xml", .text records⟩ ∈ es ∧
      ∃ k, ∀ n, k ≤ n → ∃ cs' rs', ((∃ c ∈ bodyComments d.document, directParagraphs c ≠ []) → readComments e.x n comments = .ok cs' [.endDocument]) ∧
        ((¬ ∃ c ∈ bodyComments d.document, directParagraphs c ≠ []) → cs' = []) ∧
        readCommentsExtended n records = .ok rs' [.endDocument] ∧ good cs' rs') :
    ∃ k, ∀ n, k ≤ n → ∃ cs' rs' q r, good cs' rs' ∧ readDocx e n es = .ok r ∧ gd q ∧
      r.file.document.children = (if (threads cs' rs').isEmpty then q.children else q.children.map (storeInChild (threads cs' rs'))) ∧
      r.file.document.sectionProperty.base = d.document.sectionProperty.base.reread ∧
      (∀ side : Side, List.Forall₂ (Option.Rel KeptPart) (Side.heads side d.document.sectionProperty) (Side.heads side r.file.document.sectionProperty)) ∧
      KeptProperties cs r.file.custom ∧ r.file.styles = sty ∧
      r.file.numberings = (if d.documentRels.hasNumberings then numberingSeen d.numberings else {}) ∧
      r.file.settings = afterSettings d.settings ∧ r.file.comments = threads cs' rs' ∧ r.themes = [] ∧ r.webSettings = [] ∧
      ∃ m rs r₀, HasRelations es c!"word/_rels/document.xml.rels" rs ∧ Finds m c!"word" rs ∧
        (∀ q ∈ rs, q.mode = none → ¬ c!"../" <+: q.target → placeOf c!"word" q = c!"word/" ++ q.target ∧ LookedUp (c!"word/" ++ q.target)) ∧
        addImages e es m r₀ = .ok { r₀ with images := r.images } := by
  -- what is in the package
  obtain ⟨ct, ct1, ct2⟩ := C34_read cs d env w es S.made h
  have ct3 := packed_readText h (step_contentTypes _ _ _) ((contentTypes_const _).opens (constText_opens _ _)) (by constructor <;> decide) ct1
  obtain ⟨ps, rels, k1, p1, p2, p3, p4⟩ := package_rels_found S.made h
  obtain ⟨m, k2, m1, r, imgs, ls, hf, n1, n2, n3, n4, hrels, hpl0, hplace⟩ := document_rels_found S.made S.links S.dependencies h
  obtain ⟨cu, cu1, k3, cu2⟩ := C60_properties e.x cs d env w es S.made S.props h S.custom
  have cu3 := packed_readText h (step_custom _ _ _) ((custom_const _ _).opens (constText_opens _ _)) (by constructor <;> decide) cu1
  obtain ⟨k4, hh⟩ := parts_found (x := e.x) S.made S.pictures S.plainly .header (S.order _) h S.ids (S.parts _) hf n2 n3 hplace
  obtain ⟨k5, hft⟩ := parts_found (x := e.x) S.made S.pictures S.plainly .footer (S.order _) h S.ids (S.parts _) hf n2 n3 hplace
  obtain ⟨dt, dt1, k6, dt2⟩ := hdoc
  have dt3 := packed_readText h (step_document _ _ _) (writePart_opens _ _) (by constructor <;> decide) dt1
  obtain ⟨st, st1, k7, st2⟩ := hsty
  have st3 := packed_readText h (step_styles _ _ _) (styles_opens _) (by constructor <;> decide) st1
  obtain ⟨nu, nu1, k8, nu2⟩ := C54_package e.x d env w es h S.numberings
  have nu3 := packed_readText h (step_numbering _ _ _) (writePart_opens _ _) (by constructor <;> decide) nu1
  obtain ⟨se, se1, k9, se2⟩ := C58_settings e.x d env w es h S.settings
  have se3 := packed_readText h (step_settings _ _ _) ((settings_const _).opens (constText_opens _ _)) (by constructor <;> decide) se1
  obtain ⟨co, ce, co1, ce1, k10, cc⟩ := hcom
  have co3 := packed_readText h (step_comments _ _ _) (writePart_opens _ _) (by constructor <;> decide) co1
  have ce3 := packed_readText h (step_commentsExtended _ _ _) ((commentsExtended_const _).opens (elem_opens _ _ _)) (by constructor <;> decide) ce1
  -- what the relationships find
  have hx : ∀ ty, ty ≠ officeRel c!"header" ∧ ty ≠ officeRel c!"footer" ∧ ty ≠ officeRel c!"customXml" ∧ ty ≠ officeRel c!"image" ∧
      ty ≠ officeRel c!"hyperlink" → ∀ q ∈ r.fixedRelations, q.type = ty → ¬ c!"../" <+: q.target →
      firstTarget m ty = some ⟨q.id, c!"word/" ++ q.target, q.mode⟩ := by
    intro ty hty q hq hqt hd
    rw [((fixed_found hf ty hty).1 q hq hqt fun q' hq' hqt' => fixed_unique r hq' hq (hqt'.trans hqt.symm)),
      (hplace q (List.mem_append_left _ hq) hd).1]
  have hno : ∀ ty, ty ≠ officeRel c!"header" ∧ ty ≠ officeRel c!"footer" ∧ ty ≠ officeRel c!"customXml" ∧ ty ≠ officeRel c!"image" ∧
      ty ≠ officeRel c!"hyperlink" → (∀ q ∈ r.fixedRelations, q.type ≠ ty) → firstTarget m ty = none ∧ (m.targets ty).getD [] = [] :=
    fun ty hty => (fixed_found hf ty hty).2
  have t1 := hx (officeType c!"styles") (by decide) _ (fixed_mem r).1 rfl (by decide)
  have t2 := hx (officeType c!"settings") (by decide) _ (fixed_mem r).2.1 rfl (by decide)
  have t3 := hx c!"http://schemas.microsoft.com/office/2011/relationships/commentsExtended" (by decide) _ (fixed_mem r).2.2.1 rfl (by decide)
  have t4 : firstTarget m (officeType c!"comments") =
      if ∃ c ∈ bodyComments d.document, directParagraphs c ≠ [] then some ⟨c!"rId6", c!"word/comments.xml", none⟩ else none := by
    by_cases hcc : ∃ c ∈ bodyComments d.document, directParagraphs c ≠ []
    · rw [decide_eq_true hcc] at n4
      rw [if_pos hcc]
      exact hx (officeType c!"comments") (by decide) _ ((fixed_mem r).2.2.2.1 n4) rfl (by decide)
    · rw [decide_eq_false hcc] at n4
      rw [if_neg hcc]
      exact (hno (officeType c!"comments") (by decide) ((fixed_without r).1 n4)).1
  have t5 : firstTarget m (officeType c!"numbering") =
      if d.documentRels.hasNumberings then some ⟨c!"rId7", c!"word/numbering.xml", none⟩ else none := by
    rw [← n1]
    cases hn : r.hasNumberings with
    | true => exact hx (officeType c!"numbering") (by decide) _ ((fixed_mem r).2.2.2.2 hn) rfl (by decide)
    | false => exact (hno (officeType c!"numbering") (by decide) ((fixed_without r).2.1 hn)).1
  have t6 := (hno (officeType c!"theme") (by decide) (fixed_without r).2.2.1).2
  have t7 := (hno (officeType c!"webSettings") (by decide) (fixed_without r).2.2.2).1
  -- reading
  refine ⟨k1 + k2 + k3 + k4 + k5 + k6 + k7 + k8 + k9 + k10, fun n hn => ?_⟩
  obtain ⟨cs', rs', c1, c2, c3, c4⟩ := cc n (by omega)
  obtain ⟨custom, cu4, cu5⟩ := cu2 n (by omega)
  obtain ⟨headers, hh1, hh2⟩ := hh n (by omega)
  obtain ⟨footers, hf1, hf2⟩ := hft n (by omega)
  obtain ⟨q, q1, hqs, q2⟩ := dt2 n (by omega)
  have hpl := S.page.2
  obtain ⟨r1, a1, a2, a3⟩ := assignParts_ok e es headers footers
    { file := { DocxFile.new with custom := custom }.setDocument q } d.document.sectionProperty.base.reread hqs
    (reread_type hpl.1 (by decide)) (reread_type hpl.2.1 (by decide)) (reread_type hpl.2.2.1 (by decide))
    (reread_type hpl.2.2.2.1 (by decide)) (reread_type hpl.2.2.2.2.1 (by decide)) (reread_type hpl.2.2.2.2.2.1 (by decide))
  have e1 : readOptional es m c!"http://schemas.microsoft.com/office/2011/relationships/commentsExtended" []
      (fun s => (readCommentsExtended n s).got) = .ok rs' := by
    unfold readOptional
    rw [t3]
    simp only [Option.bind_some]
    have : readText es (c!"word/" ++ c!"commentsExtended.xml") = some ce := ce3
    rw [this]
    simp only [c3, Read.got]
  have e2 : (readOptional es m (officeType c!"comments") [] fun s =>
      ((readComments e.x n s).got).bind fun cs => .ok (threads cs rs')) = .ok (threads cs' rs') := by
    unfold readOptional
    rw [t4]
    by_cases hcc : ∃ c ∈ bodyComments d.document, directParagraphs c ≠ []
    · rw [if_pos hcc]
      simp only [Option.bind_some, co3, c1 hcc, Read.got, Got.bind]
    · rw [if_neg hcc, c2 hcc]
      rfl
  have e3 : readCustom e.x n es rels = .ok custom := by
    unfold readCustom
    cases hfind : rels.findTarget (officeType c!"custom-properties") with
    | none => rw [hfind] at p4; cases p4
    | some y =>
      rw [hfind] at p4
      have hy : y.2.2 = c!"docProps/custom.xml" := Option.some.inj p4
      simp only [Option.bind_some, hy, cu3, cu4, Read.got, Got.orElse]
  generalize hr2 : r1.withComments (threads cs' rs') rs' = r2
  obtain ⟨imgs', hi⟩ := addImages_ok e es m { r2 with file := { r2.file with
    styles := sty
    numberings := if d.documentRels.hasNumberings then numberingSeen d.numberings else r2.file.numberings
    settings := afterSettings d.settings } }
  refine ⟨cs', rs', q, ReadFile.withLinks { r2 with file := { r2.file with styles := sty, numberings := if d.documentRels.hasNumberings then numberingSeen d.numberings else r2.file.numberings, settings := afterSettings d.settings }, images := imgs' } m, c4, ?_, q2, ?_⟩
  · unfold readDocx
    simp only [ct3, Got.ofOption, Got.ok_bind, ct2, p1, p2 n (by omega), e3, p3, m1 n (by omega)]
    unfold readDocxFrom
    have e4 : readPartsOf e.x n es m c!"header" = .ok headers := hh1
    have e5 : readPartsOf e.x n es m c!"footer" = .ok footers := hf1
    rw [e4, Got.ok_bind, e5, Got.ok_bind, t6, readThemesFrom, Got.ok_bind, e1, Got.ok_bind, e2, Got.ok_bind, dt3, Got.ofSome, Got.ok_bind, q1,
      Read.ok_got, Got.ok_bind, a1, Got.ok_bind, hr2]
    have e6 : readNeeded es m (officeType c!"styles") r2 (fun s => (readStyles e.x n s).got)
        (fun r a => { r with file := { r.file with styles := a } }) = .ok { r2 with file := { r2.file with styles := sty } } := by
      unfold readNeeded
      rw [t1]
      have : readText es (c!"word/" ++ c!"styles.xml") = some st := st3
      simp only [this, Got.ofOption, Got.ok_bind, st2 n (by omega), Read.got]
    rw [e6, Got.ok_bind]
    have e7 : readNeeded es m (officeType c!"numbering") { r2 with file := { r2.file with styles := sty } }
        (fun s => (readNumberings e.x n s).got)
        (fun r a => { r with file := { r.file with numberings := a } }) = .ok { r2 with file := { r2.file with
          styles := sty
          numberings := if d.documentRels.hasNumberings then numberingSeen d.numberings else r2.file.numberings } } := by
      unfold readNeeded
      rw [t5]
      cases d.documentRels.hasNumberings with
      | false => rfl
      | true => simp only [if_true, nu3, Got.ofOption, Got.ok_bind, nu2 n (by omega), Read.got]
    rw [e7, Got.ok_bind]
    have e8 : ∀ r : ReadFile, readNeeded es m (officeType c!"settings") r (fun s => (readSettings e.x n s).got)
        (fun r a => { r with file := { r.file with settings := a } }) = .ok { r with file := { r.file with settings := afterSettings d.settings } } := by
      intro r
      unfold readNeeded
      rw [t2]
      have : readText es (c!"word/" ++ c!"settings.xml") = some se := se3
      simp only [this, Got.ofOption, Got.ok_bind, se2 n (by omega), Read.got]
    rw [e8, Got.ok_bind]
    have e9 : ∀ r : ReadFile, readNeeded es m (officeType c!"webSettings") r (fun s => (readWebSettings e.x n s).got)
        (fun r a => { r with webSettings := a }) = .ok r := by
      intro r
      unfold readNeeded
      rw [t7]
    rw [e9, Got.ok_bind]
    rw [hi, Got.ok_bind]
  · have s1 : r1.file.document.children = q.children := congrArg (fun f : DocxFile => f.document.children) a2.file
    have s2 : r1.file.custom = custom := congrArg (fun f : DocxFile => f.custom) a2.file
    have s3 : r1.file.numberings = {} := congrArg (fun f : DocxFile => f.numberings) a2.file
    have s4 : r1.file.comments = [] := congrArg (fun f : DocxFile => f.comments) a2.file
    have s5 : r1.themes = [] := a2.themes
    have s6 : r1.webSettings = [] := a2.webSettings
    have hsec : r2.file.document.sectionProperty = r1.file.document.sectionProperty := by
      rw [← hr2]; unfold ReadFile.withComments; split <;> rfl
    have hch : r2.file.document.children =
        (if (threads cs' rs').isEmpty then q.children else q.children.map (storeInChild (threads cs' rs'))) := by
      rw [← hr2, ← s1]
      unfold ReadFile.withComments
      split <;> rfl
    have hcu : r2.file.custom = custom := by rw [← hr2, ← s2]; unfold ReadFile.withComments; split <;> rfl
    have hnu : r2.file.numberings = {} := by rw [← hr2, ← s3]; unfold ReadFile.withComments; split <;> rfl
    have hcm : r2.file.comments = threads cs' rs' := by
      rw [← hr2]
      unfold ReadFile.withComments
      split
      · rw [s4]; symm; exact List.isEmpty_iff.1 ‹_›
      · rfl
    have hth : r2.themes = [] := by rw [← hr2, ← s5]; unfold ReadFile.withComments; split <;> rfl
    have hwe : r2.webSettings = [] := by rw [← hr2, ← s6]; unfold ReadFile.withComments; split <;> rfl
    refine ⟨hch, ?_, ?_, ?_, rfl, ?_, rfl, hcm, hth, hwe, m, _, _, hrels, hf, hpl0, hi⟩
    · show r2.file.document.sectionProperty.base = _
      rw [hsec, a3]
    · intro side
      show List.Forall₂ _ _ (Side.heads side r2.file.document.sectionProperty)
      rw [hsec, a3, parts_assigned]
      refine slots_read S.made S.plainly (S.order side) ?_
      cases side
      · exact hh2
      · exact hf2
    · show KeptProperties cs r2.file.custom
      rw [hcu]
      exact cu5
    · show (if d.documentRels.hasNumberings then numberingSeen d.numberings else r2.file.numberings) = _
      rw [hnu]

/-- A packed file without tables of contents is read, part by part, if its document part is read as one with `gd`. -/
theorem packed_file_of (e : FileEnv) {cs : List Call} {d : DocxFile} {env : Env} {w : World} {es : List Entry} (S : Sendable cs d env)
    (h : Packed env d w es) (ht : ∀ c ∈ d.document.children, ∀ t, c ≠ .toc t)
    {gd : Document → Prop}
    (hdoc : ∃ text, ⟨c!"word/document.xml", .text text⟩ ∈ es ∧ ∃ k, ∀ n, k ≤ n → ∃ q, readDocument e.x n text = .ok q [] ∧
      q.sectionProperty = { base := d.document.sectionProperty.base.reread } ∧ gd q)
    {good : List Comment → List CommentExtended → Prop}
    (hcom : ∃ comments records, ⟨c!"word/comments.xml", .text comments⟩ ∈ es ∧ ⟨c!"word/commentsExtended.xml", .text records⟩ ∈ es ∧
      ∃ k, ∀ n, k ≤ n → ∃ cs' rs', ((∃ c ∈ bodyComments d.document, directParagraphs c ≠ []) → readComments e.x n comments = .ok cs' [.endDocument]) ∧
        ((¬ ∃ c ∈ bodyComments d.document, directParagraphs c ≠ []) → cs' = []) ∧
        readCommentsExtended n records = .ok rs' [.endDocument] ∧ good cs' rs') :
    ∃ k, ∀ n, k ≤ n → ∃ cs' rs' q r, good cs' rs' ∧ readDocx e n es = .ok r ∧ gd q ∧
      r.file.document.children = (if (threads cs' rs').isEmpty then q.children else q.children.map (storeInChild (threads cs' rs'))) ∧
      r.file.document.sectionProperty.base = d.document.sectionProperty.base.reread ∧
      (∀ side : Side, List.Forall₂ (Option.Rel KeptPart) (Side.heads side d.document.sectionProperty) (Side.heads side r.file.document.sectionProperty)) ∧
      KeptProperties cs r.file.custom ∧ r.file.styles = stylesSeen d.styles ∧
      r.file.numberings = (if d.documentRels.hasNumberings then numberingSeen d.numberings else {}) ∧
      r.file.settings = afterSettings d.settings ∧ r.file.comments = threads cs' rs' ∧ r.themes = [] ∧ r.webSettings = [] ∧
      ∃ m rs r₀, HasRelations es c!"word/_rels/document.xml.rels" rs ∧ Finds m c!"word" rs ∧
        (∀ q ∈ rs, q.mode = none → ¬ c!"../" <+: q.target → placeOf c!"word" q = c!"word/" ++ q.target ∧ LookedUp (c!"word/" ++ q.target)) ∧
        addImages e es m r₀ = .ok { r₀ with images := r.images } :=
  packed_file_with e S h (C55_package e.x d env w es h ht S.styles) hdoc hcom

/-- A packed file is read, part by part. -/
theorem packed_file (e : FileEnv) {cs : List Call} {d : DocxFile} {env : Env} {w : World} {es : List Entry} (S : Sendable cs d env)
    (h : Packed env d w es) (ht : ∀ c ∈ d.document.children, ∀ t, c ≠ .toc t) (hs : AllS d.document.strings) (hr : d.document.Readable)
    {good : List Comment → List CommentExtended → Prop}
    (hcom : ∃ comments records, ⟨c!"word/comments.xml", .text comments⟩ ∈ es ∧ ⟨c!"word/commentsExtended.xml", .text records⟩ ∈ es ∧
      ∃ k, ∀ n, k ≤ n → ∃ cs' rs', ((∃ c ∈ bodyComments d.document, directParagraphs c ≠ []) → readComments e.x n comments = .ok cs' [.endDocument]) ∧
        ((¬ ∃ c ∈ bodyComments d.document, directParagraphs c ≠ []) → cs' = []) ∧
        readCommentsExtended n records = .ok rs' [.endDocument] ∧ good cs' rs') :
    ∃ k, ∀ n, k ≤ n → ∃ cs' rs' q r, good cs' rs' ∧ readDocx e n es = .ok r ∧ bareDocument q = bareDocument (d.document.reread e.x) ∧
      r.file.document.children = (if (threads cs' rs').isEmpty then q.children else q.children.map (storeInChild (threads cs' rs'))) ∧
      r.file.document.sectionProperty.base = d.document.sectionProperty.base.reread ∧
      (∀ side : Side, List.Forall₂ (Option.Rel KeptPart) (Side.heads side d.document.sectionProperty) (Side.heads side r.file.document.sectionProperty)) ∧
      KeptProperties cs r.file.custom ∧ r.file.styles = stylesSeen d.styles ∧
      r.file.numberings = (if d.documentRels.hasNumberings then numberingSeen d.numberings else {}) ∧
      r.file.settings = afterSettings d.settings ∧ r.file.comments = threads cs' rs' ∧ r.themes = [] ∧ r.webSettings = [] ∧
      q = (d.preparePackage env w).1.document.reread e.x ∧ (d.preparePackage env w).1.document.Readable ∧
      ∃ m rs r₀, HasRelations es c!"word/_rels/document.xml.rels" rs ∧ Finds m c!"word" rs ∧
        (∀ q ∈ rs, q.mode = none → ¬ c!"../" <+: q.target → placeOf c!"word" q = c!"word/" ++ q.target ∧ LookedUp (c!"word/" ++ q.target)) ∧
        addImages e es m r₀ = .ok { r₀ with images := r.images } := by
  have hnt : autoTocIndexes 0 d.document.children = [] := by
    refine List.eq_nil_iff_forall_not_mem.2 fun i hi => ?_
    rw [autoTocIndexes_mem] at hi
    obtain ⟨_, t, ht', _⟩ := hi
    exact ht _ (List.mem_of_getElem? ht') t rfl
  obtain ⟨dt, dt1, k6, dt2⟩ := packed_document (x := e.x) h S.ids hnt hs hr
  obtain ⟨k, hk⟩ := packed_file_of e S h ht (gd := fun q => bareDocument q = bareDocument (d.document.reread e.x) ∧
    q = (d.preparePackage env w).1.document.reread e.x ∧ (d.preparePackage env w).1.document.Readable)
    ⟨dt, dt1, k6, fun n hn => by
      obtain ⟨q, q1, q2, q3, q4⟩ := dt2 n hn
      refine ⟨q, q1, sectionProperty_bare ?_, q2, q3, q4⟩
      have := congrArg Document.sectionProperty q2
      exact this⟩ hcom
  refine ⟨k, fun n hn => ?_⟩
  obtain ⟨cs', rs', q, r, h1, h2, ⟨g1, g2, g3⟩, h3, h4, h5, h6, h7, h8, h9, h10, h11, h12, h13⟩ := hk n hn
  exact ⟨cs', rs', q, r, h1, h2, g1, h3, h4, h5, h6, h7, h8, h9, h10, h11, h12, g2, g3, h13⟩

end Docx
