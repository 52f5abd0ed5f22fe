import Verif.Lemmas.ReadDocument
import Verif.Spec.Spread

/-!
# Reading back the sections of a document
-/

namespace Docx

open Docx.Xml Docx.Spec

variable {x : ReadEnv}

theorem SectionChild.nodes_spread (c : SectionChild) : c.nodes = c.spread.nodes := by
  cases c <;> rfl

theorem eachN_spread : ∀ cs : List SectionChild, eachN SectionChild.nodes cs = eachN DocumentChild.nodes (cs.map SectionChild.spread)
  | [] => rfl
  | c :: cs => by
    rw [List.map_cons, eachN, eachN, eachN_spread cs, c.nodes_spread]

/-- What is read for the paragraph at the end of a section. -/
theorem returns_sectionEnd (b : SectionBase) (hb : b.Readable) {id : Str} (hi : (decodeAttr id).isSome) :
    Returns x (fun R => readParagraph x R (expectAttrs [(c!"w14:paraId", id)])) c!"w:p" [.elem c!"w:pPr" [] b.nodes]
      (sectionEnd (seen id) b.reread) := by
  have h1 := takes_sectPr (x := x) (some b) (fun s e => by cases e; exact hb)
  have h2 : TakesF x (paragraphPropertyLoop x) {} b.nodes { base := { sectionProperty := some b.reread } } := h1 {} b.nodes {} rfl {}
  have h3 : Returns x (readParagraphProperty x) c!"w:pPr" b.nodes { base := { sectionProperty := some b.reread } } := by
    refine Returns.loop h2 (n := c!"w:pPr") (fun _ => ?_)
    simp [-String.reduceToList, paragraphPropertyLoop, closesAt]
  have key : TakesF x (paragraphLoop x) { id := seen id } [.elem c!"w:pPr" [] b.nodes] (sectionEnd (seen id) b.reread) := by
    refine TakesF.child ((h3.caught (g := fun pr es => match pr with
        | some pr => .ok { ({ id := seen id } : Paragraph) with property := pr, hasNumbering := pr.base.numberingProperty.isSome } es
        | none => .ok { id := seen id } es) (fun es => rfl)).congr (fun _ es hd => ?_) |>.mono ?_)
    · simp [-String.reduceToList, paragraphLoop]
      rfl
    · rfl
  refine ((Returns.loop key (n := c!"w:p") (fun _ => ?_)).congr (fun _ es hd => ?_))
  · simp [-String.reduceToList, paragraphLoop, closesAt]
  · simp [-String.reduceToList, String.toList_inj, readParagraph, expectAttrs_cons hi, expectAttrs_nil, attrNamed_cons]

/-- The paragraph at the end of a section, read as any other paragraph. -/
theorem sectionEnd_reread (id : Str) (b : SectionBase) : (sectionEnd id b).reread = sectionEnd (seen id) b.reread := by
  have h0 : RunProperty.reread {} = {} := rfl
  simp only [sectionEnd, Paragraph.reread, ParagraphProperty.reread, rereadChange, ParagraphBase.reread, h0]
  rfl

theorem takes_spread (c : DocumentChild) (h : ∀ k ∈ c.spreadAs [], k.Readable) {g g' : Gen} {f : List Node} (e : c.nodes g = some (f, g')) :
    ∃ id, Stored id ∧ ∀ d, TakesF x (documentLoop x) d f (d.addAll ((c.spreadAs id).flatMap (DocumentChild.reread x))) := by
  by_cases hc : ∃ s, c = .section s
  · obtain ⟨s, rfl⟩ := hc
    obtain ⟨i, hi⟩ : ∃ i, i = (generateParaId g.para).1 := ⟨_, rfl⟩
    have hst : Stored i := hi ▸ paraId_stored _
    refine ⟨i, hst, fun d => ?_⟩
    simp only [DocumentChild.nodes, Section.nodes, withParaIdN, eachN_spread] at e
    rw [← hi] at e
    have h1 : TakesN x (documentLoop x) (eachN DocumentChild.nodes (s.children.map SectionChild.spread))
        (fun d => d.addAll ((s.children.map SectionChild.spread).flatMap (DocumentChild.reread x))) :=
      .flatMap Document.addAll_nil (fun s l l' => by simp [Document.addAll, Bool.or_assoc]) fun c hc =>
        takes_documentChild c (h c (List.mem_append_left _ hc))
    have hp : DocumentChild.Readable (.paragraph (sectionEnd [] s.property.base)) := h _ (by simp [DocumentChild.spreadAs])
    have hb : s.property.base.Readable := by
      have h2 : ParagraphProperty.Readable ⟨{ sectionProperty := some s.property.base }, none⟩ := hp.2.1
      rw [ParagraphProperty.Readable] at h2
      exact h2.1.2.2.2.2.2.2 _ rfl
    have h2 : TakesN x (documentLoop x) (emitN [.elem c!"w:p" [(c!"w14:paraId", i)] [.elem c!"w:pPr" [] s.property.base.nodes]])
        (fun d => d.addAll [.paragraph (sectionEnd (seen i) s.property.base.reread)]) := by
      refine .emit fun d => ?_
      refine TakesF.child (((returns_sectionEnd _ hb (hst.2.1)).map d.addParagraph).congr (fun _ es hd => ?_) |>.mono ?_)
      · simp [-String.reduceToList, documentLoop]
      · simp [Document.addAll, Document.addParagraph, DocumentChild.numbered]
    have := (h1.cat_cons (h2.cat_cons .cat_nil)) _ _ _ e d
    simpa [Document.addAll, DocumentChild.spreadAs, DocumentChild.reread, sectionEnd_reread, Bool.or_assoc] using this
  · have hs : ∀ id, c.spreadAs id = [c] := by
      intro id
      cases c <;> first | rfl | exact absurd ⟨_, rfl⟩ hc
    refine ⟨c!"0", by decide, fun d => ?_⟩
    rw [hs, List.flatMap_cons, List.flatMap_nil, List.append_nil]
    exact takes_documentChild c (h c (by rw [hs]; exact List.mem_singleton.2 rfl)) _ _ _ e d

theorem takes_spreadAll : ∀ (cs : List DocumentChild) (_ : ∀ k ∈ spreadAll [] cs, k.Readable) {g g' : Gen} {f : List Node}
    (_ : eachN DocumentChild.nodes cs g = some (f, g')), ∃ ids, (∀ i ∈ ids, Stored i) ∧
      ∀ d, TakesF x (documentLoop x) d f (d.addAll ((spreadAll ids cs).flatMap (DocumentChild.reread x)))
  | [], _, g, g', f, e => by
    simp only [eachN, emitN, Option.some.injEq, Prod.mk.injEq] at e
    obtain ⟨rfl, rfl⟩ := e
    refine ⟨[], fun _ h => (by cases h), fun d => ?_⟩
    show TakesF x (documentLoop x) d [] (d.addAll [])
    rw [Document.addAll_nil]
    exact .nil _
  | c :: cs, h, g, g', f, e => by
    obtain ⟨f1, g1, f2, e1, e2, rfl⟩ := thenN_eq e
    rw [spreadAll] at h
    obtain ⟨i, hi, h1⟩ := takes_spread (x := x) c (fun k hk => h k (List.mem_append_left _ hk)) e1
    obtain ⟨ids, hids, h2⟩ := takes_spreadAll cs (fun k hk => h k (List.mem_append_right _ hk)) e2
    refine ⟨i :: ids, fun j hj => ?_, fun d => ?_⟩
    · rcases List.mem_cons.1 hj with rfl | hj
      · exact hi
      · exact hids j hj
    · have := (h1 d).append (h2 _)
      simpa [spreadAll, Document.addAll, Bool.or_assoc] using this

theorem takes_document_spread (d : Document) (h : (d.spread []).Readable) {g g' : Gen} {f : List Node} (e : d.nodes g = some (f, g')) :
    ∃ ids, (∀ i ∈ ids, Stored i) ∧ TakesF x (documentLoop x) {} f ((d.spread ids).reread x) := by
  obtain ⟨body, hb, rfl⟩ := elemN_eq e
  obtain ⟨body, hb', rfl⟩ := elemN_eq hb
  obtain ⟨f1, g1, f2, e1, e2, rfl⟩ := thenN_eq hb'
  obtain ⟨ids, hids, h1⟩ := takes_spreadAll (x := x) d.children h.1 e1
  refine ⟨ids, hids, document_wrap (by simp) (document_wrap (by simp) ?_)⟩
  have h2 := ((takes_bodySectPr (x := x) d.sectionProperty.base h.2).cat_cons .cat_nil) _ _ _ e2
  have := (h1 {}).append (h2 _)
  simpa [Document.addAll, Document.reread, Document.spread] using this

/-- The document part, written, reads as the document with its sections spread out. -/
theorem reads_document_spread (d : Document) (hs : AllS d.strings) (h : (d.spread []).Readable) {sa : Option Bool} {g g' : Gen} {out : Str}
    (e : writePart sa d.build g = some (.ok out, g')) :
    ∃ ids, (∀ i ∈ ids, Stored i) ∧ ∃ k, ∀ n, k ≤ n → readDocument x n out = .ok ((d.spread ids).reread x) [] := by
  rw [← Document_build_flat] at e
  obtain ⟨f, hf, _, hr⟩ := writePart_reads (d.ok hs) e
  have hend : ∀ q, Runs x (documentLoop x) q (expect [] none []) (.ok q []) := by
    refine fun q => ⟨1, fun _ _ n hn => ?_⟩
    obtain ⟨n, rfl⟩ : ∃ m, n = m + 1 := ⟨n - 1, by omega⟩
    rfl
  obtain ⟨ids, hids, ht⟩ := takes_document_spread (x := x) d h hf
  obtain ⟨k, hk⟩ := ht [] [] _ (hend _)
  rw [List.append_nil] at hk
  exact ⟨ids, hids, k, fun n hn => by rw [readDocument, hr]; exact hk n hn n hn⟩

end Docx
