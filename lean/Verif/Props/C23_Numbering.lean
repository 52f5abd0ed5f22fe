import Verif.Lemmas.NumberedCalls
import Verif.Lemmas.Witness
import Verif.Props.C18_C22_Relations

/-!
# C23: the numbering part is related to the document when numbering is used
-/

namespace Docx.Props

open Docx Docx.Spec Docx.Xml

theorem packed_nodup {env : Env} {d : DocxFile} {w : World} {es : List Entry} (h : Packed env d w es) : (es.map Entry.name).Nodup := by
  rcases h with ⟨w', h⟩ | ⟨w', h⟩
  · exact C17_pack env d w w' es h
  · exact C17_build_pack env d w w' es h

theorem entry_unique {es : List Entry} (h : (es.map Entry.name).Nodup) {n : Str} {a b : Content} (ha : ⟨n, a⟩ ∈ es) (hb : ⟨n, b⟩ ∈ es) : a = b := by
  have := List.inj_on_of_nodup_map h ha hb rfl
  cases this
  rfl

theorem relations_unique {env : Env} {d : DocxFile} {w : World} {es : List Entry} (h : Packed env d w es) {n : Str} {a b : List Relation}
    (ha : HasRelations es n a) (hb : HasRelations es n b) : a = b := by
  obtain ⟨s, hs, rfl⟩ := ha
  obtain ⟨t, ht, rfl⟩ := hb
  have := entry_unique (packed_nodup h) hs ht
  cases this
  rfl

private theorem numberingRel : officeRel c!"numbering" = c!"http://schemas.openxmlformats.org/officeDocument/2006/relationships/numbering" := by decide

/-- The numbering part is related if and only if the flag is set. -/
theorem numbering_related_iff {d : DocxFile} {env : Env} {w : World} {es : List Entry}
    (hs : Sound d) (hp : ∀ l, (env.links l).Perm l) (hm : Nameable d.document) (h : Packed env d w es) :
    NumberingRelated es ↔ d.documentRels.hasNumberings = true := by
  obtain ⟨r, imgs, ls, r1, _, r3, _⟩ := packed_relations hs hp hm h
  rw [← r3]
  constructor
  · rintro ⟨rs, h1, x, hx, ht, _⟩
    rw [relations_unique h h1 r1] at hx
    by_contra hn
    rw [Bool.not_eq_true] at hn
    have key : ∀ t ∈ [officeRel c!"styles", officeRel c!"fontTable", officeRel c!"settings",
        c!"http://schemas.microsoft.com/office/2011/relationships/commentsExtended", officeRel c!"comments", officeRel c!"footnotes",
        officeRel c!"header", officeRel c!"footer", officeRel c!"customXml", officeRel c!"image", officeRel c!"hyperlink"],
        t ≠ c!"http://schemas.openxmlformats.org/officeDocument/2006/relationships/numbering" := by decide
    refine key x.type ?_ ht
    rcases List.mem_append.1 hx with hx | hx
    · rcases List.mem_append.1 hx with hx | hx
      · rcases List.mem_append.1 hx with hx | hx
        · rw [DocumentRels.fixedRelations, hn] at hx
          revert hx
          cases r.hasComments <;> cases r.hasFootnotes <;>
            · simp only [Bool.false_eq_true, if_true, if_false, List.append_nil, List.cons_append, List.nil_append, List.mem_cons, List.not_mem_nil, or_false]
              rintro hx
              rcases hx with e | hx
              · rw [e]; exact .inl rfl
              rcases hx with e | hx
              · rw [e]; exact .inr (.inl rfl)
              rcases hx with e | hx
              · rw [e]; exact .inr (.inr (.inl rfl))
              rcases hx with hx
              first
              | (rw [hx]; exact .inr (.inr (.inr (.inl rfl))))
              | (rcases hx with e | hx
                 · rw [e]; exact .inr (.inr (.inr (.inl rfl)))
                 · first
                   | (rw [hx]; exact .inr (.inr (.inr (.inr (.inl rfl)))))
                   | (rw [hx]; exact .inr (.inr (.inr (.inr (.inr (.inl rfl))))))
                   | (rcases hx with e | e
                      · rw [e]; exact .inr (.inr (.inr (.inr (.inl rfl))))
                      · rw [e]; exact .inr (.inr (.inr (.inr (.inr (.inl rfl)))))))
        · simp only [DocumentRels.partRelations, List.mem_append, List.mem_map] at hx
          rcases hx with (⟨_, _, rfl⟩ | ⟨_, _, rfl⟩) | ⟨_, _, rfl⟩ <;> simp [numberedRelation]
      · obtain ⟨_, _, rfl⟩ := List.mem_map.1 hx
        simp [imageRelation]
    · obtain ⟨_, _, rfl⟩ := List.mem_map.1 hx
      simp [linkRelation]
  · intro hn
    refine ⟨_, r1, ⟨c!"rId7", officeRel c!"numbering", c!"numbering.xml", none⟩, ?_, numberingRel, rfl⟩
    refine List.mem_append_left _ (List.mem_append_left _ (List.mem_append_left _ ?_))
    rw [DocumentRels.fixedRelations, hn]
    exact List.mem_append_left _ (List.mem_append_right _ (List.mem_singleton.2 rfl))

/-- **C23.** If content is made with the methods of its type and given to the builder, and a paragraph of the body, a header or a footer
uses numbering, the main document relates the numbering part, and the part is there. Not covered: rows that bring numbering into a table
after it was made, content controls in cells, tables of contents, content inside paragraphs, and a body replaced as a whole. -/
theorem C23_related_partial (cs : List Call) (d : DocxFile) (env : Env) (w : World) (es : List Entry)
    (hc : DocxFile.new.calls cs = some d) (hp : ∀ l, (env.links l).Perm l) (hm : Made d.document) (hcs : ∀ c ∈ cs, MadeCall c)
    (h : Packed env d w es) (hu : CarriesNumbering d.document) : NumberingRelated es ∧ HasFile es c!"word/numbering.xml" := by
  constructor
  · rw [numbering_related_iff (calls_sound hc) hp hm.nameable h]
    refine (calls_noted cs _ d hc hcs new_noted).document fun e => ?_
    obtain ⟨x, hx, h1, h2⟩ := hu
    have : () ∈ pick numberedAt (walkDocument d.document) := by
      refine List.mem_flatMap.2 ⟨x, hx, ?_⟩
      unfold numberedAt
      rw [h1, h2]
      exact List.mem_singleton.2 rfl
    rw [e] at this
    cases this
  · obtain ⟨s, _, _, _, h2⟩ := fits_write (packed_fits h) (step_numbering env _ _)
    exact ⟨_, h2, by simp⟩

private theorem noneMade {d : Document} (p : partPictures (walkDocument d) = []) (l : bodyLinks d = []) : Made d :=
  ⟨fun x hx => (by rw [p] at hx; cases hx), fun x hx => (by rw [l] at hx; cases hx)⟩

/-! ## Examples -/

private def item : Paragraph := ((Paragraph.new c!"p").addRun (aRun c!"x")).numbering 2 0

private theorem item_made : MadeParagraph item := .numbering _ _ _ (.children _ _ (.new _))

/-- A table in a cell of a table in a header holds the only numbered paragraph. -/
private def innerTable : Table := Table.new [Row.new [({} : Cell).addParagraph item]]
private def outerTable : Table := Table.new [Row.new [{}, ({} : Cell).addTable innerTable]]
private def nestedCalls : List Call :=
  [.addParagraph (aParagraph c!"x"), .addSection (({} : Section).setFirstFooter (({} : Header).addTable outerTable))]

private theorem nested_pack : packs (fun d _ => decide (partPictures (walkDocument d.document) = [] ∧ bodyLinks d.document = []) &&
    (walkDocument d.document).any fun x => x.2.numbered && carried x.1) nestedCalls = true := by decide +kernel

example : (∀ c ∈ nestedCalls, MadeCall c) ∧ ∃ d es, DocxFile.new.calls nestedCalls = some d ∧ Made d.document ∧ Packed anEnv d {} es ∧
    CarriesNumbering d.document := by
  constructor
  · intro c hc
    simp only [nestedCalls, List.mem_cons, List.not_mem_nil, or_false] at hc
    rcases hc with rfl | rfl
    · exact .children _ _ (.new _)
    · refine .setFirstFooter _ _ .new (.addTable _ _ .new (.new _ fun r hr => ?_))
      rw [List.mem_singleton.1 hr]
      refine .new _ fun c hc => ?_
      rcases List.mem_cons.1 hc with rfl | hc
      · exact .new
      · rw [List.mem_singleton.1 hc]
        refine .addTable _ _ .new (.new _ fun r hr => ?_)
        rw [List.mem_singleton.1 hr]
        refine .new _ fun c hc => ?_
        rw [List.mem_singleton.1 hc]
        exact .addParagraph _ _ .new item_made
  · obtain ⟨d, es, h1, h2, h3⟩ := packs_spec nested_pack
    rw [Bool.and_eq_true, decide_eq_true_eq] at h3
    obtain ⟨x, hx, e⟩ := List.any_eq_true.1 h3.2
    rw [Bool.and_eq_true] at e
    exact ⟨d, es, h1, noneMade h3.1.1 h3.1.2, h2, x, hx, e⟩

/-! ## Where the full property fails -/

/-- A numbered paragraph in a row added to an empty table, in a content control in a cell, and in a body given as a whole. -/
private def rowCalls : List Call := [.addTable ((Table.new []).addRow (Row.new [({} : Cell).addParagraph item]))]
private def sdtCalls : List Call := [.addTable (Table.new [Row.new [({} : Cell).addSdt (({} : Sdt).addParagraph item)]])]
private def bodyCalls : List Call := [.document (({} : Document).addParagraph item)]

private def unrelated (d : DocxFile) (_ : List Str) : Bool :=
  decide (partPictures (walkDocument d.document) = [] ∧ bodyLinks d.document = [] ∧ d.documentRels.hasNumberings = false) &&
    (walkDocument d.document).any fun x => x.2.numbered

private theorem fails_of {cs : List Call} (hp : packs unrelated cs = true) :
    ∃ d env w es, DocxFile.new.calls cs = some d ∧ (∀ l, (env.links l).Perm l) ∧ Made d.document ∧ Packed env d w es ∧
      UsesNumbering d.document ∧ ¬ NumberingRelated es := by
  obtain ⟨d, es, h1, h2, h3⟩ := packs_spec hp
  rw [unrelated, Bool.and_eq_true, decide_eq_true_eq] at h3
  obtain ⟨x, hx, e⟩ := List.any_eq_true.1 h3.2
  have hm : Made d.document := noneMade h3.1.1 h3.1.2.1
  refine ⟨d, anEnv, {}, es, h1, anEnv_links, hm, h2, ⟨x, hx, e⟩, ?_⟩
  rw [numbering_related_iff (calls_sound h1) anEnv_links hm.nameable h2, h3.1.2.2]
  exact Bool.false_ne_true

/-- **C23 fails** for a row added to a table that exists. -/
theorem C23_fails_row : ∃ t r, MadeTable t ∧ MadeRow r ∧ ∃ d env w es, DocxFile.new.calls [.addTable (t.addRow r)] = some d ∧
    (∀ l, (env.links l).Perm l) ∧ Made d.document ∧ Packed env d w es ∧ UsesNumbering d.document ∧ ¬ NumberingRelated es :=
  ⟨Table.new [], Row.new [({} : Cell).addParagraph item], .new _ (fun _ h => by cases h), .new _ (fun c hc => by
      rw [List.mem_singleton.1 hc]
      exact .addParagraph _ _ .new item_made), fails_of (cs := rowCalls) (by decide +kernel)⟩

/-- **C23 fails** for a content control in a cell, although everything is made with the methods of its type. -/
theorem C23_fails_cell : ∃ t s, MadeTable t ∧ MadeSdt s ∧ t = Table.new [Row.new [({} : Cell).addSdt s]] ∧
    ∃ d env w es, DocxFile.new.calls [.addTable t] = some d ∧
    (∀ l, (env.links l).Perm l) ∧ Made d.document ∧ Packed env d w es ∧ UsesNumbering d.document ∧ ¬ NumberingRelated es :=
  ⟨_, ({} : Sdt).addParagraph item, .new _ (fun r hr => by
      rw [List.mem_singleton.1 hr]
      exact .new _ fun c hc => by
        rw [List.mem_singleton.1 hc]
        exact .addSdt _ _ .new), .addParagraph _ _ .new item_made, rfl, fails_of (cs := sdtCalls) (by decide +kernel)⟩

/-- **C23 fails** for a body given as a whole. -/
theorem C23_fails_document : ∃ p, MadeParagraph p ∧ ∃ d env w es, DocxFile.new.calls [.document (({} : Document).addParagraph p)] = some d ∧
    (∀ l, (env.links l).Perm l) ∧ Made d.document ∧ Packed env d w es ∧ UsesNumbering d.document ∧ ¬ NumberingRelated es :=
  ⟨item, item_made, fails_of (cs := bodyCalls) (by decide +kernel)⟩

end Docx.Props
