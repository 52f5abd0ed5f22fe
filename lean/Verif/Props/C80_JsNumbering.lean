import Verif.Spec.JsNumbered
import Verif.Props.C79_JsLinks
import Verif.Props.C23_Numbering

/-!
# C80: numbering used in JavaScript
-/

namespace Docx.Props

open Docx Docx.Xml Docx.Spec

variable (lib : ImageLib)

theorem jsContentNumbered_append : ∀ (a b : List JsCellChild), jsContentNumbered (a ++ b) = (jsContentNumbered a || jsContentNumbered b)
  | [], b => by simp [jsContentNumbered]
  | .paragraph p :: a, b => by simp only [List.cons_append, jsContentNumbered, jsContentNumbered_append a b, Bool.or_assoc]
  | .table p :: a, b => by simp only [List.cons_append, jsContentNumbered, jsContentNumbered_append a b, Bool.or_assoc]
  | .toc p :: a, b => by simp only [List.cons_append, jsContentNumbered, jsContentNumbered_append a b]

theorem jsCellsNumbered_append : ∀ (a b : List JsCell), jsCellsNumbered (a ++ b) = (jsCellsNumbered a || jsCellsNumbered b)
  | [], b => by simp [jsCellsNumbered]
  | ⟨_, _, _⟩ :: a, b => by simp only [List.cons_append, jsCellsNumbered, jsCellsNumbered_append a b, Bool.or_assoc]

theorem jsRowsNumbered_append : ∀ (a b : List JsRow), jsRowsNumbered (a ++ b) = (jsRowsNumbered a || jsRowsNumbered b)
  | [], b => by simp [jsRowsNumbered]
  | ⟨_, _, _⟩ :: a, b => by simp only [List.cons_append, jsRowsNumbered, jsRowsNumbered_append a b, Bool.or_assoc]

theorem madeJs_paragraph {p : JsParagraph} (h : MadeJsParagraph p) : p.hasNumberings = jsParagraphNumbered p := by
  induction h with
  | new => rfl
  | add p c _ ih => obtain ⟨cs, q, f⟩ := p; exact ih
  | call p c _ ih =>
    obtain ⟨cs, q, f⟩ := p
    cases c with
    | numbering i l => rfl
    | _ => exact ih

mutual

theorem madeJs_table : ∀ {t : JsTable}, MadeJsTable t → t.hasNumberings = jsTableNumbered t
  | _, .new => rfl
  | _, .addRow t r ht hr => by
    have h1 := madeJs_table ht
    have h2 := madeJs_row hr
    obtain ⟨rs, g, p, f⟩ := t
    obtain ⟨cs, q, f'⟩ := r
    simp only [jsTableNumbered] at h1 h2
    simp only [JsTable.addRow, jsTableNumbered, jsRowsNumbered_append, jsRowsNumbered, Bool.or_false, h1, h2]
  | _, .call t c ht => by
    have h1 := madeJs_table ht
    obtain ⟨rs, g, p, f⟩ := t
    simp only [jsTableNumbered] at h1
    cases c <;> simp only [JsTable.call, jsTableNumbered, h1]

theorem madeJs_row : ∀ {r : JsRow}, MadeJsRow r → r.hasNumberings = jsCellsNumbered r.cells
  | _, .new => rfl
  | _, .addCell r c hr hc => by
    have h1 := madeJs_row hr
    have h2 := madeJs_cell hc
    obtain ⟨cs, q, f'⟩ := r
    obtain ⟨xs, p, f⟩ := c
    simp only at h1 h2
    simp only [JsRow.addCell, jsCellsNumbered_append, jsCellsNumbered, Bool.or_false, h1, h2]
  | _, .call r c hr => by
    have h1 := madeJs_row hr
    obtain ⟨cs, q, f'⟩ := r
    simp only at h1
    cases c <;> simp only [JsRow.call, h1]

theorem madeJs_cell : ∀ {c : JsCell}, MadeJsCell c → c.hasNumberings = jsContentNumbered c.children
  | _, .new => rfl
  | _, .addParagraph c p hc hp => by
    have h1 := madeJs_cell hc
    have h2 := madeJs_paragraph hp
    obtain ⟨xs, q, f⟩ := c
    simp only at h1
    simp only [JsCell.add, JsCellChild.flagged, jsContentNumbered_append, jsContentNumbered, Bool.or_false, h1, h2]
  | _, .addTable c t hc ht => by
    have h1 := madeJs_cell hc
    have h2 := madeJs_table ht
    obtain ⟨xs, q, f⟩ := c
    simp only at h1
    simp only [JsCell.add, JsCellChild.flagged, jsContentNumbered_append, jsContentNumbered, Bool.or_false, h1, h2]
  | _, .addToc c t hc => by
    have h1 := madeJs_cell hc
    obtain ⟨xs, q, f⟩ := c
    simp only at h1
    simp only [JsCell.add, JsCellChild.flagged, jsContentNumbered_append, jsContentNumbered, Bool.or_false, h1]
  | _, .call c x hc => by
    have h1 := madeJs_cell hc
    obtain ⟨xs, q, f⟩ := c
    simp only at h1
    cases x <;> simp only [JsCell.call, h1]

end

theorem jsNumbered_add (d : JsDocx) (c : JsChild) : jsNumbered (d.add c) = (jsNumbered d || jsChildNumbered c) := by
  simp [jsNumbered, JsDocx.add]

theorem madeJs_docx {d : JsDocx} (h : MadeJsDocx d) : d.hasNumberings = jsNumbered d := by
  induction h with
  | new => rfl
  | addParagraph d p _ hp ih => rw [jsNumbered_add, ← ih, jsChildNumbered, ← madeJs_paragraph hp]; rfl
  | addTable d t _ ht ih => rw [jsNumbered_add, ← ih, jsChildNumbered, ← madeJs_table ht]; rfl
  | addBookmarkStart d i s _ ih => rw [jsNumbered_add, ← ih]; rfl
  | addBookmarkEnd d i _ ih => rw [jsNumbered_add, ← ih]; rfl
  | addToc d t _ ih => rw [jsNumbered_add, ← ih]; rfl

theorem jsChildren_flag : ∀ (cs : List JsParagraphChild) (p : Paragraph) (n : Ids), (jsChildren lib p cs n).1.hasNumbering = p.hasNumbering
  | [], p, n => by rw [jsChildren]
  | c :: cs, p, n => by rw [jsChildren, jsChildren_flag cs]; rfl

theorem jsParagraph_flag (p : JsParagraph) (n : Ids) : (jsParagraph lib p n).1.hasNumbering = false := by
  obtain ⟨cs, pr, h⟩ := p
  rw [jsParagraph]
  simp only [Paragraph.format, jsChildren_flag]
  rfl

theorem jsItems_flag : ∀ (cs : List JsChild) (d : DocxFile) (n : Ids), (jsItems lib d cs n).1.documentRels.hasNumberings = d.documentRels.hasNumberings
  | [], d, n => by rw [jsItems]
  | c :: cs, d, n => by
    rw [jsItems, jsItems_flag cs]
    cases c with
    | paragraph p =>
      simp only [JsChild.build, DocxFile.addParagraph, DocxFile.noteNumbering, jsParagraph_flag, Bool.or_false]
    | _ => rfl

theorem js_flag (d : JsDocx) (n : Ids) : (d.build lib n).1.documentRels.hasNumberings = d.hasNumberings := by
  have : (d.build lib n).1.documentRels.hasNumberings =
      ((jsItems lib DocxFile.new d.children n).1.documentRels.hasNumberings || d.hasNumberings) := by
    unfold JsDocx.build DocxFile.noteNumbering; rfl
  rw [this, jsItems_flag]
  exact Bool.false_or _

theorem js_related (d : JsDocx) (n : Ids) (env : Env) (w : World) (es : List Entry) (ht : ∀ t ∈ jsTocs d, TocMade t)
    (he : ∀ l, (env.links l).Perm l) (h : Packed env (d.build lib n).1 w es) : NumberingRelated es ↔ d.hasNumberings = true := by
  obtain ⟨cs, hc⟩ := js_calls lib d n
  rw [numbering_related_iff (calls_sound hc) he (js_made lib d n ht).nameable h, js_flag]

/-- **C80.** If a document and its content are made with the methods of their types and not changed after they are added, the
main document relates the numbering part if and only if a paragraph of the document or of a table, at any depth, is numbered.
Missing: the full statement is without the condition on later changes and covers all paragraphs, and does not hold
(`C80_fails_after`, `C80_fails_comment`). -/
theorem C80_related_partial (d : JsDocx) (n : Ids) (env : Env) (w : World) (es : List Entry) (hd : MadeJsDocx d)
    (ht : ∀ t ∈ jsTocs d, TocMade t) (he : ∀ l, (env.links l).Perm l) (h : Packed env (d.build lib n).1 w es) :
    NumberingRelated es ↔ jsNumbered d = true := by
  rw [js_related lib d n env w es ht he h, madeJs_docx hd]

/-- **C80 fails** for every document without numbering, when a paragraph that has been added is numbered afterwards. -/
theorem C80_fails_after (d : JsDocx) (i : Nat) (p : JsParagraph) (id level : Nat) (hd : MadeJsDocx d) (hn : jsNumbered d = false)
    (hi : d.children[i]? = some (.paragraph p)) (n : Ids) (env : Env) (w : World) (es : List Entry)
    (ht : ∀ t ∈ jsTocs d, TocMade t) (he : ∀ l, (env.links l).Perm l)
    (h : Packed env ((d.changeChild i fun _ => .paragraph (p.call (.numbering id level))).build lib n).1 w es) :
    jsNumbered (d.changeChild i fun _ => .paragraph (p.call (.numbering id level))) = true ∧ ¬ NumberingRelated es := by
  have hlt : i < d.children.length := by
    by_contra hge
    rw [List.getElem?_eq_none (Nat.le_of_not_lt hge)] at hi
    cases hi
  have hmod : ∀ x, x ∈ d.children.modify i (fun _ => .paragraph (p.call (.numbering id level))) →
      x ∈ d.children ∨ x = .paragraph (p.call (.numbering id level)) := by
    intro x hx
    obtain ⟨j, hj, e⟩ := List.mem_iff_getElem.1 hx
    rw [List.getElem_modify] at e
    split at e
    · exact .inr e.symm
    · exact .inl (e ▸ List.getElem_mem _)
  constructor
  · rw [jsNumbered, List.any_eq_true]
    refine ⟨.paragraph (p.call (.numbering id level)), ?_, by obtain ⟨cs, q, f⟩ := p; rfl⟩
    refine List.mem_iff_getElem.2 ⟨i, by rw [JsDocx.changeChild, List.length_modify]; exact hlt, ?_⟩
    simp [JsDocx.changeChild, List.getElem_modify]
  · rw [js_related lib _ n env w es ?_ he h]
    · have : (d.changeChild i fun _ => .paragraph (p.call (.numbering id level))).hasNumberings = d.hasNumberings := rfl
      rw [this, madeJs_docx hd, hn]
      exact Bool.false_ne_true
    · intro t hx
      obtain ⟨c, hc, hx⟩ := List.mem_flatMap.1 hx
      rcases hmod c hc with hc | rfl
      · exact ht t (List.mem_flatMap.2 ⟨c, hc, hx⟩)
      · cases hx

/-! ## Examples -/

/-- A numbered paragraph. -/
def jsItem : JsParagraph := (({} : JsParagraph).add (.run { children := [.text c!"first"] })).call (.numbering 2 0)

theorem jsItem_made : MadeJsParagraph jsItem := .call _ _ (.add _ _ .new)

/-- A numbered paragraph in a table in a table, after a table of contents. -/
def jsList : JsDocx :=
  (({} : JsDocx).add (.toc {})).add (.table (({} : JsTable).addRow (({} : JsRow).addCell (({} : JsCell).add
    (.table (({} : JsTable).addRow (({} : JsRow).addCell (({} : JsCell).add (.paragraph jsItem)))))))))

theorem jsList_made : MadeJsDocx jsList :=
  .addTable _ _ (.addToc _ _ .new) (.addRow _ _ .new (.addCell _ _ .new (.addTable _ _ .new
    (.addRow _ _ .new (.addCell _ _ .new (.addParagraph _ _ .new jsItem_made))))))

/-- A document with a paragraph that is not numbered. -/
def jsPlain : JsDocx := ({} : JsDocx).add (.paragraph {})

/-- A document with a comment whose paragraph is numbered. -/
def jsRemark : JsDocx := ({} : JsDocx).add (.paragraph (({} : JsParagraph).add (.comment { id := 1, children := [jsItem] })))

theorem jsRemark_made : MadeJsDocx jsRemark := .addParagraph _ _ .new (.add _ _ .new)

theorem packs_plainly {d : DocxFile} (h : (writableB d && decide (d.customItems.length = 0)) = true) : ∃ es, Packed anEnv d {} es := by
  simp only [Bool.and_eq_true, decide_eq_true_eq] at h
  obtain ⟨es, w', e⟩ := writable_packs anEnv _ {} (writableB_spec h.1) (by rw [h.2]; exact Nat.zero_le _) (by rw [h.2]; exact Nat.zero_le _)
  exact ⟨es, .inl ⟨w', e⟩⟩

theorem bare_toc : TocMade {} := by
  intro w x hx
  rw [walkToc] at hx
  simp only [walkBlocks, List.append_nil, List.mem_singleton] at hx
  rw [hx]
  trivial

example : ∃ es, MadeJsDocx jsList ∧ (∀ t ∈ jsTocs jsList, TocMade t) ∧ (∀ l, (anEnv.links l).Perm l) ∧
    Packed anEnv (jsList.build sampleLib ⟨1, 1, 1⟩).1 {} es ∧ jsNumbered jsList = true ∧ NumberingRelated es := by
  obtain ⟨es, h⟩ := packs_plainly (d := (jsList.build sampleLib ⟨1, 1, 1⟩).1) (by decide +kernel)
  have ht : ∀ t ∈ jsTocs jsList, TocMade t := by
    have : jsTocs jsList = [{}] := rfl
    rw [this]
    intro t hx
    rw [List.mem_singleton.1 hx]
    exact bare_toc
  exact ⟨es, jsList_made, ht, anEnv_links, h, rfl, (C80_related_partial _ _ _ _ _ _ jsList_made ht anEnv_links h).2 rfl⟩

example : ∃ es, MadeJsDocx jsPlain ∧ jsNumbered jsPlain = false ∧ jsPlain.children[0]? = some (.paragraph {}) ∧ (∀ t ∈ jsTocs jsPlain, TocMade t) ∧
    Packed anEnv ((jsPlain.changeChild 0 fun _ => .paragraph (({} : JsParagraph).call (.numbering 2 0))).build sampleLib ⟨1, 1, 1⟩).1 {} es := by
  obtain ⟨es, h⟩ := packs_plainly
    (d := ((jsPlain.changeChild 0 fun _ => .paragraph (({} : JsParagraph).call (.numbering 2 0))).build sampleLib ⟨1, 1, 1⟩).1) (by decide +kernel)
  exact ⟨es, .addParagraph _ _ .new .new, rfl, rfl, (fun t ht => by cases ht), h⟩

/-- **C80 fails** for the paragraphs of a comment: the part is not related although a paragraph of the package is numbered. -/
theorem C80_fails_comment : ∃ d n, MadeJsDocx d ∧ UsesNumbering (d.build sampleLib n).1.document ∧ jsTocs d = [] ∧
    (∃ es, Packed anEnv (d.build sampleLib n).1 {} es) ∧
    ∀ env w es, (∀ l, (env.links l).Perm l) → Packed env (d.build sampleLib n).1 w es → ¬ NumberingRelated es := by
  refine ⟨jsRemark, ⟨1, 1, 1⟩, jsRemark_made, ?_, rfl, packs_plainly (by decide +kernel), fun env w es he h => ?_⟩
  · have : ((walkDocument (jsRemark.build sampleLib ⟨1, 1, 1⟩).1.document).any fun x => x.2.numbered) = true := by decide +kernel
    exact List.any_eq_true.1 this
  · rw [C80_related_partial _ _ _ _ _ _ jsRemark_made (fun t ht => by cases ht) he h]
    exact Bool.false_ne_true

end Docx.Props
