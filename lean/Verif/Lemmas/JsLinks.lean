import Verif.Lemmas.JsIds
import Verif.Lemmas.LinksAgain

/-!
# The addresses of the links of a document built through the JavaScript interface
-/

namespace Docx.Spec

open Docx Docx.Xml

variable (lib : ImageLib)

/-- The addresses of the links in a walk are these. -/
def JsLeads (l : Walk) (us : List Str) : Prop := (pick linkAt l).map Prod.snd = us.map escapeOwned

theorem leads_nil : JsLeads [] [] := rfl

theorem leads_append {a b : Walk} {us vs : List Str} (h : JsLeads a us) (h' : JsLeads b vs) : JsLeads (a ++ b) (us ++ vs) := by
  unfold JsLeads at *
  rw [pick_append, List.map_append, List.map_append, h, h']

theorem leads_none {l : Walk} (h : pick linkAt l = []) : JsLeads l [] := by
  unfold JsLeads; rw [h]; rfl

theorem leads_skip {w : List Place} {i : Item} {l : Walk} {us : List Str} (hi : linkAt w i = []) (h : JsLeads l us) : JsLeads ((w, i) :: l) us := by
  unfold JsLeads at *
  rw [pick_cons, hi]
  exact h

theorem leads_bare {t : Toc} (h : TocBare t) (w : List Place) : JsLeads (walkToc w t) [] := by
  refine leads_none (List.flatMap_eq_nil_iff.2 fun x hx => ?_)
  unfold linkAt
  rw [(h w x hx).2]
  split <;> rfl

theorem jsChild_leads (w : List Place) (hw : searched (.paragraph :: w) = true) : ∀ (c : JsParagraphChild) (n : Ids),
    JsLeads (walkParagraphChild (.paragraph :: w) (jsChild lib c n).1) (JsParagraphChild.address c)
  | .run r, n => by
    simp only [jsChild, walkParagraphChild]
    generalize (r.build lib n).1 = x
    obtain ⟨pr, cs⟩ := x
    rw [walkRun]
    exact leads_skip (by simp) (leads_none (walkRunChildren_dead _ _ (dead_links rfl (by simp))))
  | .insert r a d, n => by
    simp only [jsChild, walkParagraphChild]
    exact leads_none (walkInsert_dead _ _ (dead_links rfl (by simp)))
  | .delete r a d, n => by
    simp only [jsChild, walkParagraphChild]
    exact leads_none (walkDelete_dead _ _ (dead_links rfl (by simp)))
  | .bookmarkStart _ _, n => leads_nil
  | .bookmarkEnd _, n => leads_nil
  | .commentEnd _, n => leads_nil
  | .numPages, n => leads_nil
  | .pageNum, n => leads_nil
  | .comment c, n => by
    rw [jsChild]
    simp only [walkParagraphChild]
    exact leads_skip (by simp) (leads_none (walkComment_dead _ _ (deadLink_inComment _)))
  | .hyperlink v t cs, n => by
    have h2 := fun m => jsHyperlink_link lib cs (Hyperlink.new n.hyperlink v t) m
    rw [jsChild]
    simp only [walkParagraphChild]
    cases t with
    | external =>
      specialize h2 { n with hyperlink := (generateId n.hyperlink).2 }
      generalize jsHyperlink lib (Hyperlink.new n.hyperlink v .external) cs _ = x at h2
      obtain ⟨⟨l, hy, xs⟩, m⟩ := x
      simp only [Hyperlink.new] at h2
      subst h2
      unfold JsLeads
      rw [walkHyperlink, pick_cons, walkParagraphChildren_dead _ _ (dead_links rfl (by simp)), linkAt, if_pos hw]
      rfl
    | anchor =>
      specialize h2 n
      generalize jsHyperlink lib (Hyperlink.new n.hyperlink v .anchor) cs _ = x at h2
      obtain ⟨⟨l, hy, xs⟩, m⟩ := x
      simp only [Hyperlink.new] at h2
      subst h2
      unfold JsLeads
      rw [walkHyperlink, pick_cons, walkParagraphChildren_dead _ _ (dead_links rfl (by simp)), linkAt, if_pos hw]
      rfl

theorem jsChildren_leads (w : List Place) (hw : searched (.paragraph :: w) = true) {us : List Str} : ∀ (cs : List JsParagraphChild) (p : Paragraph) (n : Ids),
    JsLeads (walkParagraphChildren (.paragraph :: w) p.children) us →
    JsLeads (walkParagraphChildren (.paragraph :: w) (jsChildren lib p cs n).1.children) (us ++ cs.flatMap JsParagraphChild.address)
  | [], p, n, h => by simpa [jsChildren] using h
  | c :: cs, p, n, h => by
    rw [jsChildren, List.flatMap_cons, ← List.append_assoc]
    refine jsChildren_leads w hw cs _ _ ?_
    simp only [Paragraph.addChild, js_walkParagraphChildren_append, walkParagraphChildren, List.append_nil]
    exact leads_append h (jsChild_leads lib w hw c n)

theorem jsParagraph_leads (w : List Place) (hw : searched w = true) : ∀ (p : JsParagraph) (n : Ids),
    JsLeads (walkParagraph w (jsParagraph lib p n).1) (JsParagraph.addresses p)
  | ⟨cs, pr, hn⟩, n => by
    have := jsChildren_leads lib w (us := []) (by rw [searched]; exact hw) cs (Paragraph.new (generateParaId n.paragraph).1)
      { n with paragraph := (generateParaId n.paragraph).2 } (by simp [Paragraph.new, walkParagraphChildren, leads_nil])
    rw [jsParagraph]
    simp only [walkParagraph, Paragraph.format]
    exact leads_skip (by simp) this

mutual

theorem jsCellChildren_leads (w : List Place) (hw : searched w = true) {us : List Str} : ∀ (cs : List JsCellChild) (c : Cell) (n : Ids), (∀ t ∈ jsContentTocs cs, TocBare t) →
    JsLeads (walkCellContents w c.children) us →
    JsLeads (walkCellContents w (jsCellChildren lib c cs n).1.children) (us ++ jsContentLinks cs)
  | [], c, n, _, h => by simpa [jsCellChildren, jsContentLinks] using h
  | .paragraph p :: cs, c, n, ht, h => by
    rw [jsCellChildren, jsContentLinks, ← List.append_assoc]
    refine jsCellChildren_leads w hw cs _ _ (fun t hx => ht t (by rw [jsContentTocs]; exact hx)) ?_
    simp only [jsCellChild, walkCellContents_append, walkCellContents, walkCellContent, List.append_nil]
    exact leads_append h (jsParagraph_leads lib w hw p n)
  | .table t :: cs, c, n, ht, h => by
    rw [jsCellChildren, jsContentLinks, ← List.append_assoc]
    refine jsCellChildren_leads w hw cs _ _ (fun t hx => ht t (by rw [jsContentTocs]; exact List.mem_append_right _ hx)) ?_
    simp only [jsCellChild, walkCellContents_append, walkCellContents, walkCellContent, List.append_nil]
    exact leads_append h (jsTable_leads w hw t n fun t hx => ht t (by rw [jsContentTocs]; exact List.mem_append_left _ hx))
  | .toc t :: cs, c, n, ht, h => by
    rw [jsCellChildren, jsContentLinks]
    refine jsCellChildren_leads w hw cs _ _ (fun t hx => ht t (by rw [jsContentTocs]; exact List.mem_cons_of_mem _ hx)) ?_
    simp only [jsCellChild, walkCellContents_append, walkCellContents, walkCellContent, List.append_nil]
    have := leads_append h (leads_bare (ht t (by rw [jsContentTocs]; exact List.mem_cons_self ..)) w)
    rwa [List.append_nil] at this

theorem jsCell_leads (w : List Place) (hw : searched w = true) : ∀ (c : JsCell) (n : Ids), (∀ t ∈ jsContentTocs c.children, TocBare t) →
    JsLeads (walkCell w (jsCell lib c n).1) (jsContentLinks c.children)
  | ⟨cs, pr, hn⟩, n, ht => by
    have := jsCellChildren_leads (.cell :: w) (by rw [searched]; exact hw) (us := []) cs {} n ht (by simp [walkCellContents, leads_nil])
    rw [jsCell]
    simp only [walkCell]
    exact leads_skip (by simp) this

theorem jsCells_leads (w : List Place) (hw : searched w = true) {us : List Str} : ∀ (cs : List JsCell) (r : Row) (n : Ids), (∀ t ∈ jsCellsTocs cs, TocBare t) →
    JsLeads (walkCells w r.cells) us → JsLeads (walkCells w (jsCells lib r cs n).1.cells) (us ++ jsCellsLinks cs)
  | [], r, n, _, h => by simpa [jsCells, jsCellsLinks] using h
  | ⟨xs, pr, hn⟩ :: cs, r, n, ht, h => by
    rw [jsCells, jsCellsLinks, ← List.append_assoc]
    refine jsCells_leads w hw cs _ _ (fun t hx => ht t (by rw [jsCellsTocs]; exact List.mem_append_right _ hx)) ?_
    simp only [js_walkCells_append, walkCells, List.append_nil]
    exact leads_append h (jsCell_leads w hw ⟨xs, pr, hn⟩ n fun t hx => ht t (by rw [jsCellsTocs]; exact List.mem_append_left _ hx))

theorem jsRow_leads (w : List Place) (hw : searched w = true) : ∀ (r : JsRow) (n : Ids), (∀ t ∈ jsCellsTocs r.cells, TocBare t) →
    JsLeads (walkRow w (jsRow lib r n).1) (jsCellsLinks r.cells)
  | ⟨cs, pr, hn⟩, n, ht => by
    have := jsCells_leads w hw (us := []) cs (Row.new []) n ht (by simp [Row.new, walkCells, leads_nil])
    rw [jsRow]
    simpa only [walkRow, List.nil_append] using this

theorem jsRows_leads (w : List Place) (hw : searched w = true) {us : List Str} : ∀ (rs : List JsRow) (t : Table) (n : Ids), (∀ t ∈ jsRowsTocs rs, TocBare t) →
    JsLeads (walkRows w t.rows) us → JsLeads (walkRows w (jsRows lib t rs n).1.rows) (us ++ jsRowsLinks rs)
  | [], t, n, _, h => by simpa [jsRows, jsRowsLinks] using h
  | ⟨xs, pr, hn⟩ :: rs, t, n, ht, h => by
    rw [jsRows, jsRowsLinks, ← List.append_assoc]
    refine jsRows_leads w hw rs _ _ (fun t hx => ht t (by rw [jsRowsTocs]; exact List.mem_append_right _ hx)) ?_
    simp only [Table.addRow, walkRows_append, walkRows, List.append_nil]
    exact leads_append h (jsRow_leads w hw ⟨xs, pr, hn⟩ n fun t hx => ht t (by rw [jsRowsTocs]; exact List.mem_append_left _ hx))

theorem jsTable_leads (w : List Place) (hw : searched w = true) : ∀ (t : JsTable) (n : Ids), (∀ x ∈ jsTableTocs t, TocBare x) →
    JsLeads (walkTable w (jsTable lib t n).1) (jsTableLinks t)
  | ⟨rs, g, pr, hn⟩, n, ht => by
    have := jsRows_leads w hw (us := []) rs (Table.new []) n (fun t hx => ht t (by rw [jsTableTocs]; exact hx))
      (by simp [Table.new, walkRows, leads_nil])
    rw [jsTable]
    simp only [walkTable]
    rw [jsTableLinks]
    exact leads_skip (by simp) this

end

theorem jsItems_leads {us : List Str} : ∀ (cs : List JsChild) (d : DocxFile) (n : Ids) (f : Bool), (∀ t ∈ jsTocs ⟨cs, f⟩, TocBare t) →
    JsLeads (d.document.children.flatMap (walkDocumentChild [.document])) us →
    JsLeads ((jsItems lib d cs n).1.document.children.flatMap (walkDocumentChild [.document])) (us ++ jsLinks ⟨cs, f⟩)
  | [], d, n, f, _, h => by simpa [jsItems, jsLinks] using h
  | c :: cs, d, n, f, ht, h => by
    have ht' : ∀ t ∈ jsTocs ⟨cs, f⟩, TocBare t := fun t hx => ht t (by
      rw [jsTocs] at hx ⊢
      exact List.mem_append_right _ hx)
    rw [jsItems, jsLinks, List.flatMap_cons, ← List.append_assoc]
    refine jsItems_leads cs _ _ f ht' ?_
    have put : ∀ (x : DocumentChild) (vs : List Str), JsLeads (walkDocumentChild [.document] x) vs →
        JsLeads ((d.document.children ++ [x]).flatMap (walkDocumentChild [.document])) (us ++ vs) := by
      intro x b hx
      rw [List.flatMap_append, List.flatMap_singleton]
      exact leads_append h hx
    cases c with
    | table t =>
      exact put _ _ (jsTable_leads lib _ rfl t n fun y hy => ht y (by rw [jsTocs]; exact List.mem_append_left _ hy))
    | toc t =>
      exact put _ _ (leads_bare (ht t (by rw [jsTocs]; exact List.mem_append_left _ (List.mem_singleton.2 rfl))) _)
    | paragraph p => exact put _ _ (jsParagraph_leads lib _ rfl p n)
    | bookmarkStart i s => exact put _ _ leads_nil
    | bookmarkEnd i => exact put _ _ leads_nil

theorem js_leads (d : JsDocx) (n : Ids) (ht : ∀ t ∈ jsTocs d, TocBare t) :
    (bodyLinks (d.build lib n).1.document).map Prod.snd = (jsLinks d).map escapeOwned := by
  have h := jsItems_leads (us := []) lib d.children DocxFile.new n d.hasNumberings ht leads_nil
  rw [links_pick, js_document, walkDocument, js_sectionProperty]
  have e : walkSectionProperty [.document] DocxFile.new.document.sectionProperty = [] := rfl
  rw [e, List.append_nil]
  rw [List.nil_append] at h
  exact h

/-! ## Distinct ids -/

theorem flat_linkIds (d : Document) : (walkDocument d).flatMap (fun x => IdKind.link.of x.2) = linkIds d := by
  unfold linkIds
  induction walkDocument d with
  | nil => rfl
  | cons x l ih =>
    rw [List.flatMap_cons, ih, List.map_cons, List.filterMap_cons, IdKind.of]
    cases x.2.external? <;> rfl

theorem flat_pictureIds (d : Document) : (walkDocument d).flatMap (fun x => IdKind.pic.of x.2) = pictureIds d := by
  unfold pictureIds
  induction walkDocument d with
  | nil => rfl
  | cons x l ih =>
    rw [List.flatMap_cons, ih, List.map_cons, List.filterMap_cons, IdKind.of]
    cases x.2.picture? <;> rfl

theorem kind_injective (K : IdKind) {m n : Nat} (h : m ≠ n) : K.mk m ≠ K.mk n := by
  cases K
  · exact (Docx.Props.C11_texts_distinct h).2.1
  · exact (Docx.Props.C11_texts_distinct h).1

theorem generateIds_length : ∀ (m c : Nat), (generateIds m c).1.length = m
  | 0, _ => rfl
  | m + 1, c => by rw [generateIds]; simp [generateIds_length m]

theorem draws_nodup {K : IdKind} {c c' : Nat} {l : Walk} (h : Draws K c c' l) (hc : c < usizeCount)
    (hl : (l.flatMap fun x => K.of x.2).length ≤ usizeCount) : (l.flatMap fun x => K.of x.2).Nodup := by
  obtain ⟨m, h1, _⟩ := h
  have hm : m ≤ usizeCount := by
    rw [h1, List.length_map, generateIds_length] at hl
    exact hl
  rw [h1]
  have := (Docx.Props.C11_distinct_one_thread m c hc hm).2
  rw [List.nodup_iff_pairwise_ne] at this ⊢
  rw [List.pairwise_map]
  exact this.imp fun hne => kind_injective K hne

theorem js_nodup (K : IdKind) (d : JsDocx) (n : Ids) (ht : ∀ t ∈ jsTocs d, TocBare t) (hc : K.count n < usizeCount)
    (hl : ((walkDocument (d.build lib n).1.document).flatMap fun x => K.of x.2).length ≤ usizeCount) :
    ((walkDocument (d.build lib n).1.document).flatMap fun x => K.of x.2).Nodup :=
  draws_nodup (js_draws lib d n ht) hc hl

theorem bodyLinks_sublist (d : Document) : ((bodyLinks d).map Prod.fst).Sublist (linkIds d) := by
  unfold bodyLinks linkIds Walk.within
  rw [List.map_filterMap]
  exact List.Sublist.filterMap _ (List.Sublist.map _ List.filter_sublist)

end Docx.Spec
