import Verif.Spec.JsNotes
import Verif.Lemmas.JsMade

/-!
# There are no footnotes in a document put together in JavaScript
-/

namespace Docx.Spec

open Docx Docx.Xml

/-- There is no footnote in a walk. -/
def Noteless (l : Walk) : Prop := ∀ x ∈ l, NoFootnote x.2

theorem noteless_nil : Noteless [] := fun _ h => by cases h

theorem noteless_cons {x : List Place × Item} {l : Walk} : Noteless (x :: l) ↔ NoFootnote x.2 ∧ Noteless l := by
  unfold Noteless
  rw [List.forall_mem_cons]

theorem noteless_append {a b : Walk} : Noteless (a ++ b) ↔ Noteless a ∧ Noteless b := by
  unfold Noteless
  simp only [List.mem_append, or_imp, forall_and]

variable (lib : ImageLib)

theorem jsRunChildren_noteless (w : List Place) : ∀ (cs : List JsRunChild) (r : Run) (n : Ids), Noteless (walkRunChildren w r.children) →
    Noteless (walkRunChildren w (jsRunChildren lib r cs n).1.children)
  | [], r, n, h => by simpa [jsRunChildren] using h
  | c :: cs, r, n, h => by
    rw [jsRunChildren]
    refine jsRunChildren_noteless w cs _ _ ?_
    cases c with
    | brk t =>
      cases t <;>
      simp [JsRunChild.build, Run.addBreak, js_walkRunChildren_append, noteless_append, walkRunChildren, walkRunChild,
        noteless_cons, noteless_nil, NoFootnote, h]
    | image i =>
      simp [JsRunChild.build, Run.addImage, js_walkRunChildren_append, noteless_append, walkRunChildren, walkRunChild,
        noteless_cons, noteless_nil, NoFootnote, h]
    | _ =>
      simp [JsRunChild.build, Run.addTc, Run.addFieldChar, Run.addInstrText, Run.addText, Run.addDeleteText,
        Run.addTab, Run.addCarriageReturn, Run.addPtab,
        js_walkRunChildren_append, noteless_append, walkRunChildren, walkRunChild, noteless_cons, noteless_nil, NoFootnote, h]

theorem jsRun_noteless (w : List Place) (r : JsRun) (n : Ids) : Noteless (walkRun w (r.build lib n).1) := by
  have hc : (r.build lib n).1.children = (jsRunChildren lib {} r.children n).1.children := by
    unfold JsRun.build
    cases r.property <;> rfl
  have h := jsRunChildren_noteless lib (.run :: w) r.children {} n (by simp [walkRunChildren, noteless_nil])
  generalize r.build lib n = x at hc
  obtain ⟨⟨pr, cs⟩, m⟩ := x
  simp only at hc
  subst hc
  rw [walkRun, noteless_cons]
  exact ⟨trivial, h⟩

theorem jsInsert_noteless (w : List Place) (r : JsRun) (a d : Option Str) (n : Ids) : Noteless (walkInsert w (jsInsert lib r a d n).1) := by
  have hc : (jsInsert lib r a d n).1.children = [.run (r.build lib n).1] := by
    unfold jsInsert
    cases truthy a <;> cases truthy d <;> rfl
  generalize jsInsert lib r a d n = x at hc
  obtain ⟨⟨_, _, cs⟩, m⟩ := x
  simp only at hc
  subst hc
  simp [walkInsert, walkInsertChildren, walkInsertChild, jsRun_noteless]

theorem jsDelete_noteless (w : List Place) (r : JsRun) (a d : Option Str) (n : Ids) : Noteless (walkDelete w (jsDelete lib r a d n).1) := by
  have hc : (jsDelete lib r a d n).1.children = [.run (r.build lib n).1] := by
    unfold jsDelete
    cases truthy a <;> cases truthy d <;> rfl
  generalize jsDelete lib r a d n = x at hc
  obtain ⟨⟨_, _, cs⟩, m⟩ := x
  simp only at hc
  subst hc
  simp [walkDelete, walkDeleteChildren, walkDeleteChild, jsRun_noteless]

mutual

theorem jsChildren_noteless (w : List Place) : ∀ (cs : List JsParagraphChild) (p : Paragraph) (n : Ids),
    Noteless (walkParagraphChildren w p.children) → Noteless (walkParagraphChildren w (jsChildren lib p cs n).1.children)
  | [], p, n, h => by simpa [jsChildren] using h
  | c :: cs, p, n, h => by
    rw [jsChildren]
    refine jsChildren_noteless w cs _ _ ?_
    simp only [Paragraph.addChild, js_walkParagraphChildren_append, noteless_append, walkParagraphChildren, List.append_nil]
    exact ⟨h, jsChild_noteless w c n⟩

theorem jsChild_noteless (w : List Place) : ∀ (c : JsParagraphChild) (n : Ids), Noteless (walkParagraphChild w (jsChild lib c n).1)
  | .run r, n => by simp [jsChild, walkParagraphChild, jsRun_noteless]
  | .insert r a d, n => by simp [jsChild, walkParagraphChild, jsInsert_noteless]
  | .delete r a d, n => by simp [jsChild, walkParagraphChild, jsDelete_noteless]
  | .bookmarkStart _ _, n => by simp [jsChild, walkParagraphChild, noteless_nil]
  | .bookmarkEnd _, n => by simp [jsChild, walkParagraphChild, noteless_nil]
  | .commentEnd _, n => by simp [jsChild, walkParagraphChild, noteless_nil]
  | .numPages, n => by simp [jsChild, walkParagraphChild, noteless_nil]
  | .pageNum, n => by simp [jsChild, walkParagraphChild, noteless_nil]
  | .comment c, n => by
    rw [jsChild]
    simp only [walkParagraphChild, noteless_cons]
    exact ⟨trivial, jsComment_noteless (.comment :: w) c n⟩
  | .hyperlink v t cs, n => by
    have key : ∀ m, Noteless (walkHyperlink w (jsHyperlink lib (Hyperlink.new n.hyperlink v t) cs m).1) := by
      intro m
      have e : (Hyperlink.new n.hyperlink v t).children = [] := by cases t <;> rfl
      have h1 := jsHyperlink_noteless (.hyperlink :: w) cs (Hyperlink.new n.hyperlink v t) m
        (by rw [e]; simp [walkParagraphChildren, noteless_nil])
      generalize jsHyperlink lib (Hyperlink.new n.hyperlink v t) cs m = x at h1
      obtain ⟨⟨l, _, xs⟩, m⟩ := x
      rw [walkHyperlink, noteless_cons]
      exact ⟨trivial, h1⟩
    rw [jsChild]
    simp only [walkParagraphChild]
    exact key _

theorem jsHyperlink_noteless (w : List Place) : ∀ (cs : List JsParagraphChild) (h : Hyperlink) (n : Ids),
    Noteless (walkParagraphChildren w h.children) → Noteless (walkParagraphChildren w (jsHyperlink lib h cs n).1.children)
  | [], h, n, hh => by simpa [jsHyperlink] using hh
  | .comment c :: cs, h, n, hh => by
    rw [jsHyperlink]
    refine jsHyperlink_noteless w cs _ _ ?_
    simp only [Hyperlink.addChild, js_walkParagraphChildren_append, noteless_append, walkParagraphChildren, walkParagraphChild,
      List.append_nil, noteless_cons]
    exact ⟨hh, trivial, jsComment_noteless (.comment :: w) c n⟩
  | .run r :: cs, h, n, hh => by
    rw [jsHyperlink]
    refine jsHyperlink_noteless w cs _ _ ?_
    simp [Hyperlink.addChild, js_walkParagraphChildren_append, noteless_append, walkParagraphChildren, walkParagraphChild, jsRun_noteless, hh, noteless_nil]
  | .insert r a d :: cs, h, n, hh => by
    rw [jsHyperlink]
    refine jsHyperlink_noteless w cs _ _ ?_
    simp [Hyperlink.addChild, js_walkParagraphChildren_append, noteless_append, walkParagraphChildren, walkParagraphChild, jsInsert_noteless, hh, noteless_nil]
  | .delete r a d :: cs, h, n, hh => by
    rw [jsHyperlink]
    refine jsHyperlink_noteless w cs _ _ ?_
    simp [Hyperlink.addChild, js_walkParagraphChildren_append, noteless_append, walkParagraphChildren, walkParagraphChild, jsDelete_noteless, hh, noteless_nil]
  | .bookmarkStart _ _ :: cs, h, n, hh => by
    rw [jsHyperlink]
    refine jsHyperlink_noteless w cs _ _ ?_
    simp [Hyperlink.addChild, js_walkParagraphChildren_append, noteless_append, walkParagraphChildren, walkParagraphChild, hh, noteless_nil]
  | .bookmarkEnd _ :: cs, h, n, hh => by
    rw [jsHyperlink]
    refine jsHyperlink_noteless w cs _ _ ?_
    simp [Hyperlink.addChild, js_walkParagraphChildren_append, noteless_append, walkParagraphChildren, walkParagraphChild, hh, noteless_nil]
  | .commentEnd _ :: cs, h, n, hh => by
    rw [jsHyperlink]
    refine jsHyperlink_noteless w cs _ _ ?_
    simp [Hyperlink.addChild, js_walkParagraphChildren_append, noteless_append, walkParagraphChildren, walkParagraphChild, hh, noteless_nil]
  | .hyperlink _ _ _ :: cs, h, n, hh => by rw [jsHyperlink]; exact jsHyperlink_noteless w cs _ _ hh
  | .numPages :: cs, h, n, hh => by rw [jsHyperlink]; exact jsHyperlink_noteless w cs _ _ hh
  | .pageNum :: cs, h, n, hh => by rw [jsHyperlink]; exact jsHyperlink_noteless w cs _ _ hh

theorem jsComment_noteless (w : List Place) : ∀ (c : JsComment) (n : Ids), Noteless (walkComment w (jsComment lib c n).1)
  | ⟨id, author, date, parent, ps⟩, n => by
    rw [walkComment_children, jsComment_children]
    exact jsCommentChildren_noteless w ps (Comment.new id) n (by simp [Comment.new, walkBlocks, noteless_nil])

theorem jsCommentChildren_noteless (w : List Place) : ∀ (ps : List JsParagraph) (c : Comment) (n : Ids),
    Noteless (walkBlocks w c.children) → Noteless (walkBlocks w (jsCommentChildren lib c ps n).1.children)
  | [], c, n, h => by simpa [jsCommentChildren] using h
  | ⟨cs, pr, hn⟩ :: ps, c, n, h => by
    rw [jsCommentChildren]
    refine jsCommentChildren_noteless w ps _ _ ?_
    simp [Comment.addParagraph, js_walkBlocks_append, noteless_append, walkBlocks, walkBlock, jsParagraph_noteless w ⟨cs, pr, hn⟩, h, noteless_nil]

theorem jsParagraph_noteless (w : List Place) : ∀ (p : JsParagraph) (n : Ids), Noteless (walkParagraph w (jsParagraph lib p n).1)
  | ⟨cs, pr, hn⟩, n => by
    have := jsChildren_noteless (.paragraph :: w) cs (Paragraph.new (generateParaId n.paragraph).1)
      { n with paragraph := (generateParaId n.paragraph).2 } (by simp [Paragraph.new, walkParagraphChildren, noteless_nil])
    rw [jsParagraph]
    simp only [walkParagraph, Paragraph.format, noteless_cons]
    exact ⟨trivial, this⟩

end

mutual

theorem jsCellChildren_noteless (w : List Place) : ∀ (cs : List JsCellChild) (c : Cell) (n : Ids), (∀ t ∈ jsContentTocs cs, TocNoteless t) →
    Noteless (walkCellContents w c.children) → Noteless (walkCellContents w (jsCellChildren lib c cs n).1.children)
  | [], c, n, _, h => by simpa [jsCellChildren] using h
  | .paragraph p :: cs, c, n, ht, h => by
    rw [jsCellChildren]
    refine jsCellChildren_noteless w cs _ _ (fun t hx => ht t (by rw [jsContentTocs]; exact hx)) ?_
    simp [jsCellChild, walkCellContents_append, noteless_append, walkCellContents, walkCellContent, jsParagraph_noteless lib w, h, noteless_nil]
  | .table t :: cs, c, n, ht, h => by
    rw [jsCellChildren]
    refine jsCellChildren_noteless w cs _ _ (fun t hx => ht t (by rw [jsContentTocs]; exact List.mem_append_right _ hx)) ?_
    have := jsTable_noteless w t n fun t hx => ht t (by rw [jsContentTocs]; exact List.mem_append_left _ hx)
    simp [jsCellChild, walkCellContents_append, noteless_append, walkCellContents, walkCellContent, this, h, noteless_nil]
  | .toc t :: cs, c, n, ht, h => by
    rw [jsCellChildren]
    refine jsCellChildren_noteless w cs _ _ (fun t hx => ht t (by rw [jsContentTocs]; exact List.mem_cons_of_mem _ hx)) ?_
    have : Noteless (walkToc w t) := ht t (by rw [jsContentTocs]; exact List.mem_cons_self ..) w
    simp [jsCellChild, walkCellContents_append, noteless_append, walkCellContents, walkCellContent, this, h, noteless_nil]

theorem jsCell_noteless (w : List Place) : ∀ (c : JsCell) (n : Ids), (∀ t ∈ jsContentTocs c.children, TocNoteless t) → Noteless (walkCell w (jsCell lib c n).1)
  | ⟨cs, pr, hn⟩, n, ht => by
    have := jsCellChildren_noteless (.cell :: w) cs {} n ht (by simp [walkCellContents, noteless_nil])
    rw [jsCell]
    simp only [walkCell, noteless_cons]
    exact ⟨trivial, this⟩

theorem jsCells_noteless (w : List Place) : ∀ (cs : List JsCell) (r : Row) (n : Ids), (∀ t ∈ jsCellsTocs cs, TocNoteless t) →
    Noteless (walkCells w r.cells) → Noteless (walkCells w (jsCells lib r cs n).1.cells)
  | [], r, n, _, h => by simpa [jsCells] using h
  | ⟨xs, pr, hn⟩ :: cs, r, n, ht, h => by
    rw [jsCells]
    refine jsCells_noteless w cs _ _ (fun t hx => ht t (by rw [jsCellsTocs]; exact List.mem_append_right _ hx)) ?_
    have := jsCell_noteless w ⟨xs, pr, hn⟩ n fun t hx => ht t (by rw [jsCellsTocs]; exact List.mem_append_left _ hx)
    simp [js_walkCells_append, noteless_append, walkCells, this, h, noteless_nil]

theorem jsRow_noteless (w : List Place) : ∀ (r : JsRow) (n : Ids), (∀ t ∈ jsCellsTocs r.cells, TocNoteless t) → Noteless (walkRow w (jsRow lib r n).1)
  | ⟨cs, pr, hn⟩, n, ht => by
    have := jsCells_noteless w cs (Row.new []) n ht (by simp [Row.new, walkCells, noteless_nil])
    rw [jsRow]
    simpa only [walkRow] using this

theorem jsRows_noteless (w : List Place) : ∀ (rs : List JsRow) (t : Table) (n : Ids), (∀ t ∈ jsRowsTocs rs, TocNoteless t) →
    Noteless (walkRows w t.rows) → Noteless (walkRows w (jsRows lib t rs n).1.rows)
  | [], t, n, _, h => by simpa [jsRows] using h
  | ⟨xs, pr, hn⟩ :: rs, t, n, ht, h => by
    rw [jsRows]
    refine jsRows_noteless w rs _ _ (fun t hx => ht t (by rw [jsRowsTocs]; exact List.mem_append_right _ hx)) ?_
    have := jsRow_noteless w ⟨xs, pr, hn⟩ n fun t hx => ht t (by rw [jsRowsTocs]; exact List.mem_append_left _ hx)
    simp [Table.addRow, walkRows_append, noteless_append, walkRows, this, h, noteless_nil]

theorem jsTable_noteless (w : List Place) : ∀ (t : JsTable) (n : Ids), (∀ x ∈ jsTableTocs t, TocNoteless x) → Noteless (walkTable w (jsTable lib t n).1)
  | ⟨rs, g, pr, hn⟩, n, ht => by
    have := jsRows_noteless w rs (Table.new []) n (fun t hx => ht t (by rw [jsTableTocs]; exact hx)) (by simp [Table.new, walkRows, noteless_nil])
    rw [jsTable]
    simp only [walkTable, noteless_cons]
    exact ⟨trivial, this⟩

end

theorem jsItems_noteless : ∀ (cs : List JsChild) (d : DocxFile) (n : Ids) (f : Bool), (∀ t ∈ jsTocs ⟨cs, f⟩, TocNoteless t) →
    (∀ c ∈ d.document.children, Noteless (walkDocumentChild [.document] c)) →
    ∀ c ∈ (jsItems lib d cs n).1.document.children, Noteless (walkDocumentChild [.document] c)
  | [], d, n, f, _, h => by simpa [jsItems] using h
  | c :: cs, d, n, f, ht, h => by
    have ht' : ∀ t ∈ jsTocs ⟨cs, f⟩, TocNoteless t := fun t hx => ht t (by
      rw [jsTocs] at hx ⊢
      exact List.mem_append_right _ hx)
    rw [jsItems]
    refine jsItems_noteless cs _ _ f ht' ?_
    intro x hx
    cases c with
    | table t =>
      rcases List.mem_append.1 hx with hx | hx
      · exact h x hx
      · rw [List.mem_singleton.1 hx]
        exact jsTable_noteless lib _ t n fun y hy => ht y (by rw [jsTocs]; exact List.mem_append_left _ hy)
    | toc t =>
      rcases List.mem_append.1 hx with hx | hx
      · exact h x hx
      · rw [List.mem_singleton.1 hx]
        exact ht t (by rw [jsTocs]; exact List.mem_append_left _ (List.mem_singleton.2 rfl)) _
    | paragraph p =>
      rcases List.mem_append.1 hx with hx | hx
      · exact h x hx
      · rw [List.mem_singleton.1 hx]
        exact jsParagraph_noteless lib _ p n
    | bookmarkStart i s =>
      rcases List.mem_append.1 hx with hx | hx
      · exact h x hx
      · rw [List.mem_singleton.1 hx]
        exact noteless_nil
    | bookmarkEnd i =>
      rcases List.mem_append.1 hx with hx | hx
      · exact h x hx
      · rw [List.mem_singleton.1 hx]
        exact noteless_nil

end Docx.Spec
