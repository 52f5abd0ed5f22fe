import Verif.Spec.JsMade
import Verif.Lemmas.JsComments

/-!
# The pictures and links of a document built through the JavaScript interface carry the ids of their constructors
-/

namespace Docx.Spec

open Docx Docx.Xml

/-- Every item of a walk is as its constructor makes it. -/
def Clean (l : Walk) : Prop := ∀ x ∈ l, ItemMade x.2

theorem clean_nil : Clean [] := fun _ h => by cases h

theorem clean_cons {x : List Place × Item} {l : Walk} : Clean (x :: l) ↔ ItemMade x.2 ∧ Clean l := by
  unfold Clean
  rw [List.forall_mem_cons]

theorem clean_append {a b : Walk} : Clean (a ++ b) ↔ Clean a ∧ Clean b := by
  unfold Clean
  simp only [List.mem_append, or_imp, forall_and]

variable (lib : ImageLib)

theorem jsImage_made (i : JsImage) (n : Ids) : ∃ m, (i.build lib n).1.id = createPicRid m := by
  refine ⟨n.pic, ?_⟩
  unfold JsImage.build
  cases i.size <;> cases i.floating <;> rfl

theorem jsRunChildren_clean (w : List Place) : ∀ (cs : List JsRunChild) (r : Run) (n : Ids), Clean (walkRunChildren w r.children) →
    Clean (walkRunChildren w (jsRunChildren lib r cs n).1.children)
  | [], r, n, h => by simpa [jsRunChildren] using h
  | c :: cs, r, n, h => by
    rw [jsRunChildren]
    refine jsRunChildren_clean w cs _ _ ?_
    cases c with
    | brk t =>
      cases t <;>
      simp [JsRunChild.build, Run.addBreak, js_walkRunChildren_append, clean_append, walkRunChildren, walkRunChild,
        clean_cons, clean_nil, ItemMade, h]
    | image i =>
      simp [JsRunChild.build, Run.addImage, js_walkRunChildren_append, clean_append, walkRunChildren, walkRunChild,
        clean_cons, clean_nil, ItemMade, h, jsImage_made]
    | _ =>
      simp [JsRunChild.build, Run.addTc, Run.addFieldChar, Run.addInstrText, Run.addText, Run.addDeleteText,
        Run.addTab, Run.addCarriageReturn, Run.addPtab,
        js_walkRunChildren_append, clean_append, walkRunChildren, walkRunChild, clean_cons, clean_nil, ItemMade, h]

theorem jsRun_clean (w : List Place) (r : JsRun) (n : Ids) : Clean (walkRun w (r.build lib n).1) := by
  have hc : (r.build lib n).1.children = (jsRunChildren lib {} r.children n).1.children := by
    unfold JsRun.build
    cases r.property <;> rfl
  have h := jsRunChildren_clean lib (.run :: w) r.children {} n (by simp [walkRunChildren, clean_nil])
  generalize r.build lib n = x at hc
  obtain ⟨⟨pr, cs⟩, m⟩ := x
  simp only at hc
  subst hc
  rw [walkRun, clean_cons]
  exact ⟨trivial, h⟩

theorem jsInsert_clean (w : List Place) (r : JsRun) (a d : Option Str) (n : Ids) : Clean (walkInsert w (jsInsert lib r a d n).1) := by
  have hc : (jsInsert lib r a d n).1.children = [.run (r.build lib n).1] := by
    unfold jsInsert
    cases truthy a <;> cases truthy d <;> rfl
  generalize jsInsert lib r a d n = x at hc
  obtain ⟨⟨_, _, cs⟩, m⟩ := x
  simp only at hc
  subst hc
  simp [walkInsert, walkInsertChildren, walkInsertChild, jsRun_clean]

theorem jsDelete_clean (w : List Place) (r : JsRun) (a d : Option Str) (n : Ids) : Clean (walkDelete w (jsDelete lib r a d n).1) := by
  have hc : (jsDelete lib r a d n).1.children = [.run (r.build lib n).1] := by
    unfold jsDelete
    cases truthy a <;> cases truthy d <;> rfl
  generalize jsDelete lib r a d n = x at hc
  obtain ⟨⟨_, _, cs⟩, m⟩ := x
  simp only at hc
  subst hc
  simp [walkDelete, walkDeleteChildren, walkDeleteChild, jsRun_clean]

theorem jsHyperlink_link : ∀ (cs : List JsParagraphChild) (h : Hyperlink) (n : Ids), (jsHyperlink lib h cs n).1.link = h.link
  | [], h, n => by rw [jsHyperlink]
  | c :: cs, h, n => by
    cases c <;> rw [jsHyperlink] <;> exact jsHyperlink_link cs _ _

theorem new_link_made (n : Nat) (v : Str) (t : HyperlinkType) : ∀ rid path, (Hyperlink.new n v t).link = .external rid path →
    ∃ n url, (Hyperlink.new n url .external).link = .external rid path := by
  intro rid path h
  cases t with
  | anchor => cases h
  | external => exact ⟨n, v, h⟩

mutual

theorem jsChildren_clean (w : List Place) : ∀ (cs : List JsParagraphChild) (p : Paragraph) (n : Ids),
    Clean (walkParagraphChildren w p.children) → Clean (walkParagraphChildren w (jsChildren lib p cs n).1.children)
  | [], p, n, h => by simpa [jsChildren] using h
  | c :: cs, p, n, h => by
    rw [jsChildren]
    refine jsChildren_clean w cs _ _ ?_
    simp only [Paragraph.addChild, js_walkParagraphChildren_append, clean_append, walkParagraphChildren, List.append_nil]
    exact ⟨h, jsChild_clean w c n⟩

theorem jsChild_clean (w : List Place) : ∀ (c : JsParagraphChild) (n : Ids), Clean (walkParagraphChild w (jsChild lib c n).1)
  | .run r, n => by simp [jsChild, walkParagraphChild, jsRun_clean]
  | .insert r a d, n => by simp [jsChild, walkParagraphChild, jsInsert_clean]
  | .delete r a d, n => by simp [jsChild, walkParagraphChild, jsDelete_clean]
  | .bookmarkStart _ _, n => by simp [jsChild, walkParagraphChild, clean_nil]
  | .bookmarkEnd _, n => by simp [jsChild, walkParagraphChild, clean_nil]
  | .commentEnd _, n => by simp [jsChild, walkParagraphChild, clean_nil]
  | .numPages, n => by simp [jsChild, walkParagraphChild, clean_nil]
  | .pageNum, n => by simp [jsChild, walkParagraphChild, clean_nil]
  | .comment c, n => by
    rw [jsChild]
    simp only [walkParagraphChild, clean_cons]
    exact ⟨trivial, jsComment_clean (.comment :: w) c n⟩
  | .hyperlink v t cs, n => by
    have key : ∀ m, Clean (walkHyperlink w (jsHyperlink lib (Hyperlink.new n.hyperlink v t) cs m).1) := by
      intro m
      have e : (Hyperlink.new n.hyperlink v t).children = [] := by cases t <;> rfl
      have h1 := jsHyperlink_clean (.hyperlink :: w) cs (Hyperlink.new n.hyperlink v t) m
        (by rw [e]; simp [walkParagraphChildren, clean_nil])
      have h2 := jsHyperlink_link lib cs (Hyperlink.new n.hyperlink v t) m
      generalize jsHyperlink lib (Hyperlink.new n.hyperlink v t) cs m = x at h1 h2
      obtain ⟨⟨l, _, xs⟩, m⟩ := x
      rw [walkHyperlink, clean_cons]
      refine ⟨fun rid path e => ?_, h1⟩
      exact new_link_made n.hyperlink v t rid path (h2 ▸ e)
    rw [jsChild]
    simp only [walkParagraphChild]
    exact key _

theorem jsHyperlink_clean (w : List Place) : ∀ (cs : List JsParagraphChild) (h : Hyperlink) (n : Ids),
    Clean (walkParagraphChildren w h.children) → Clean (walkParagraphChildren w (jsHyperlink lib h cs n).1.children)
  | [], h, n, hh => by simpa [jsHyperlink] using hh
  | .comment c :: cs, h, n, hh => by
    rw [jsHyperlink]
    refine jsHyperlink_clean w cs _ _ ?_
    simp only [Hyperlink.addChild, js_walkParagraphChildren_append, clean_append, walkParagraphChildren, walkParagraphChild,
      List.append_nil, clean_cons]
    exact ⟨hh, trivial, jsComment_clean (.comment :: w) c n⟩
  | .run r :: cs, h, n, hh => by
    rw [jsHyperlink]
    refine jsHyperlink_clean w cs _ _ ?_
    simp [Hyperlink.addChild, js_walkParagraphChildren_append, clean_append, walkParagraphChildren, walkParagraphChild, jsRun_clean, hh, clean_nil]
  | .insert r a d :: cs, h, n, hh => by
    rw [jsHyperlink]
    refine jsHyperlink_clean w cs _ _ ?_
    simp [Hyperlink.addChild, js_walkParagraphChildren_append, clean_append, walkParagraphChildren, walkParagraphChild, jsInsert_clean, hh, clean_nil]
  | .delete r a d :: cs, h, n, hh => by
    rw [jsHyperlink]
    refine jsHyperlink_clean w cs _ _ ?_
    simp [Hyperlink.addChild, js_walkParagraphChildren_append, clean_append, walkParagraphChildren, walkParagraphChild, jsDelete_clean, hh, clean_nil]
  | .bookmarkStart _ _ :: cs, h, n, hh => by
    rw [jsHyperlink]
    refine jsHyperlink_clean w cs _ _ ?_
    simp [Hyperlink.addChild, js_walkParagraphChildren_append, clean_append, walkParagraphChildren, walkParagraphChild, hh, clean_nil]
  | .bookmarkEnd _ :: cs, h, n, hh => by
    rw [jsHyperlink]
    refine jsHyperlink_clean w cs _ _ ?_
    simp [Hyperlink.addChild, js_walkParagraphChildren_append, clean_append, walkParagraphChildren, walkParagraphChild, hh, clean_nil]
  | .commentEnd _ :: cs, h, n, hh => by
    rw [jsHyperlink]
    refine jsHyperlink_clean w cs _ _ ?_
    simp [Hyperlink.addChild, js_walkParagraphChildren_append, clean_append, walkParagraphChildren, walkParagraphChild, hh, clean_nil]
  | .hyperlink _ _ _ :: cs, h, n, hh => by rw [jsHyperlink]; exact jsHyperlink_clean w cs _ _ hh
  | .numPages :: cs, h, n, hh => by rw [jsHyperlink]; exact jsHyperlink_clean w cs _ _ hh
  | .pageNum :: cs, h, n, hh => by rw [jsHyperlink]; exact jsHyperlink_clean w cs _ _ hh

theorem jsComment_clean (w : List Place) : ∀ (c : JsComment) (n : Ids), Clean (walkComment w (jsComment lib c n).1)
  | ⟨id, author, date, parent, ps⟩, n => by
    rw [walkComment_children, jsComment_children]
    exact jsCommentChildren_clean w ps (Comment.new id) n (by simp [Comment.new, walkBlocks, clean_nil])

theorem jsCommentChildren_clean (w : List Place) : ∀ (ps : List JsParagraph) (c : Comment) (n : Ids),
    Clean (walkBlocks w c.children) → Clean (walkBlocks w (jsCommentChildren lib c ps n).1.children)
  | [], c, n, h => by simpa [jsCommentChildren] using h
  | ⟨cs, pr, hn⟩ :: ps, c, n, h => by
    rw [jsCommentChildren]
    refine jsCommentChildren_clean w ps _ _ ?_
    simp [Comment.addParagraph, js_walkBlocks_append, clean_append, walkBlocks, walkBlock, jsParagraph_clean w ⟨cs, pr, hn⟩, h, clean_nil]

theorem jsParagraph_clean (w : List Place) : ∀ (p : JsParagraph) (n : Ids), Clean (walkParagraph w (jsParagraph lib p n).1)
  | ⟨cs, pr, hn⟩, n => by
    have := jsChildren_clean (.paragraph :: w) cs (Paragraph.new (generateParaId n.paragraph).1)
      { n with paragraph := (generateParaId n.paragraph).2 } (by simp [Paragraph.new, walkParagraphChildren, clean_nil])
    rw [jsParagraph]
    simp only [walkParagraph, Paragraph.format, clean_cons]
    exact ⟨trivial, this⟩

end

mutual

theorem jsCellChildren_clean (w : List Place) : ∀ (cs : List JsCellChild) (c : Cell) (n : Ids), (∀ t ∈ jsContentTocs cs, TocMade t) →
    Clean (walkCellContents w c.children) → Clean (walkCellContents w (jsCellChildren lib c cs n).1.children)
  | [], c, n, _, h => by simpa [jsCellChildren] using h
  | .paragraph p :: cs, c, n, ht, h => by
    rw [jsCellChildren]
    refine jsCellChildren_clean w cs _ _ (fun t hx => ht t (by rw [jsContentTocs]; exact hx)) ?_
    simp [jsCellChild, walkCellContents_append, clean_append, walkCellContents, walkCellContent, jsParagraph_clean lib w, h, clean_nil]
  | .table t :: cs, c, n, ht, h => by
    rw [jsCellChildren]
    refine jsCellChildren_clean w cs _ _ (fun t hx => ht t (by rw [jsContentTocs]; exact List.mem_append_right _ hx)) ?_
    have := jsTable_clean w t n fun t hx => ht t (by rw [jsContentTocs]; exact List.mem_append_left _ hx)
    simp [jsCellChild, walkCellContents_append, clean_append, walkCellContents, walkCellContent, this, h, clean_nil]
  | .toc t :: cs, c, n, ht, h => by
    rw [jsCellChildren]
    refine jsCellChildren_clean w cs _ _ (fun t hx => ht t (by rw [jsContentTocs]; exact List.mem_cons_of_mem _ hx)) ?_
    have : Clean (walkToc w t) := ht t (by rw [jsContentTocs]; exact List.mem_cons_self ..) w
    simp [jsCellChild, walkCellContents_append, clean_append, walkCellContents, walkCellContent, this, h, clean_nil]

theorem jsCell_clean (w : List Place) : ∀ (c : JsCell) (n : Ids), (∀ t ∈ jsContentTocs c.children, TocMade t) → Clean (walkCell w (jsCell lib c n).1)
  | ⟨cs, pr, hn⟩, n, ht => by
    have := jsCellChildren_clean (.cell :: w) cs {} n ht (by simp [walkCellContents, clean_nil])
    rw [jsCell]
    simp only [walkCell, clean_cons]
    exact ⟨trivial, this⟩

theorem jsCells_clean (w : List Place) : ∀ (cs : List JsCell) (r : Row) (n : Ids), (∀ t ∈ jsCellsTocs cs, TocMade t) →
    Clean (walkCells w r.cells) → Clean (walkCells w (jsCells lib r cs n).1.cells)
  | [], r, n, _, h => by simpa [jsCells] using h
  | ⟨xs, pr, hn⟩ :: cs, r, n, ht, h => by
    rw [jsCells]
    refine jsCells_clean w cs _ _ (fun t hx => ht t (by rw [jsCellsTocs]; exact List.mem_append_right _ hx)) ?_
    have := jsCell_clean w ⟨xs, pr, hn⟩ n fun t hx => ht t (by rw [jsCellsTocs]; exact List.mem_append_left _ hx)
    simp [js_walkCells_append, clean_append, walkCells, this, h, clean_nil]

theorem jsRow_clean (w : List Place) : ∀ (r : JsRow) (n : Ids), (∀ t ∈ jsCellsTocs r.cells, TocMade t) → Clean (walkRow w (jsRow lib r n).1)
  | ⟨cs, pr, hn⟩, n, ht => by
    have := jsCells_clean w cs (Row.new []) n ht (by simp [Row.new, walkCells, clean_nil])
    rw [jsRow]
    simpa only [walkRow] using this

theorem jsRows_clean (w : List Place) : ∀ (rs : List JsRow) (t : Table) (n : Ids), (∀ t ∈ jsRowsTocs rs, TocMade t) →
    Clean (walkRows w t.rows) → Clean (walkRows w (jsRows lib t rs n).1.rows)
  | [], t, n, _, h => by simpa [jsRows] using h
  | ⟨xs, pr, hn⟩ :: rs, t, n, ht, h => by
    rw [jsRows]
    refine jsRows_clean w rs _ _ (fun t hx => ht t (by rw [jsRowsTocs]; exact List.mem_append_right _ hx)) ?_
    have := jsRow_clean w ⟨xs, pr, hn⟩ n fun t hx => ht t (by rw [jsRowsTocs]; exact List.mem_append_left _ hx)
    simp [Table.addRow, walkRows_append, clean_append, walkRows, this, h, clean_nil]

theorem jsTable_clean (w : List Place) : ∀ (t : JsTable) (n : Ids), (∀ x ∈ jsTableTocs t, TocMade x) → Clean (walkTable w (jsTable lib t n).1)
  | ⟨rs, g, pr, hn⟩, n, ht => by
    have := jsRows_clean w rs (Table.new []) n (fun t hx => ht t (by rw [jsTableTocs]; exact hx)) (by simp [Table.new, walkRows, clean_nil])
    rw [jsTable]
    simp only [walkTable, clean_cons]
    exact ⟨trivial, this⟩

end

theorem jsItems_clean : ∀ (cs : List JsChild) (d : DocxFile) (n : Ids) (f : Bool), (∀ t ∈ jsTocs ⟨cs, f⟩, TocMade t) →
    (∀ c ∈ d.document.children, Clean (walkDocumentChild [.document] c)) →
    ∀ c ∈ (jsItems lib d cs n).1.document.children, Clean (walkDocumentChild [.document] c)
  | [], d, n, f, _, h => by simpa [jsItems] using h
  | c :: cs, d, n, f, ht, h => by
    have ht' : ∀ t ∈ jsTocs ⟨cs, f⟩, TocMade t := fun t hx => ht t (by
      rw [jsTocs] at hx ⊢
      exact List.mem_append_right _ hx)
    rw [jsItems]
    refine jsItems_clean cs _ _ f ht' ?_
    intro x hx
    cases c with
    | table t =>
      rcases List.mem_append.1 hx with hx | hx
      · exact h x hx
      · rw [List.mem_singleton.1 hx]
        exact jsTable_clean lib _ t n fun y hy => ht y (by rw [jsTocs]; exact List.mem_append_left _ hy)
    | toc t =>
      rcases List.mem_append.1 hx with hx | hx
      · exact h x hx
      · rw [List.mem_singleton.1 hx]
        exact ht t (by rw [jsTocs]; exact List.mem_append_left _ (List.mem_singleton.2 rfl)) _
    | paragraph p =>
      rcases List.mem_append.1 hx with hx | hx
      · exact h x hx
      · rw [List.mem_singleton.1 hx]
        exact jsParagraph_clean lib _ p n
    | bookmarkStart i s =>
      rcases List.mem_append.1 hx with hx | hx
      · exact h x hx
      · rw [List.mem_singleton.1 hx]
        exact clean_nil
    | bookmarkEnd i =>
      rcases List.mem_append.1 hx with hx | hx
      · exact h x hx
      · rw [List.mem_singleton.1 hx]
        exact clean_nil

theorem js_document (d : JsDocx) (n : Ids) : (d.build lib n).1.document = (jsItems lib DocxFile.new d.children n).1.document := by
  unfold JsDocx.build DocxFile.noteNumbering; rfl

theorem js_sectionProperty : ∀ (cs : List JsChild) (d : DocxFile) (n : Ids),
    (jsItems lib d cs n).1.document.sectionProperty = d.document.sectionProperty
  | [], d, n => by rw [jsItems]
  | c :: cs, d, n => by
    rw [jsItems, js_sectionProperty cs]
    cases c <;> rfl

theorem js_made (d : JsDocx) (n : Ids) (ht : ∀ t ∈ jsTocs d, TocMade t) : Made (d.build lib n).1.document := by
  have h := jsItems_clean lib d.children DocxFile.new n d.hasNumberings ht (fun _ hx => by cases hx)
  rw [js_document]
  have hw : Clean (walkDocument (jsItems lib DocxFile.new d.children n).1.document) := by
    rw [walkDocument, clean_append, js_sectionProperty]
    refine ⟨fun x hx => ?_, clean_nil⟩
    obtain ⟨c, hc, hx⟩ := List.mem_flatMap.1 hx
    exact h c hc x hx
  refine ⟨fun p hp => ?_, fun x hx => ?_⟩
  · obtain ⟨i, hi, e⟩ := List.mem_filterMap.1 hp
    obtain ⟨y, hy, rfl⟩ := List.mem_map.1 hi
    have := hw y (List.mem_filter.1 hy).1
    cases hv : y.2 <;> rw [hv] at e this <;> simp only [Item.picture?, Option.some.injEq, reduceCtorEq] at e
    subst e
    exact this
  · obtain ⟨i, hi, e⟩ := List.mem_filterMap.1 hx
    obtain ⟨y, hy, rfl⟩ := List.mem_map.1 hi
    have := hw y (List.mem_filter.1 hy).1
    generalize y.2 = v at e this
    unfold Item.external? at e
    split at e
    · cases e
      exact this _ _ rfl
    · cases e

/-! ## The calls of the Rust library that make the same document -/

theorem calls_append : ∀ (a b : List Call) (d : DocxFile), d.calls (a ++ b) = (d.calls a).bind (·.calls b)
  | [], b, d => rfl
  | c :: a, b, d => by
    rw [List.cons_append, DocxFile.calls, DocxFile.calls]
    cases d.call c with
    | none => rfl
    | some d => exact calls_append a b d

theorem jsRows_flag : ∀ (rs : List JsRow) (t : Table) (n : Ids), (jsRows lib t rs n).1.hasNumbering = t.hasNumbering
  | [], t, n => by rw [jsRows]
  | r :: rs, t, n => by rw [jsRows, jsRows_flag rs]; rfl

theorem jsTable_flag (t : JsTable) (n : Ids) : (jsTable lib t n).1.hasNumbering = false := by
  obtain ⟨rs, g, p, h⟩ := t
  rw [jsTable]
  dsimp only
  rw [jsRows_flag]
  rfl

theorem noteNumbering_false (d : DocxFile) : d.noteNumbering false = d := by
  unfold DocxFile.noteNumbering
  rw [Bool.or_false]

theorem jsItems_calls : ∀ (cs : List JsChild) (d : DocxFile) (n : Ids), ∃ l, d.calls l = some (jsItems lib d cs n).1
  | [], d, n => ⟨[], by rw [jsItems]; rfl⟩
  | c :: cs, d, n => by
    obtain ⟨l, hl⟩ := jsItems_calls cs (c.build lib d n).1 (c.build lib d n).2
    rw [jsItems]
    cases c with
    | paragraph p => exact ⟨.addParagraph (jsParagraph lib p n).1 :: l, hl⟩
    | table t =>
      refine ⟨.addTable (jsTable lib t n).1 :: l, ?_⟩
      have : d.addTable (jsTable lib t n).1 = { d with document := d.document.addTable (jsTable lib t n).1 } := by
        rw [DocxFile.addTable, jsTable_flag, noteNumbering_false]
      rw [DocxFile.calls, DocxFile.call, this]
      exact hl
    | bookmarkStart i s => exact ⟨.addBookmarkStart i s :: l, hl⟩
    | bookmarkEnd i => exact ⟨.addBookmarkEnd i :: l, hl⟩
    | toc t => exact ⟨.addToc t :: l, hl⟩

theorem jsItems_note : ∀ (cs : List JsChild) (d : DocxFile) (n : Ids) (b : Bool),
    (jsItems lib (d.noteNumbering b) cs n).1 = (jsItems lib d cs n).1.noteNumbering b
  | [], d, n, b => by rw [jsItems, jsItems]
  | c :: cs, d, n, b => by
    have h : ∀ c : JsChild, (c.build lib (d.noteNumbering b) n).1 = (c.build lib d n).1.noteNumbering b ∧
        (c.build lib (d.noteNumbering b) n).2 = (c.build lib d n).2 := by
      intro c
      cases c with
      | paragraph p =>
        refine ⟨?_, rfl⟩
        simp only [JsChild.build, DocxFile.addParagraph, DocxFile.noteNumbering, Bool.or_assoc, Bool.or_comm b]
      | _ => exact ⟨rfl, rfl⟩
    rw [jsItems, jsItems]
    rw [(h c).1, (h c).2, jsItems_note cs]

/-- A numbered paragraph, added and replaced with an empty body, leaves nothing but the flag. -/
theorem note_calls : DocxFile.new.calls [.addParagraph ((Paragraph.new []).numbering 0 0), .document {}] = some (DocxFile.new.noteNumbering true) :=
  rfl

theorem js_calls (d : JsDocx) (n : Ids) : ∃ l, DocxFile.new.calls l = some (d.build lib n).1 := by
  unfold JsDocx.build
  dsimp only
  cases hb : d.hasNumberings with
  | false =>
    rw [noteNumbering_false]
    exact jsItems_calls lib d.children _ n
  | true =>
    obtain ⟨l, hl⟩ := jsItems_calls lib d.children (DocxFile.new.noteNumbering true) n
    refine ⟨[.addParagraph ((Paragraph.new []).numbering 0 0), .document {}] ++ l, ?_⟩
    rw [calls_append, note_calls, Option.bind_some, hl, jsItems_note]

end Docx.Spec
