import Verif.Spec.Js
import Verif.Lemmas.Found
import Verif.Lemmas.DocTree
import Verif.Lemmas.Numbered
import Verif.Props.C07_C08_Strings

/-!
# The content of a document built through the JavaScript interface
-/

namespace Docx.Spec

open Docx Docx.Xml

/-- What an item shows, where it is part of the text. -/
def shownAt (w : List Place) (i : Item) : List Shown := if inPart w then i.shown else []

theorem within_shown (l : Walk) : (l.within inPart).flatMap Item.shown = pick shownAt l := by
  unfold Walk.within pick shownAt
  induction l with
  | nil => rfl
  | cons x l ih =>
    simp only [List.filter_cons, List.flatMap_cons]
    cases inPart x.1 <;> simp [ih]

theorem js_inPart_suffix {a w : List Place} (h : inPart w = false) : inPart (a ++ w) = false := by
  induction a with
  | nil => exact h
  | cons p a ih => rw [List.cons_append, inPart_cons, ih, Bool.and_false]

theorem shown_dead {w : List Place} (h : inPart w = false) : Dead shownAt w := fun a i => by
  simp [shownAt, js_inPart_suffix h]

theorem shown_comment (w : List Place) (c : Comment) : pick shownAt (walkComment (.comment :: w) c) = [] :=
  walkComment_dead c _ (shown_dead (by simp [inPart_cons]))

theorem js_walkRunChildren_append : ∀ (w : List Place) (a b : List RunChild),
    walkRunChildren w (a ++ b) = walkRunChildren w a ++ walkRunChildren w b
  | _, [], _ => rfl
  | w, x :: a, b => by simp only [List.cons_append, walkRunChildren, js_walkRunChildren_append w a b, List.append_assoc]

theorem js_walkParagraphChildren_append : ∀ (w : List Place) (a b : List ParagraphChild),
    walkParagraphChildren w (a ++ b) = walkParagraphChildren w a ++ walkParagraphChildren w b
  | _, [], _ => rfl
  | w, x :: a, b => by
    simp only [List.cons_append, walkParagraphChildren, js_walkParagraphChildren_append w a b, List.append_assoc]

theorem js_walkCells_append : ∀ (w : List Place) (a b : List Cell), walkCells w (a ++ b) = walkCells w a ++ walkCells w b
  | _, [], _ => rfl
  | w, x :: a, b => by simp only [List.cons_append, walkCells, js_walkCells_append w a b, List.append_assoc]

variable (lib : ImageLib)

theorem text_shown (s : Str) : (decodeText (escapeOwned (dropLineFeeds s))).toList = [oneLine s] := by
  rw [Props.addText_decodes]; rfl

theorem jsImage_shown (i : JsImage) (n : Ids) :
    (i.build lib n).1.image = (lib i.data).1 ∧ (i.build lib n).1.size = i.size.getD (lib i.data).2
      ∧ decide ((i.build lib n).1.positionType = .anchor) = i.floating ∧ (i.build lib n).1.rot = i.rot := by
  obtain ⟨data, size, fl, x, y, rot⟩ := i
  cases size <;> cases fl <;> exact ⟨rfl, rfl, rfl, rfl⟩

theorem jsRunChildren_shown (w : List Place) (hw : inPart w = true) : ∀ (cs : List JsRunChild) (r : Run) (n : Ids),
    pick shownAt (walkRunChildren w (jsRunChildren lib r cs n).1.children)
      = pick shownAt (walkRunChildren w r.children) ++ cs.flatMap (JsRunChild.content lib)
  | [], r, n => by simp [jsRunChildren]
  | c :: cs, r, n => by
    rw [jsRunChildren, jsRunChildren_shown w hw cs, List.flatMap_cons, ← List.append_assoc]
    congr 1
    cases c with
    | brk t =>
      cases t <;>
      simp [JsRunChild.build, JsRunChild.content, Run.addBreak, js_walkRunChildren_append, pick_append, walkRunChildren, walkRunChild,
        pick_cons, pick_nil, shownAt, hw, Item.shown]
    | image i =>
      simp [JsRunChild.build, JsRunChild.content, Run.addImage, js_walkRunChildren_append, pick_append, walkRunChildren, walkRunChild,
        pick_cons, pick_nil, shownAt, hw, Item.shown, jsImage_shown]
    | tc t o l i =>
      simp [JsRunChild.build, JsRunChild.content, Run.addTc, Run.addFieldChar, Run.addInstrText, js_walkRunChildren_append, pick_append,
        walkRunChildren, walkRunChild, pick_cons, pick_nil, shownAt, hw, Item.shown, InstrTC.new, Props.C03_escape_owned, Props.C01_escape_decodes]
    | _ =>
      simp [JsRunChild.build, JsRunChild.content, Run.addText, Run.addDeleteText, Run.addTab, Run.addCarriageReturn, Run.addPtab,
        js_walkRunChildren_append, pick_append, walkRunChildren, walkRunChild, pick_cons, pick_nil, shownAt, hw, Item.shown,
        text_shown]

theorem jsRun_shown (w : List Place) (hw : inPart w = true) (r : JsRun) (n : Ids) :
    pick shownAt (walkRun w (r.build lib n).1) = JsRun.content lib r := by
  have hc : (r.build lib n).1.children = (jsRunChildren lib {} r.children n).1.children := by
    unfold JsRun.build
    cases r.property <;> rfl
  generalize r.build lib n = x at hc
  obtain ⟨⟨pr, cs⟩, m⟩ := x
  simp only at hc
  subst hc
  rw [walkRun, pick_cons, jsRunChildren_shown lib (.run :: w) (by simp [inPart_cons, hw])]
  simp [shownAt, Item.shown, walkRunChildren, pick_nil, JsRun.content]

theorem jsInsert_shown (w : List Place) (hw : inPart w = true) (r : JsRun) (a d : Option Str) (n : Ids) :
    pick shownAt (walkInsert w (jsInsert lib r a d n).1) = JsRun.content lib r := by
  have hc : (jsInsert lib r a d n).1.children = [.run (r.build lib n).1] := by
    unfold jsInsert
    cases truthy a <;> cases truthy d <;> rfl
  generalize jsInsert lib r a d n = x at hc
  obtain ⟨⟨_, _, cs⟩, m⟩ := x
  simp only at hc
  subst hc
  simp [walkInsert, walkInsertChildren, walkInsertChild, jsRun_shown lib w hw]

theorem jsDelete_shown (w : List Place) (hw : inPart w = true) (r : JsRun) (a d : Option Str) (n : Ids) :
    pick shownAt (walkDelete w (jsDelete lib r a d n).1) = JsRun.content lib r := by
  have hc : (jsDelete lib r a d n).1.children = [.run (r.build lib n).1] := by
    unfold jsDelete
    cases truthy a <;> cases truthy d <;> rfl
  generalize jsDelete lib r a d n = x at hc
  obtain ⟨⟨_, _, cs⟩, m⟩ := x
  simp only at hc
  subst hc
  simp [walkDelete, walkDeleteChildren, walkDeleteChild, jsRun_shown lib w hw]

theorem jsHyperlink_shown (w : List Place) (hw : inPart w = true) : ∀ (cs : List JsParagraphChild) (h : Hyperlink) (n : Ids),
    pick shownAt (walkParagraphChildren w (jsHyperlink lib h cs n).1.children)
      = pick shownAt (walkParagraphChildren w h.children) ++ jsLinkContent lib cs
  | [], h, n => by simp [jsHyperlink, jsLinkContent]
  | c :: cs, h, n => by
    have hi : inPart (.insert :: w) = true := by simp [inPart_cons, hw]
    have hd : inPart (.delete :: w) = true := by simp [inPart_cons, hw]
    cases c <;>
    simp [jsHyperlink, jsLinkContent, jsHyperlink_shown w hw cs, Hyperlink.addChild, js_walkParagraphChildren_append, pick_append,
      walkParagraphChildren, walkParagraphChild, jsRun_shown lib w hw, jsInsert_shown lib _ hi, jsDelete_shown lib _ hd, pick_cons,
      pick_nil, shown_comment] <;> simp [shownAt, Item.shown]

theorem jsChild_shown (w : List Place) (hw : inPart w = true) (c : JsParagraphChild) (n : Ids) :
    pick shownAt (walkParagraphChild w (jsChild lib c n).1) = jsChildContent lib c := by
  have hi : inPart (.insert :: w) = true := by simp [inPart_cons, hw]
  have hd : inPart (.delete :: w) = true := by simp [inPart_cons, hw]
  cases c with
  | hyperlink v t cs =>
    have hl : inPart (.hyperlink :: w) = true := by simp [inPart_cons, hw]
    have key : ∀ m, pick shownAt (walkHyperlink w (jsHyperlink lib (Hyperlink.new n.hyperlink v t) cs m).1)
        = jsLinkContent lib cs := by
      intro m
      have := jsHyperlink_shown lib (.hyperlink :: w) hl cs (Hyperlink.new n.hyperlink v t) m
      have e : (Hyperlink.new n.hyperlink v t).children = [] := by cases t <;> rfl
      rw [e] at this
      generalize jsHyperlink lib (Hyperlink.new n.hyperlink v t) cs m = x at this
      obtain ⟨⟨_, _, xs⟩, m⟩ := x
      rw [walkHyperlink, pick_cons, this]
      simp [shownAt, Item.shown, walkParagraphChildren, pick_nil]
    rw [jsChild]
    exact key _
  | comment c =>
    rw [jsChild]
    simp only [walkParagraphChild, pick_cons, shown_comment, jsChildContent, shownAt, Item.shown]
    simp
  | _ =>
    simp [jsChild, jsChildContent, walkParagraphChild, jsRun_shown lib w hw, jsInsert_shown lib _ hi, jsDelete_shown lib _ hd,
      pick_nil]

theorem jsChildren_shown (w : List Place) (hw : inPart w = true) : ∀ (cs : List JsParagraphChild) (p : Paragraph) (n : Ids),
    pick shownAt (walkParagraphChildren w (jsChildren lib p cs n).1.children)
      = pick shownAt (walkParagraphChildren w p.children) ++ cs.flatMap (jsChildContent lib)
  | [], p, n => by simp [jsChildren]
  | c :: cs, p, n => by
    simp [jsChildren, jsChildren_shown w hw cs, Paragraph.addChild, js_walkParagraphChildren_append, pick_append,
      walkParagraphChildren, jsChild_shown lib w hw]

theorem jsParagraph_shown (w : List Place) (hw : inPart w = true) (p : JsParagraph) (n : Ids) :
    pick shownAt (walkParagraph w (jsParagraph lib p n).1) = JsParagraph.content lib p := by
  obtain ⟨cs, pr, hn⟩ := p
  have hc : (jsParagraph lib ⟨cs, pr, hn⟩ n).1.children
      = (jsChildren lib (Paragraph.new (generateParaId n.paragraph).1) cs
          { n with paragraph := (generateParaId n.paragraph).2 }).1.children := by
    rw [jsParagraph]; rfl
  generalize jsParagraph lib ⟨cs, pr, hn⟩ n = x at hc
  obtain ⟨⟨_, xs, _, _⟩, m⟩ := x
  simp only at hc
  subst hc
  rw [walkParagraph, pick_cons, jsChildren_shown lib (.paragraph :: w) (by simp [inPart_cons, hw])]
  simp [shownAt, Item.shown, walkParagraphChildren, pick_nil, JsParagraph.content, Paragraph.new]

mutual

theorem jsCellChildren_shown (w : List Place) (hw : inPart w = true) : ∀ (cs : List JsCellChild) (c : Cell) (n : Ids),
    pick shownAt (walkCellContents w (jsCellChildren lib c cs n).1.children)
      = pick shownAt (walkCellContents w c.children) ++ jsCellsContent lib w cs
  | [], c, n => by simp [jsCellChildren, jsCellsContent]
  | .paragraph p :: cs, c, n => by
    simp [jsCellChildren, jsCellChild, jsCellsContent, jsCellChildren_shown w hw cs, walkCellContents_append, pick_append,
      walkCellContents, walkCellContent, jsParagraph_shown lib w hw]
  | .table t :: cs, c, n => by
    simp [jsCellChildren, jsCellChild, jsCellsContent, jsCellChildren_shown w hw cs, walkCellContents_append, pick_append,
      walkCellContents, walkCellContent, jsTable_shown w hw t]
  | .toc t :: cs, c, n => by
    simp [jsCellChildren, jsCellChild, jsCellsContent, jsCellChildren_shown w hw cs, walkCellContents_append, pick_append,
      walkCellContents, walkCellContent, tocContent, within_shown]

theorem jsCell_shown (w : List Place) (hw : inPart w = true) : ∀ (c : JsCell) (n : Ids),
    pick shownAt (walkCell w (jsCell lib c n).1) = jsCellsContent lib (.cell :: w) c.children
  | ⟨cs, pr, hn⟩, n => by
    have := jsCellChildren_shown (.cell :: w) (by simp [inPart_cons, hw]) cs {} n
    rw [jsCell]
    simp only [walkCell, pick_cons, this]
    simp [shownAt, Item.shown, walkCellContents, pick_nil]

theorem jsCells_shown (w : List Place) (hw : inPart w = true) : ∀ (cs : List JsCell) (r : Row) (n : Ids),
    pick shownAt (walkCells w (jsCells lib r cs n).1.cells)
      = pick shownAt (walkCells w r.cells) ++ jsRowContent lib w cs
  | [], r, n => by simp [jsCells, jsRowContent]
  | ⟨xs, pr, hn⟩ :: cs, r, n => by
    simp [jsCells, jsRowContent, jsCells_shown w hw cs, js_walkCells_append, pick_append, walkCells, jsCell_shown w hw ⟨xs, pr, hn⟩]

theorem jsRow_shown (w : List Place) (hw : inPart w = true) : ∀ (r : JsRow) (n : Ids),
    pick shownAt (walkRow w (jsRow lib r n).1) = jsRowContent lib w r.cells
  | ⟨cs, pr, hn⟩, n => by
    have := jsCells_shown w hw cs (Row.new []) n
    rw [jsRow]
    simp only [walkRow, this]
    simp [Row.new, walkCells, pick_nil]

theorem jsRows_shown (w : List Place) (hw : inPart w = true) : ∀ (rs : List JsRow) (t : Table) (n : Ids),
    pick shownAt (walkRows w (jsRows lib t rs n).1.rows)
      = pick shownAt (walkRows w t.rows) ++ jsRowsContent lib w rs
  | [], t, n => by simp [jsRows, jsRowsContent]
  | ⟨xs, pr, hn⟩ :: rs, t, n => by
    simp [jsRows, jsRowsContent, jsRows_shown w hw rs, Table.addRow, walkRows_append, pick_append, walkRows, jsRow_shown w hw ⟨xs, pr, hn⟩]

theorem jsTable_shown (w : List Place) (hw : inPart w = true) : ∀ (t : JsTable) (n : Ids),
    pick shownAt (walkTable w (jsTable lib t n).1) = jsTableContent lib w t
  | ⟨rs, g, pr, hn⟩, n => by
    have := jsRows_shown w hw rs (Table.new []) n
    rw [jsTable]
    simp only [walkTable, pick_cons, this]
    simp [shownAt, Item.shown, Table.new, walkRows, pick_nil, jsTableContent]

end

theorem jsItems_shown : ∀ (cs : List JsChild) (d : DocxFile) (n : Ids),
    (jsItems lib d cs n).1.document.children.flatMap (fun c => pick shownAt (walkDocumentChild [.document] c))
      = d.document.children.flatMap (fun c => pick shownAt (walkDocumentChild [.document] c))
        ++ cs.flatMap (JsChild.content lib)
    ∧ (jsItems lib d cs n).1.document.sectionProperty = d.document.sectionProperty
  | [], d, n => by simp [jsItems]
  | c :: cs, d, n => by
    have hw : inPart [.document] = true := by decide
    obtain ⟨h, h'⟩ := jsItems_shown cs (c.build lib d n).1 (c.build lib d n).2
    rw [jsItems, h, h', List.flatMap_cons, ← List.append_assoc]
    cases c <;>
    simp [JsChild.build, JsChild.content, DocxFile.addParagraph, Document.addParagraph, Document.addTable, DocxFile.addBookmarkStart,
      Document.addBookmarkStart, DocxFile.addBookmarkEnd, Document.addBookmarkEnd, DocxFile.addToc, Document.addToc, pick_nil,
      DocxFile.noteNumbering, walkDocumentChild, jsParagraph_shown lib _ hw, jsTable_shown lib _ hw, tocContent, within_shown]

end Docx.Spec
