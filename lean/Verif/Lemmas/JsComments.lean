import Verif.Lemmas.JsContent

/-!
# The comments of a document built through the JavaScript interface
-/

namespace Docx.Spec

open Docx Docx.Xml

/-- The comment an item is, outside tables of contents. -/
def noteAt (w : List Place) : Item → List (Nat × Str × Str × Option Nat × List (List Shown))
  | .comment _ c => if Place.tocBefore ∈ w ∨ Place.tocAfter ∈ w then [] else [commentSeen c]
  | _ => []

theorem commentsIn_pick (l : Walk) : (commentsIn l).map commentSeen = pick noteAt l := by
  unfold commentsIn pick
  induction l with
  | nil => rfl
  | cons x l ih =>
    obtain ⟨w, i⟩ := x
    rw [List.flatMap_cons, ← ih, List.filterMap_cons]
    cases i with
    | comment i c =>
      simp only [noteAt]
      by_cases h : Place.tocBefore ∈ w ∨ Place.tocAfter ∈ w
      · simp only [if_pos h, List.nil_append]
      · simp only [if_neg h, List.map_cons, List.cons_append, List.nil_append]
    | _ => rfl

/-- Outside tables of contents. -/
def NoToc (w : List Place) : Prop := ¬ (Place.tocBefore ∈ w ∨ Place.tocAfter ∈ w)

theorem NoToc.cons {w : List Place} (h : NoToc w) {p : Place} (hp : p ≠ .tocBefore ∧ p ≠ .tocAfter) : NoToc (p :: w) := by
  unfold NoToc at *
  simp only [List.mem_cons]
  rintro ((e | e) | (e | e))
  · exact hp.1 e.symm
  · exact h (.inl e)
  · exact hp.2 e.symm
  · exact h (.inr e)

theorem note_dead {w : List Place} (h : Place.tocBefore ∈ w ∨ Place.tocAfter ∈ w) : Dead noteAt w := fun a i => by
  cases i <;> simp only [noteAt]
  rw [if_pos]
  simp only [List.mem_append]
  exact h.imp .inr .inr

theorem toc_notes (w : List Place) (t : Toc) : pick noteAt (walkToc w t) = [] := by
  obtain ⟨a, b, c, d, e, f, g, bs, as, j, k⟩ := t
  rw [walkToc, pick_cons, pick_append, walkBlocks_dead _ _ (note_dead (by simp)), walkBlocks_dead _ _ (note_dead (by simp))]
  rfl

variable (lib : ImageLib)

/-- What becomes of a comment. -/
def GivenComment.arrived (g : GivenComment) : Nat × Str × Str × Option Nat × List (List Shown) :=
  (g.id, (truthy g.author).getD c!"unnamed", (truthy g.date).getD c!"1970-01-01T00:00:00Z", parentId g.parent, g.content)

theorem jsRunChildren_notes (w : List Place) : ∀ (cs : List JsRunChild) (r : Run) (n : Ids),
    pick noteAt (walkRunChildren w (jsRunChildren lib r cs n).1.children) = pick noteAt (walkRunChildren w r.children)
  | [], r, n => by simp [jsRunChildren]
  | c :: cs, r, n => by
    rw [jsRunChildren, jsRunChildren_notes w cs]
    cases c with
    | brk t =>
      cases t <;>
      simp [JsRunChild.build, Run.addBreak, js_walkRunChildren_append, pick_append, walkRunChildren, walkRunChild,
        pick_cons, pick_nil, noteAt]
    | _ =>
      simp [JsRunChild.build, Run.addImage, Run.addTc, Run.addFieldChar, Run.addInstrText, Run.addText, Run.addDeleteText,
        Run.addTab, Run.addCarriageReturn, Run.addPtab,
        js_walkRunChildren_append, pick_append, walkRunChildren, walkRunChild, pick_cons, pick_nil, noteAt]

theorem jsRun_notes (w : List Place) (r : JsRun) (n : Ids) : pick noteAt (walkRun w (r.build lib n).1) = [] := by
  have hc : (r.build lib n).1.children = (jsRunChildren lib {} r.children n).1.children := by
    unfold JsRun.build
    cases r.property <;> rfl
  generalize r.build lib n = x at hc
  obtain ⟨⟨pr, cs⟩, m⟩ := x
  simp only at hc
  subst hc
  rw [walkRun, pick_cons, jsRunChildren_notes lib (.run :: w)]
  simp [noteAt, walkRunChildren, pick_nil]

theorem jsInsert_notes (w : List Place) (r : JsRun) (a d : Option Str) (n : Ids) :
    pick noteAt (walkInsert w (jsInsert lib r a d n).1) = [] := by
  have hc : (jsInsert lib r a d n).1.children = [.run (r.build lib n).1] := by
    unfold jsInsert
    cases truthy a <;> cases truthy d <;> rfl
  generalize jsInsert lib r a d n = x at hc
  obtain ⟨⟨_, _, cs⟩, m⟩ := x
  simp only at hc
  subst hc
  simp [walkInsert, walkInsertChildren, walkInsertChild, jsRun_notes]

theorem jsDelete_notes (w : List Place) (r : JsRun) (a d : Option Str) (n : Ids) :
    pick noteAt (walkDelete w (jsDelete lib r a d n).1) = [] := by
  have hc : (jsDelete lib r a d n).1.children = [.run (r.build lib n).1] := by
    unfold jsDelete
    cases truthy a <;> cases truthy d <;> rfl
  generalize jsDelete lib r a d n = x at hc
  obtain ⟨⟨_, _, cs⟩, m⟩ := x
  simp only at hc
  subst hc
  simp [walkDelete, walkDeleteChildren, walkDeleteChild, jsRun_notes]

theorem js_walkBlocks_append : ∀ (w : List Place) (a b : List Block), walkBlocks w (a ++ b) = walkBlocks w a ++ walkBlocks w b
  | _, [], _ => rfl
  | w, x :: a, b => by simp only [List.cons_append, walkBlocks, js_walkBlocks_append w a b, List.append_assoc]

/-- What is kept of a comment while paragraphs are added to it. -/
theorem jsCommentChildren_seen : ∀ (ps : List JsParagraph) (c : Comment) (n : Ids),
    commentSeen (jsCommentChildren lib c ps n).1
      = (c.id, c.author, c.date, c.parent,
          c.children.map (fun b => (Walk.within inPart (walkBlock [.comments] b)).flatMap Item.shown)
            ++ ps.map (JsParagraph.content lib))
  | [], c, n => by simp [jsCommentChildren, commentSeen]
  | p :: ps, c, n => by
    rw [jsCommentChildren, jsCommentChildren_seen ps]
    simp [Comment.addParagraph, walkBlock, within_shown, jsParagraph_shown lib [.comments] (by decide)]

theorem jsComment_seen (c : JsComment) (n : Ids) :
    commentSeen (jsComment lib c n).1
      = GivenComment.arrived ⟨c.id, c.author, c.date, c.parent, c.children.map (JsParagraph.content lib)⟩ := by
  obtain ⟨id, author, date, parent, ps⟩ := c
  have := jsCommentChildren_seen lib ps (Comment.new id) n
  rw [jsComment, GivenComment.arrived]
  simp only
  generalize jsCommentChildren lib (Comment.new id) ps n = x at this
  obtain ⟨⟨i, a, d, xs, p⟩, m⟩ := x
  simp only [commentSeen, Comment.new, List.map_nil, List.nil_append, Prod.mk.injEq] at this
  obtain ⟨h1, h2, h3, h4, h5⟩ := this
  cases truthy author <;> cases truthy date <;> cases parentId parent <;>
    simp [onSome, commentSeen, Comment.setAuthor, Comment.setDate, Comment.setParent, h1, h2, h3, h4, h5]

theorem jsComment_children (c : JsComment) (n : Ids) :
    (jsComment lib c n).1.children = (jsCommentChildren lib (Comment.new c.id) c.children n).1.children := by
  obtain ⟨id, author, date, parent, ps⟩ := c
  rw [jsComment]
  cases truthy author <;> cases truthy date <;> cases parentId parent <;> rfl

theorem walkComment_children (w : List Place) (c : Comment) : walkComment w c = walkBlocks w c.children := by
  cases c; rfl

mutual

theorem jsChildren_notes (w : List Place) (hw : NoToc w) : ∀ (cs : List JsParagraphChild) (p : Paragraph) (n : Ids),
    pick noteAt (walkParagraphChildren w (jsChildren lib p cs n).1.children)
      = pick noteAt (walkParagraphChildren w p.children) ++ (jsChildrenComments lib cs).map GivenComment.arrived
  | [], p, n => by simp [jsChildren, jsChildrenComments]
  | c :: cs, p, n => by
    rw [jsChildren, jsChildren_notes w hw cs]
    simp only [Paragraph.addChild, js_walkParagraphChildren_append, pick_append, walkParagraphChildren, List.append_nil,
      List.append_assoc]
    congr 1
    rw [jsChild_notes w hw c n]
    cases c <;> simp [jsChildrenComments, jsLinkComments]

theorem jsChild_notes (w : List Place) (hw : NoToc w) : ∀ (c : JsParagraphChild) (n : Ids),
    pick noteAt (walkParagraphChild w (jsChild lib c n).1) = (jsChildrenComments lib [c]).map GivenComment.arrived
  | .run r, n => by simp [jsChild, walkParagraphChild, jsRun_notes, jsChildrenComments]
  | .insert r a d, n => by simp [jsChild, walkParagraphChild, jsInsert_notes, jsChildrenComments]
  | .delete r a d, n => by simp [jsChild, walkParagraphChild, jsDelete_notes, jsChildrenComments]
  | .bookmarkStart _ _, n => by simp [jsChild, walkParagraphChild, pick_nil, jsChildrenComments]
  | .bookmarkEnd _, n => by simp [jsChild, walkParagraphChild, pick_nil, jsChildrenComments]
  | .commentEnd _, n => by simp [jsChild, walkParagraphChild, pick_nil, jsChildrenComments]
  | .numPages, n => by simp [jsChild, walkParagraphChild, pick_nil, jsChildrenComments]
  | .pageNum, n => by simp [jsChild, walkParagraphChild, pick_nil, jsChildrenComments]
  | .comment c, n => by
    rw [jsChild]
    simp only [walkParagraphChild, pick_cons, noteAt, if_neg hw, jsChildrenComments, List.append_nil]
    exact jsComment_notes w hw c n
  | .hyperlink v t cs, n => by
    have key : ∀ m, pick noteAt (walkHyperlink w (jsHyperlink lib (Hyperlink.new n.hyperlink v t) cs m).1)
        = (jsLinkComments lib cs).map GivenComment.arrived := by
      intro m
      have := jsHyperlink_notes (.hyperlink :: w) (hw.cons (by decide)) cs (Hyperlink.new n.hyperlink v t) m
      have e : (Hyperlink.new n.hyperlink v t).children = [] := by cases t <;> rfl
      rw [e] at this
      generalize jsHyperlink lib (Hyperlink.new n.hyperlink v t) cs m = x at this
      obtain ⟨⟨_, _, xs⟩, m⟩ := x
      rw [walkHyperlink, pick_cons, this]
      simp [noteAt, walkParagraphChildren, pick_nil]
    rw [jsChild]
    simp only [walkParagraphChild, jsChildrenComments, List.append_nil]
    exact key _

theorem jsHyperlink_notes (w : List Place) (hw : NoToc w) : ∀ (cs : List JsParagraphChild) (h : Hyperlink) (n : Ids),
    pick noteAt (walkParagraphChildren w (jsHyperlink lib h cs n).1.children)
      = pick noteAt (walkParagraphChildren w h.children) ++ (jsLinkComments lib cs).map GivenComment.arrived
  | [], h, n => by simp [jsHyperlink, jsLinkComments]
  | .comment c :: cs, h, n => by
    have := jsComment_notes w hw c n
    simp only [jsHyperlink, jsHyperlink_notes w hw cs, Hyperlink.addChild, js_walkParagraphChildren_append, pick_append,
      walkParagraphChildren, walkParagraphChild, pick_cons, noteAt, if_neg hw, List.append_nil, this, jsLinkComments,
      List.map_append, List.append_assoc]
  | .run r :: cs, h, n => by
    simp [jsHyperlink, jsHyperlink_notes w hw cs, Hyperlink.addChild, js_walkParagraphChildren_append, pick_append,
      walkParagraphChildren, walkParagraphChild, jsRun_notes, jsLinkComments]
  | .insert r a d :: cs, h, n => by
    simp [jsHyperlink, jsHyperlink_notes w hw cs, Hyperlink.addChild, js_walkParagraphChildren_append, pick_append,
      walkParagraphChildren, walkParagraphChild, jsInsert_notes, jsLinkComments]
  | .delete r a d :: cs, h, n => by
    simp [jsHyperlink, jsHyperlink_notes w hw cs, Hyperlink.addChild, js_walkParagraphChildren_append, pick_append,
      walkParagraphChildren, walkParagraphChild, jsDelete_notes, jsLinkComments]
  | .bookmarkStart _ _ :: cs, h, n => by
    simp [jsHyperlink, jsHyperlink_notes w hw cs, Hyperlink.addChild, js_walkParagraphChildren_append, pick_append,
      walkParagraphChildren, walkParagraphChild, pick_nil, jsLinkComments]
  | .bookmarkEnd _ :: cs, h, n => by
    simp [jsHyperlink, jsHyperlink_notes w hw cs, Hyperlink.addChild, js_walkParagraphChildren_append, pick_append,
      walkParagraphChildren, walkParagraphChild, pick_nil, jsLinkComments]
  | .commentEnd _ :: cs, h, n => by
    simp [jsHyperlink, jsHyperlink_notes w hw cs, Hyperlink.addChild, js_walkParagraphChildren_append, pick_append,
      walkParagraphChildren, walkParagraphChild, pick_nil, jsLinkComments]
  | .hyperlink _ _ _ :: cs, h, n => by simp [jsHyperlink, jsHyperlink_notes w hw cs, jsLinkComments]
  | .numPages :: cs, h, n => by simp [jsHyperlink, jsHyperlink_notes w hw cs, jsLinkComments]
  | .pageNum :: cs, h, n => by simp [jsHyperlink, jsHyperlink_notes w hw cs, jsLinkComments]

theorem jsComment_notes (w : List Place) (hw : NoToc w) : ∀ (c : JsComment) (n : Ids),
    [commentSeen (jsComment lib c n).1] ++ pick noteAt (walkComment (.comment :: w) (jsComment lib c n).1)
      = (jsCommentComments lib c).map GivenComment.arrived
  | ⟨id, author, date, parent, ps⟩, n => by
    rw [jsComment_seen, walkComment_children, jsComment_children,
      jsCommentChildren_notes (.comment :: w) (hw.cons (by decide)) ps (Comment.new id) n]
    simp [jsCommentComments, Comment.new, walkBlocks, pick_nil]

theorem jsCommentChildren_notes (w : List Place) (hw : NoToc w) : ∀ (ps : List JsParagraph) (c : Comment) (n : Ids),
    pick noteAt (walkBlocks w (jsCommentChildren lib c ps n).1.children)
      = pick noteAt (walkBlocks w c.children) ++ (jsParagraphsComments lib ps).map GivenComment.arrived
  | [], c, n => by simp [jsCommentChildren, jsParagraphsComments]
  | ⟨cs, pr, hn⟩ :: ps, c, n => by
    rw [jsCommentChildren, jsCommentChildren_notes w hw ps]
    simp [Comment.addParagraph, js_walkBlocks_append, pick_append, walkBlocks, walkBlock, jsParagraph_notes w hw ⟨cs, pr, hn⟩,
      jsParagraphsComments]

theorem jsParagraph_notes (w : List Place) (hw : NoToc w) : ∀ (p : JsParagraph) (n : Ids),
    pick noteAt (walkParagraph w (jsParagraph lib p n).1) = (jsChildrenComments lib p.children).map GivenComment.arrived
  | ⟨cs, pr, hn⟩, n => by
    have := jsChildren_notes (.paragraph :: w) (hw.cons (by decide)) cs (Paragraph.new (generateParaId n.paragraph).1)
      { n with paragraph := (generateParaId n.paragraph).2 }
    rw [jsParagraph]
    simp only [walkParagraph, Paragraph.format, pick_cons, this]
    simp [noteAt, walkParagraphChildren, pick_nil, Paragraph.new]

end

mutual

theorem jsCellChildren_notes (w : List Place) (hw : NoToc w) : ∀ (cs : List JsCellChild) (c : Cell) (n : Ids),
    pick noteAt (walkCellContents w (jsCellChildren lib c cs n).1.children)
      = pick noteAt (walkCellContents w c.children) ++ (jsCellsComments lib cs).map GivenComment.arrived
  | [], c, n => by simp [jsCellChildren, jsCellsComments]
  | .paragraph ⟨ps, pr, hn⟩ :: cs, c, n => by
    simp [jsCellChildren, jsCellChild, jsCellsComments, jsCellChildren_notes w hw cs, walkCellContents_append, pick_append,
      walkCellContents, walkCellContent, jsParagraph_notes lib w hw]
  | .table t :: cs, c, n => by
    simp [jsCellChildren, jsCellChild, jsCellsComments, jsCellChildren_notes w hw cs, walkCellContents_append, pick_append,
      walkCellContents, walkCellContent, jsTable_notes w hw t]
  | .toc t :: cs, c, n => by
    simp [jsCellChildren, jsCellChild, jsCellsComments, jsCellChildren_notes w hw cs, walkCellContents_append, pick_append,
      walkCellContents, walkCellContent, toc_notes]

theorem jsCell_notes (w : List Place) (hw : NoToc w) : ∀ (c : JsCell) (n : Ids),
    pick noteAt (walkCell w (jsCell lib c n).1) = (jsCellsComments lib c.children).map GivenComment.arrived
  | ⟨cs, pr, hn⟩, n => by
    have := jsCellChildren_notes (.cell :: w) (hw.cons (by decide)) cs {} n
    rw [jsCell]
    simp only [walkCell, pick_cons, this]
    simp [noteAt, walkCellContents, pick_nil]

theorem jsCells_notes (w : List Place) (hw : NoToc w) : ∀ (cs : List JsCell) (r : Row) (n : Ids),
    pick noteAt (walkCells w (jsCells lib r cs n).1.cells)
      = pick noteAt (walkCells w r.cells) ++ (jsRowComments lib cs).map GivenComment.arrived
  | [], r, n => by simp [jsCells, jsRowComments]
  | ⟨xs, pr, hn⟩ :: cs, r, n => by
    simp [jsCells, jsRowComments, jsCells_notes w hw cs, js_walkCells_append, pick_append, walkCells, jsCell_notes w hw ⟨xs, pr, hn⟩]

theorem jsRow_notes (w : List Place) (hw : NoToc w) : ∀ (r : JsRow) (n : Ids),
    pick noteAt (walkRow w (jsRow lib r n).1) = (jsRowComments lib r.cells).map GivenComment.arrived
  | ⟨cs, pr, hn⟩, n => by
    have := jsCells_notes w hw cs (Row.new []) n
    rw [jsRow]
    simp only [walkRow, this]
    simp [Row.new, walkCells, pick_nil]

theorem jsRows_notes (w : List Place) (hw : NoToc w) : ∀ (rs : List JsRow) (t : Table) (n : Ids),
    pick noteAt (walkRows w (jsRows lib t rs n).1.rows)
      = pick noteAt (walkRows w t.rows) ++ (jsRowsComments lib rs).map GivenComment.arrived
  | [], t, n => by simp [jsRows, jsRowsComments]
  | ⟨xs, pr, hn⟩ :: rs, t, n => by
    simp [jsRows, jsRowsComments, jsRows_notes w hw rs, Table.addRow, walkRows_append, pick_append, walkRows, jsRow_notes w hw ⟨xs, pr, hn⟩]

theorem jsTable_notes (w : List Place) (hw : NoToc w) : ∀ (t : JsTable) (n : Ids),
    pick noteAt (walkTable w (jsTable lib t n).1) = (jsTableComments lib t).map GivenComment.arrived
  | ⟨rs, g, pr, hn⟩, n => by
    have := jsRows_notes w hw rs (Table.new []) n
    rw [jsTable]
    simp only [walkTable, pick_cons, this]
    simp [noteAt, Table.new, walkRows, pick_nil, jsTableComments]

end

theorem jsItems_notes : ∀ (cs : List JsChild) (d : DocxFile) (n : Ids) (f : Bool),
    (jsItems lib d cs n).1.document.children.flatMap (fun c => pick noteAt (walkDocumentChild [.document] c))
      = d.document.children.flatMap (fun c => pick noteAt (walkDocumentChild [.document] c))
        ++ (jsComments lib ⟨cs, f⟩).map GivenComment.arrived
  | [], d, n, f => by simp [jsItems, jsComments]
  | c :: cs, d, n, f => by
    have hw : NoToc [.document] := by simp [NoToc]
    have h := jsItems_notes cs (c.build lib d n).1 (c.build lib d n).2 f
    rw [jsItems, h]
    cases c <;>
    simp [JsChild.build, jsComments, DocxFile.addParagraph, Document.addParagraph, Document.addTable, DocxFile.addBookmarkStart,
      Document.addBookmarkStart, DocxFile.addBookmarkEnd, Document.addBookmarkEnd, DocxFile.addToc, Document.addToc, pick_nil,
      DocxFile.noteNumbering, walkDocumentChild, jsParagraph_notes lib _ hw, jsTable_notes lib _ hw, toc_notes]

end Docx.Spec
