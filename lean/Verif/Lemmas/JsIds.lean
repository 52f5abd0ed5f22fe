import Verif.Lemmas.JsMade
import Verif.Props.C11_Ids

/-!
# The ids of the pictures and links of a document built through the JavaScript interface
-/

namespace Docx.Spec

open Docx Docx.Xml

/-- The two kinds of ids that relationships are found by. -/
inductive IdKind | pic | link

/-- The counter of a kind. -/
def IdKind.count : IdKind → Ids → Nat
  | .pic, n => n.pic
  | .link, n => n.hyperlink

/-- The ids in an item. -/
def IdKind.of : IdKind → Item → List Str
  | .pic, i => (i.picture?.map Pic.id).toList
  | .link, i => (i.external?.map Prod.fst).toList

/-- The text of an id. -/
def IdKind.mk : IdKind → Nat → Str
  | .pic, n => createPicRid n
  | .link, n => createHyperlinkRid n

theorem generateIds_add : ∀ (a b c : Nat), generateIds (a + b) c =
    ((generateIds a c).1 ++ (generateIds b (generateIds a c).2).1, (generateIds b (generateIds a c).2).2)
  | 0, b, c => by rw [Nat.zero_add]; rfl
  | a + 1, b, c => by
    rw [Nat.add_right_comm, generateIds, generateIds]
    dsimp only
    rw [generateIds_add a b]
    rfl

/-- The ids in a walk are those drawn one after the other while the counter goes from one value to the other. -/
def Draws (K : IdKind) (c c' : Nat) (l : Walk) : Prop :=
  ∃ m, l.flatMap (fun x => K.of x.2) = (generateIds m c).1.map K.mk ∧ (generateIds m c).2 = c'

variable {K : IdKind}

theorem draws_nil (c : Nat) : Draws K c c [] := ⟨0, rfl, rfl⟩

theorem draws_append {a b c : Nat} {l m : Walk} (h : Draws K a b l) (h' : Draws K b c m) : Draws K a c (l ++ m) := by
  obtain ⟨i, h1, h2⟩ := h
  obtain ⟨j, h3, h4⟩ := h'
  refine ⟨i + j, ?_, ?_⟩
  · rw [generateIds_add, List.flatMap_append, h1, h3, h2, List.map_append]
  · rw [generateIds_add]
    dsimp only
    rw [h2, h4]

theorem draws_skip {a b : Nat} {x : List Place × Item} {l : Walk} (hx : K.of x.2 = []) (h : Draws K a b l) : Draws K a b (x :: l) := by
  obtain ⟨i, h1, h2⟩ := h
  exact ⟨i, by rw [List.flatMap_cons, hx, h1]; rfl, h2⟩

theorem draws_take {a b : Nat} {x : List Place × Item} {l : Walk} (hx : K.of x.2 = [K.mk a]) (h : Draws K (generateId a).2 b l) :
    Draws K a b (x :: l) := by
  obtain ⟨i, h1, h2⟩ := h
  refine ⟨i + 1, ?_, ?_⟩
  · rw [List.flatMap_cons, hx, h1]; rfl
  · rw [generateIds]; exact h2

theorem draws_bare {t : Toc} (h : TocBare t) (w : List Place) (c : Nat) : Draws K c c (walkToc w t) := by
  refine ⟨0, ?_, rfl⟩
  rw [List.flatMap_eq_nil_iff.2]
  · rfl
  · intro x hx
    obtain ⟨h1, h2⟩ := h w x hx
    cases K
    · show (x.2.picture?.map Pic.id).toList = []
      rw [h1]; rfl
    · show (x.2.external?.map Prod.fst).toList = []
      rw [h2]; rfl

variable (lib : ImageLib)

theorem jsImage_draws (w : List Place) (i : JsImage) (n : Ids) :
    Draws K (K.count n) (K.count (i.build lib n).2) (walkRunChild w (.picture (i.build lib n).1)) := by
  have h1 : (i.build lib n).1.id = createPicRid n.pic := by
    unfold JsImage.build
    cases i.size <;> cases i.floating <;> rfl
  have h2 : (i.build lib n).2 = { n with pic := (generateId n.pic).2 } := rfl
  rw [walkRunChild, h2]
  cases K with
  | pic =>
    refine draws_skip rfl (draws_take ?_ (draws_nil _))
    show [(i.build lib n).1.id] = _
    rw [h1]; rfl
  | link => exact draws_skip rfl (draws_skip rfl (draws_nil _))

theorem draws_free {c : Nat} {l : Walk} (h : l.flatMap (fun x => K.of x.2) = []) : Draws K c c l := ⟨0, by rw [h]; rfl, rfl⟩

theorem jsRunChildren_draws (w : List Place) {a : Nat} : ∀ (cs : List JsRunChild) (r : Run) (n : Ids),
    Draws K a (K.count n) (walkRunChildren w r.children) →
    Draws K a (K.count (jsRunChildren lib r cs n).2) (walkRunChildren w (jsRunChildren lib r cs n).1.children)
  | [], r, n, h => by simpa [jsRunChildren] using h
  | c :: cs, r, n, h => by
    rw [jsRunChildren]
    refine jsRunChildren_draws w cs _ _ ?_
    have skip : ∀ xs : List RunChild, (walkRunChildren w xs).flatMap (fun y => K.of y.2) = [] →
        Draws K a (K.count n) (walkRunChildren w (r.children ++ xs)) := by
      intro xs hx
      rw [js_walkRunChildren_append]
      exact draws_append h (draws_free hx)
    cases c with
    | image i =>
      have := jsImage_draws (K := K) lib w i n
      simp only [JsRunChild.build, Run.addImage, js_walkRunChildren_append, walkRunChildren, List.append_nil]
      exact draws_append h this
    | brk t =>
      cases t with
      | unsupported => exact h
      | _ => exact skip _ (by cases K <;> rfl)
    | tc t o l i =>
      simp only [JsRunChild.build, Run.addTc, Run.addFieldChar, Run.addInstrText, List.append_assoc]
      exact skip _ (by cases K <;> rfl)
    | _ => exact skip _ (by cases K <;> rfl)

theorem jsRun_draws (w : List Place) (r : JsRun) (n : Ids) :
    Draws K (K.count n) (K.count (r.build lib n).2) (walkRun w (r.build lib n).1) := by
  have hc : (r.build lib n).1.children = (jsRunChildren lib {} r.children n).1.children := by
    unfold JsRun.build
    cases r.property <;> rfl
  have hn : (r.build lib n).2 = (jsRunChildren lib {} r.children n).2 := rfl
  have h := jsRunChildren_draws (K := K) (a := K.count n) lib (.run :: w) r.children {} n (by simp [walkRunChildren, draws_nil])
  rw [← hn] at h
  generalize r.build lib n = x at hc h
  obtain ⟨⟨pr, cs⟩, m⟩ := x
  simp only at hc
  subst hc
  rw [walkRun]
  exact draws_skip (by cases K <;> rfl) h

theorem jsInsert_draws (w : List Place) (r : JsRun) (a d : Option Str) (n : Ids) :
    Draws K (K.count n) (K.count (jsInsert lib r a d n).2) (walkInsert w (jsInsert lib r a d n).1) := by
  have hc : (jsInsert lib r a d n).1.children = [.run (r.build lib n).1] := by
    unfold jsInsert
    cases truthy a <;> cases truthy d <;> rfl
  have hn : (jsInsert lib r a d n).2 = (r.build lib n).2 := rfl
  rw [hn]
  generalize jsInsert lib r a d n = x at hc
  obtain ⟨⟨_, _, cs⟩, m⟩ := x
  simp only at hc
  subst hc
  simp [walkInsert, walkInsertChildren, walkInsertChild, jsRun_draws]

theorem jsDelete_draws (w : List Place) (r : JsRun) (a d : Option Str) (n : Ids) :
    Draws K (K.count n) (K.count (jsDelete lib r a d n).2) (walkDelete w (jsDelete lib r a d n).1) := by
  have hc : (jsDelete lib r a d n).1.children = [.run (r.build lib n).1] := by
    unfold jsDelete
    cases truthy a <;> cases truthy d <;> rfl
  have hn : (jsDelete lib r a d n).2 = (r.build lib n).2 := rfl
  rw [hn]
  generalize jsDelete lib r a d n = x at hc
  obtain ⟨⟨_, _, cs⟩, m⟩ := x
  simp only at hc
  subst hc
  simp [walkDelete, walkDeleteChildren, walkDeleteChild, jsRun_draws]

theorem jsComment_ids (c : JsComment) (n : Ids) :
    (jsComment lib c n).2 = (jsCommentChildren lib (Comment.new c.id) c.children n).2 := by
  obtain ⟨id, author, date, parent, ps⟩ := c
  rw [jsComment]

mutual

theorem jsChildren_draws (w : List Place) {a : Nat} : ∀ (cs : List JsParagraphChild) (p : Paragraph) (n : Ids),
    Draws K a (K.count n) (walkParagraphChildren w p.children) →
    Draws K a (K.count (jsChildren lib p cs n).2) (walkParagraphChildren w (jsChildren lib p cs n).1.children)
  | [], p, n, h => by simpa [jsChildren] using h
  | c :: cs, p, n, h => by
    rw [jsChildren]
    refine jsChildren_draws w cs _ _ ?_
    simp only [Paragraph.addChild, js_walkParagraphChildren_append, walkParagraphChildren, List.append_nil]
    exact draws_append h (jsChild_draws w c n)

theorem jsChild_draws (w : List Place) : ∀ (c : JsParagraphChild) (n : Ids),
    Draws K (K.count n) (K.count (jsChild lib c n).2) (walkParagraphChild w (jsChild lib c n).1)
  | .run r, n => by simp only [jsChild, walkParagraphChild]; exact jsRun_draws lib w r n
  | .insert r a d, n => by simp only [jsChild, walkParagraphChild]; exact jsInsert_draws lib _ r a d n
  | .delete r a d, n => by simp only [jsChild, walkParagraphChild]; exact jsDelete_draws lib _ r a d n
  | .bookmarkStart _ _, n => by simp only [jsChild, walkParagraphChild]; exact draws_nil _
  | .bookmarkEnd _, n => by simp only [jsChild, walkParagraphChild]; exact draws_nil _
  | .commentEnd _, n => by simp only [jsChild, walkParagraphChild]; exact draws_nil _
  | .numPages, n => by simp only [jsChild, walkParagraphChild]; exact draws_nil _
  | .pageNum, n => by simp only [jsChild, walkParagraphChild]; exact draws_nil _
  | .comment c, n => by
    rw [jsChild]
    simp only [walkParagraphChild]
    exact draws_skip (by cases K <;> rfl) (jsComment_draws (.comment :: w) c n)
  | .hyperlink v t cs, n => by
    have key : ∀ m, Draws K (K.count m) (K.count (jsHyperlink lib (Hyperlink.new n.hyperlink v t) cs m).2)
        (walkParagraphChildren (.hyperlink :: w) (jsHyperlink lib (Hyperlink.new n.hyperlink v t) cs m).1.children) := by
      intro m
      have e : (Hyperlink.new n.hyperlink v t).children = [] := by cases t <;> rfl
      exact jsHyperlink_draws (.hyperlink :: w) cs (Hyperlink.new n.hyperlink v t) m
        (by rw [e]; simp [walkParagraphChildren, draws_nil])
    have h2 := fun m => jsHyperlink_link lib cs (Hyperlink.new n.hyperlink v t) m
    rw [jsChild]
    simp only [walkParagraphChild]
    cases t with
    | external =>
      specialize key { n with hyperlink := (generateId n.hyperlink).2 }
      specialize h2 { n with hyperlink := (generateId n.hyperlink).2 }
      dsimp only at key h2 ⊢
      generalize jsHyperlink lib (Hyperlink.new n.hyperlink v .external) cs _ = x at key h2
      obtain ⟨⟨l, hy, xs⟩, m⟩ := x
      rw [walkHyperlink]
      simp only [Hyperlink.new] at h2
      subst h2
      cases K with
      | pic => exact draws_skip rfl key
      | link => exact draws_take rfl key
    | anchor =>
      specialize key n
      specialize h2 n
      dsimp only at key h2 ⊢
      generalize jsHyperlink lib (Hyperlink.new n.hyperlink v .anchor) cs _ = x at key h2
      obtain ⟨⟨l, hy, xs⟩, m⟩ := x
      rw [walkHyperlink]
      simp only [Hyperlink.new] at h2
      subst h2
      exact draws_skip (by cases K <;> rfl) key

theorem jsHyperlink_draws (w : List Place) {a : Nat} : ∀ (cs : List JsParagraphChild) (h : Hyperlink) (n : Ids),
    Draws K a (K.count n) (walkParagraphChildren w h.children) →
    Draws K a (K.count (jsHyperlink lib h cs n).2) (walkParagraphChildren w (jsHyperlink lib h cs n).1.children)
  | [], h, n, hh => by simpa [jsHyperlink] using hh
  | .comment c :: cs, h, n, hh => by
    rw [jsHyperlink]
    refine jsHyperlink_draws w cs _ _ ?_
    simp only [Hyperlink.addChild, js_walkParagraphChildren_append, walkParagraphChildren, walkParagraphChild, List.append_nil]
    exact draws_append hh (draws_skip (by cases K <;> rfl) (jsComment_draws (.comment :: w) c n))
  | .run r :: cs, h, n, hh => by
    rw [jsHyperlink]
    refine jsHyperlink_draws w cs _ _ ?_
    simp only [Hyperlink.addChild, js_walkParagraphChildren_append, walkParagraphChildren, walkParagraphChild, List.append_nil]
    exact draws_append hh (jsRun_draws lib w r n)
  | .insert r x d :: cs, h, n, hh => by
    rw [jsHyperlink]
    refine jsHyperlink_draws w cs _ _ ?_
    simp only [Hyperlink.addChild, js_walkParagraphChildren_append, walkParagraphChildren, walkParagraphChild, List.append_nil]
    exact draws_append hh (jsInsert_draws lib _ r x d n)
  | .delete r x d :: cs, h, n, hh => by
    rw [jsHyperlink]
    refine jsHyperlink_draws w cs _ _ ?_
    simp only [Hyperlink.addChild, js_walkParagraphChildren_append, walkParagraphChildren, walkParagraphChild, List.append_nil]
    exact draws_append hh (jsDelete_draws lib _ r x d n)
  | .bookmarkStart _ _ :: cs, h, n, hh => by
    rw [jsHyperlink]
    refine jsHyperlink_draws w cs _ _ ?_
    simp only [Hyperlink.addChild, js_walkParagraphChildren_append, walkParagraphChildren, walkParagraphChild, List.append_nil]
    exact hh
  | .bookmarkEnd _ :: cs, h, n, hh => by
    rw [jsHyperlink]
    refine jsHyperlink_draws w cs _ _ ?_
    simp only [Hyperlink.addChild, js_walkParagraphChildren_append, walkParagraphChildren, walkParagraphChild, List.append_nil]
    exact hh
  | .commentEnd _ :: cs, h, n, hh => by
    rw [jsHyperlink]
    refine jsHyperlink_draws w cs _ _ ?_
    simp only [Hyperlink.addChild, js_walkParagraphChildren_append, walkParagraphChildren, walkParagraphChild, List.append_nil]
    exact hh
  | .hyperlink _ _ _ :: cs, h, n, hh => by rw [jsHyperlink]; exact jsHyperlink_draws w cs _ _ hh
  | .numPages :: cs, h, n, hh => by rw [jsHyperlink]; exact jsHyperlink_draws w cs _ _ hh
  | .pageNum :: cs, h, n, hh => by rw [jsHyperlink]; exact jsHyperlink_draws w cs _ _ hh

theorem jsComment_draws (w : List Place) : ∀ (c : JsComment) (n : Ids),
    Draws K (K.count n) (K.count (jsComment lib c n).2) (walkComment w (jsComment lib c n).1)
  | ⟨id, author, date, parent, ps⟩, n => by
    rw [walkComment_children, jsComment_children, jsComment_ids]
    exact jsCommentChildren_draws w ps (Comment.new id) n (by simp [Comment.new, walkBlocks, draws_nil])

theorem jsCommentChildren_draws (w : List Place) {a : Nat} : ∀ (ps : List JsParagraph) (c : Comment) (n : Ids),
    Draws K a (K.count n) (walkBlocks w c.children) →
    Draws K a (K.count (jsCommentChildren lib c ps n).2) (walkBlocks w (jsCommentChildren lib c ps n).1.children)
  | [], c, n, h => by simpa [jsCommentChildren] using h
  | ⟨cs, pr, hn⟩ :: ps, c, n, h => by
    rw [jsCommentChildren]
    refine jsCommentChildren_draws w ps _ _ ?_
    simp only [Comment.addParagraph, js_walkBlocks_append, walkBlocks, walkBlock, List.append_nil]
    exact draws_append h (jsParagraph_draws w ⟨cs, pr, hn⟩ n)

theorem jsParagraph_draws (w : List Place) : ∀ (p : JsParagraph) (n : Ids),
    Draws K (K.count n) (K.count (jsParagraph lib p n).2) (walkParagraph w (jsParagraph lib p n).1)
  | ⟨cs, pr, hn⟩, n => by
    have e : K.count { n with paragraph := (generateParaId n.paragraph).2 } = K.count n := by cases K <;> rfl
    have := jsChildren_draws (.paragraph :: w) (a := K.count n) cs (Paragraph.new (generateParaId n.paragraph).1)
      { n with paragraph := (generateParaId n.paragraph).2 } (by rw [e]; simp [Paragraph.new, walkParagraphChildren, draws_nil])
    rw [jsParagraph]
    simp only [walkParagraph, Paragraph.format]
    exact draws_skip (by cases K <;> rfl) this

end

mutual

theorem jsCellChildren_draws (w : List Place) {a : Nat} : ∀ (cs : List JsCellChild) (c : Cell) (n : Ids), (∀ t ∈ jsContentTocs cs, TocBare t) →
    Draws K a (K.count n) (walkCellContents w c.children) →
    Draws K a (K.count (jsCellChildren lib c cs n).2) (walkCellContents w (jsCellChildren lib c cs n).1.children)
  | [], c, n, _, h => by simpa [jsCellChildren] using h
  | .paragraph p :: cs, c, n, ht, h => by
    rw [jsCellChildren]
    refine jsCellChildren_draws w cs _ _ (fun t hx => ht t (by rw [jsContentTocs]; exact hx)) ?_
    simp only [jsCellChild, walkCellContents_append, walkCellContents, walkCellContent, List.append_nil]
    exact draws_append h (jsParagraph_draws lib w p n)
  | .table t :: cs, c, n, ht, h => by
    rw [jsCellChildren]
    refine jsCellChildren_draws w cs _ _ (fun t hx => ht t (by rw [jsContentTocs]; exact List.mem_append_right _ hx)) ?_
    simp only [jsCellChild, walkCellContents_append, walkCellContents, walkCellContent, List.append_nil]
    exact draws_append h (jsTable_draws w t n fun t hx => ht t (by rw [jsContentTocs]; exact List.mem_append_left _ hx))
  | .toc t :: cs, c, n, ht, h => by
    rw [jsCellChildren]
    refine jsCellChildren_draws w cs _ _ (fun t hx => ht t (by rw [jsContentTocs]; exact List.mem_cons_of_mem _ hx)) ?_
    simp only [jsCellChild, walkCellContents_append, walkCellContents, walkCellContent, List.append_nil]
    exact draws_append h (draws_bare (ht t (by rw [jsContentTocs]; exact List.mem_cons_self ..)) w _)

theorem jsCell_draws (w : List Place) : ∀ (c : JsCell) (n : Ids), (∀ t ∈ jsContentTocs c.children, TocBare t) →
    Draws K (K.count n) (K.count (jsCell lib c n).2) (walkCell w (jsCell lib c n).1)
  | ⟨cs, pr, hn⟩, n, ht => by
    have := jsCellChildren_draws (.cell :: w) (a := K.count n) cs {} n ht (by simp [walkCellContents, draws_nil])
    rw [jsCell]
    simp only [walkCell]
    exact draws_skip (by cases K <;> rfl) this

theorem jsCells_draws (w : List Place) {a : Nat} : ∀ (cs : List JsCell) (r : Row) (n : Ids), (∀ t ∈ jsCellsTocs cs, TocBare t) →
    Draws K a (K.count n) (walkCells w r.cells) →
    Draws K a (K.count (jsCells lib r cs n).2) (walkCells w (jsCells lib r cs n).1.cells)
  | [], r, n, _, h => by simpa [jsCells] using h
  | ⟨xs, pr, hn⟩ :: cs, r, n, ht, h => by
    rw [jsCells]
    refine jsCells_draws w cs _ _ (fun t hx => ht t (by rw [jsCellsTocs]; exact List.mem_append_right _ hx)) ?_
    simp only [js_walkCells_append, walkCells, List.append_nil]
    exact draws_append h (jsCell_draws w ⟨xs, pr, hn⟩ n fun t hx => ht t (by rw [jsCellsTocs]; exact List.mem_append_left _ hx))

theorem jsRow_draws (w : List Place) : ∀ (r : JsRow) (n : Ids), (∀ t ∈ jsCellsTocs r.cells, TocBare t) →
    Draws K (K.count n) (K.count (jsRow lib r n).2) (walkRow w (jsRow lib r n).1)
  | ⟨cs, pr, hn⟩, n, ht => by
    have := jsCells_draws w (a := K.count n) cs (Row.new []) n ht (by simp [Row.new, walkCells, draws_nil])
    rw [jsRow]
    simpa only [walkRow] using this

theorem jsRows_draws (w : List Place) {a : Nat} : ∀ (rs : List JsRow) (t : Table) (n : Ids), (∀ t ∈ jsRowsTocs rs, TocBare t) →
    Draws K a (K.count n) (walkRows w t.rows) →
    Draws K a (K.count (jsRows lib t rs n).2) (walkRows w (jsRows lib t rs n).1.rows)
  | [], t, n, _, h => by simpa [jsRows] using h
  | ⟨xs, pr, hn⟩ :: rs, t, n, ht, h => by
    rw [jsRows]
    refine jsRows_draws w rs _ _ (fun t hx => ht t (by rw [jsRowsTocs]; exact List.mem_append_right _ hx)) ?_
    simp only [Table.addRow, walkRows_append, walkRows, List.append_nil]
    exact draws_append h (jsRow_draws w ⟨xs, pr, hn⟩ n fun t hx => ht t (by rw [jsRowsTocs]; exact List.mem_append_left _ hx))

theorem jsTable_draws (w : List Place) : ∀ (t : JsTable) (n : Ids), (∀ x ∈ jsTableTocs t, TocBare x) →
    Draws K (K.count n) (K.count (jsTable lib t n).2) (walkTable w (jsTable lib t n).1)
  | ⟨rs, g, pr, hn⟩, n, ht => by
    have := jsRows_draws w (a := K.count n) rs (Table.new []) n (fun t hx => ht t (by rw [jsTableTocs]; exact hx))
      (by simp [Table.new, walkRows, draws_nil])
    rw [jsTable]
    simp only [walkTable]
    exact draws_skip (by cases K <;> rfl) this

end

theorem jsItems_draws {a : Nat} : ∀ (cs : List JsChild) (d : DocxFile) (n : Ids) (f : Bool), (∀ t ∈ jsTocs ⟨cs, f⟩, TocBare t) →
    Draws K a (K.count n) (d.document.children.flatMap (walkDocumentChild [.document])) →
    Draws K a (K.count (jsItems lib d cs n).2) ((jsItems lib d cs n).1.document.children.flatMap (walkDocumentChild [.document]))
  | [], d, n, f, _, h => by simpa [jsItems] using h
  | c :: cs, d, n, f, ht, h => by
    have ht' : ∀ t ∈ jsTocs ⟨cs, f⟩, TocBare t := fun t hx => ht t (by
      rw [jsTocs] at hx ⊢
      exact List.mem_append_right _ hx)
    rw [jsItems]
    refine jsItems_draws cs _ _ f ht' ?_
    have put : ∀ (x : DocumentChild) (b : Nat), Draws K (K.count n) b (walkDocumentChild [.document] x) →
        Draws K a b ((d.document.children ++ [x]).flatMap (walkDocumentChild [.document])) := by
      intro x b hx
      rw [List.flatMap_append, List.flatMap_singleton]
      exact draws_append h hx
    cases c with
    | table t =>
      exact put _ _ (jsTable_draws lib _ t n fun y hy => ht y (by rw [jsTocs]; exact List.mem_append_left _ hy))
    | toc t =>
      exact put _ _ (draws_bare (ht t (by rw [jsTocs]; exact List.mem_append_left _ (List.mem_singleton.2 rfl))) _ _)
    | paragraph p => exact put _ _ (jsParagraph_draws lib _ p n)
    | bookmarkStart i s => exact put _ _ (draws_nil _)
    | bookmarkEnd i => exact put _ _ (draws_nil _)

theorem js_draws (d : JsDocx) (n : Ids) (ht : ∀ t ∈ jsTocs d, TocBare t) :
    Draws K (K.count n) (K.count (d.build lib n).2) (walkDocument (d.build lib n).1.document) := by
  have h := jsItems_draws (K := K) (a := K.count n) lib d.children DocxFile.new n d.hasNumberings ht (draws_nil _)
  have e : (d.build lib n).2 = (jsItems lib DocxFile.new d.children n).2 := by
    unfold JsDocx.build; rfl
  rw [js_document, e, walkDocument, js_sectionProperty]
  have := draws_append h (draws_nil (K := K) _)
  exact this

end Docx.Spec
