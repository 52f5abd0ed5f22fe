import Verif.Lemmas.WalkPlaces
import Verif.Lemmas.ParaIdsStory
import Verif.Spec.Copied

/-!
# How walks are put together, and the paragraphs of the comments of the body
-/

namespace Docx

open Docx.Spec

/-- Nothing is attached to such an item. -/
def plainItem : Item → Bool
  | .comment _ _ | .footnote _ _ => false
  | _ => true

/-- A walk put together under the places `w`: what is attached to a comment or footnote follows it, under the place of that name. -/
inductive WalkMade : List Place → Walk → Prop
  | nil (w) : WalkMade w []
  | append {w a b} : WalkMade w a → WalkMade w b → WalkMade w (a ++ b)
  | cons {w i l} : plainItem i = true → WalkMade w l → WalkMade w ((w, i) :: l)
  | comment {w i c} : WalkMade (.comment :: w) (walkComment (.comment :: w) c) → WalkMade w ((w, .comment i c) :: walkComment (.comment :: w) c)
  | footnote {w i ps} : WalkMade (.footnote :: w) (walkParagraphs (.footnote :: w) ps) → WalkMade w ((w, .footnote i ps) :: walkParagraphs (.footnote :: w) ps)
  | push {w p l} : p ≠ .comment → WalkMade (p :: w) l → WalkMade w l

theorem built_nil {w} : WalkMade w [] := .nil w
theorem built_cons {w : List Place} {i : Item} {l : Walk} (h : plainItem i = true) (hl : WalkMade w l) : WalkMade w ((w, i) :: l) := .cons h hl
theorem built_append {w : List Place} {a b : Walk} (ha : WalkMade w a) (hb : WalkMade w b) : WalkMade w (a ++ b) := .append ha hb
theorem built_flatMap {α : Type} {w : List Place} {l : List α} {f : α → Walk} (h : ∀ a ∈ l, WalkMade w (f a)) : WalkMade w (l.flatMap f) := by
  induction l with
  | nil => exact .nil w
  | cons a l ih => exact .append (h a (.head _)) (ih fun b hb => h b (.tail _ hb))

local macro "up " t:term : term => `(by first | exact $t | exact WalkMade.push (by decide) $t)

mutual
theorem walkRun_built : ∀ (x : Run) (w : List Place), WalkMade w (walkRun w x)
  | ⟨pr, cs⟩, w => by
    simp only [walkRun]
    exact built_cons rfl (up (walkRunChildren_built cs _))
theorem walkComment_built : ∀ (x : Comment) (w : List Place), WalkMade w (walkComment w x)
  | ⟨_, _, _, cs, _⟩, w => by
    simp only [walkComment]
    exact up (walkBlocks_built cs _)
theorem walkDelete_built : ∀ (x : Delete) (w : List Place), WalkMade w (walkDelete w x)
  | ⟨_, _, cs⟩, w => by
    simp only [walkDelete]
    exact up (walkDeleteChildren_built cs _)
theorem walkInsert_built : ∀ (x : Insert) (w : List Place), WalkMade w (walkInsert w x)
  | ⟨_, _, cs⟩, w => by
    simp only [walkInsert]
    exact up (walkInsertChildren_built cs _)
theorem walkHyperlink_built : ∀ (x : Hyperlink) (w : List Place), WalkMade w (walkHyperlink w x)
  | ⟨l, h, cs⟩, w => by
    simp only [walkHyperlink]
    exact built_cons rfl (up (walkParagraphChildren_built cs _))
theorem walkParagraph_built : ∀ (x : Paragraph) (w : List Place), WalkMade w (walkParagraph w x)
  | ⟨i, cs, pr, n⟩, w => by
    simp only [walkParagraph]
    exact built_cons rfl (up (walkParagraphChildren_built cs _))
theorem walkSdt_built : ∀ (x : Sdt) (w : List Place), WalkMade w (walkSdt w x)
  | ⟨cs, pr, n⟩, w => by
    simp only [walkSdt]
    exact built_cons rfl (up (walkSdtChildren_built cs _))
theorem walkTable_built : ∀ (x : Table) (w : List Place), WalkMade w (walkTable w x)
  | ⟨cs, g, n, pr⟩, w => by
    simp only [walkTable]
    exact built_cons rfl (up (walkRows_built cs _))
theorem walkRow_built : ∀ (x : Row) (w : List Place), WalkMade w (walkRow w x)
  | ⟨cs, _, _⟩, w => by
    simp only [walkRow]
    exact up (walkCells_built cs _)
theorem walkCell_built : ∀ (x : Cell) (w : List Place), WalkMade w (walkCell w x)
  | ⟨cs, pr, n⟩, w => by
    simp only [walkCell]
    exact built_cons rfl (up (walkCellContents_built cs _))
theorem walkRunChildren_built : ∀ (x : List RunChild) (w : List Place), WalkMade w (walkRunChildren w x)
  | [], _ => built_nil
  | c :: cs, w => by
    simp only [walkRunChildren]
    exact built_append (up (walkRunChild_built c _)) (up (walkRunChildren_built cs _))
theorem walkBlocks_built : ∀ (x : List Block) (w : List Place), WalkMade w (walkBlocks w x)
  | [], _ => built_nil
  | c :: cs, w => by
    simp only [walkBlocks]
    exact built_append (up (walkBlock_built c _)) (up (walkBlocks_built cs _))
theorem walkDeleteChildren_built : ∀ (x : List DeleteChild) (w : List Place), WalkMade w (walkDeleteChildren w x)
  | [], _ => built_nil
  | c :: cs, w => by
    simp only [walkDeleteChildren]
    exact built_append (up (walkDeleteChild_built c _)) (up (walkDeleteChildren_built cs _))
theorem walkInsertChildren_built : ∀ (x : List InsertChild) (w : List Place), WalkMade w (walkInsertChildren w x)
  | [], _ => built_nil
  | c :: cs, w => by
    simp only [walkInsertChildren]
    exact built_append (up (walkInsertChild_built c _)) (up (walkInsertChildren_built cs _))
theorem walkParagraphChildren_built : ∀ (x : List ParagraphChild) (w : List Place), WalkMade w (walkParagraphChildren w x)
  | [], _ => built_nil
  | c :: cs, w => by
    simp only [walkParagraphChildren]
    exact built_append (up (walkParagraphChild_built c _)) (up (walkParagraphChildren_built cs _))
theorem walkSdtChildren_built : ∀ (x : List SdtChild) (w : List Place), WalkMade w (walkSdtChildren w x)
  | [], _ => built_nil
  | c :: cs, w => by
    simp only [walkSdtChildren]
    exact built_append (up (walkSdtChild_built c _)) (up (walkSdtChildren_built cs _))
theorem walkRows_built : ∀ (x : List Row) (w : List Place), WalkMade w (walkRows w x)
  | [], _ => built_nil
  | c :: cs, w => by
    simp only [walkRows]
    exact built_append (up (walkRow_built c _)) (up (walkRows_built cs _))
theorem walkCells_built : ∀ (x : List Cell) (w : List Place), WalkMade w (walkCells w x)
  | [], _ => built_nil
  | c :: cs, w => by
    simp only [walkCells]
    exact built_append (up (walkCell_built c _)) (up (walkCells_built cs _))
theorem walkCellContents_built : ∀ (x : List CellContent) (w : List Place), WalkMade w (walkCellContents w x)
  | [], _ => built_nil
  | c :: cs, w => by
    simp only [walkCellContents]
    exact built_append (up (walkCellContent_built c _)) (up (walkCellContents_built cs _))
theorem walkParagraphs_built : ∀ (x : List Paragraph) (w : List Place), WalkMade w (walkParagraphs w x)
  | [], _ => built_nil
  | c :: cs, w => by
    simp only [walkParagraphs]
    exact built_append (up (walkParagraph_built c _)) (up (walkParagraphs_built cs _))
theorem walkRunChild_built : ∀ (x : RunChild) (w : List Place), WalkMade w (walkRunChild w x)
  | .text _, _ => built_cons rfl built_nil
  | .sym _ _, _ => built_cons rfl built_nil
  | .deleteText _, _ => built_cons rfl built_nil
  | .tab, _ => built_cons rfl built_nil
  | .ptab _, _ => built_cons rfl built_nil
  | .brk _, _ => built_cons rfl built_nil
  | .carriageReturn, _ => built_cons rfl built_nil
  | .emptyDrawing, _ => built_cons rfl built_nil
  | .shape _, _ => built_cons rfl built_nil
  | .commentEnd _, _ => built_cons rfl built_nil
  | .fieldChar _ _, _ => built_cons rfl built_nil
  | .instrText _, _ => built_cons rfl built_nil
  | .deleteInstrText _, _ => built_cons rfl built_nil
  | .instrTextString _, _ => built_cons rfl built_nil
  | .shading _, _ => built_cons rfl built_nil
  | .picture _, _ => built_cons rfl (built_cons rfl built_nil)
  | .textBox bs, w => by
    simp only [walkRunChild]
    exact built_cons rfl (up (walkBlocks_built bs _))
  | .commentStart i c, w => by
    simp only [walkRunChild]
    exact built_cons rfl (WalkMade.comment (walkComment_built c _))
  | .footnoteReference i s ps, w => by
    simp only [walkRunChild]
    exact built_cons rfl (WalkMade.footnote (walkParagraphs_built ps _))
theorem walkBlock_built : ∀ (x : Block) (w : List Place), WalkMade w (walkBlock w x)
  | .paragraph x, w => by
    simp only [walkBlock]
    exact up (walkParagraph_built x _)
  | .table x, w => by
    simp only [walkBlock]
    exact up (walkTable_built x _)
theorem walkDeleteChild_built : ∀ (x : DeleteChild) (w : List Place), WalkMade w (walkDeleteChild w x)
  | .run x, w => by
    simp only [walkDeleteChild]
    exact up (walkRun_built x _)
  | .commentStart i c, w => by
    simp only [walkDeleteChild]
    exact WalkMade.comment (walkComment_built c _)
  | .commentEnd _, _ => built_nil
theorem walkInsertChild_built : ∀ (x : InsertChild) (w : List Place), WalkMade w (walkInsertChild w x)
  | .run x, w => by
    simp only [walkInsertChild]
    exact up (walkRun_built x _)
  | .delete x, w => by
    simp only [walkInsertChild]
    exact up (walkDelete_built x _)
  | .commentStart i c, w => by
    simp only [walkInsertChild]
    exact WalkMade.comment (walkComment_built c _)
  | .commentEnd _, _ => built_nil
theorem walkParagraphChild_built : ∀ (x : ParagraphChild) (w : List Place), WalkMade w (walkParagraphChild w x)
  | .run x, w => by
    simp only [walkParagraphChild]
    exact up (walkRun_built x _)
  | .insert x, w => by
    simp only [walkParagraphChild]
    exact up (walkInsert_built x _)
  | .delete x, w => by
    simp only [walkParagraphChild]
    exact up (walkDelete_built x _)
  | .moveFrom x, w => by
    simp only [walkParagraphChild]
    exact up (walkDelete_built x _)
  | .moveTo x, w => by
    simp only [walkParagraphChild]
    exact up (walkInsert_built x _)
  | .bookmarkStart _ _, _ => built_nil
  | .hyperlink x, w => by
    simp only [walkParagraphChild]
    exact up (walkHyperlink_built x _)
  | .bookmarkEnd _, _ => built_nil
  | .commentStart i c, w => by
    simp only [walkParagraphChild]
    exact WalkMade.comment (walkComment_built c _)
  | .commentEnd _, _ => built_nil
  | .sdt x, w => by
    simp only [walkParagraphChild]
    exact up (walkSdt_built x _)
  | .pageNum _, _ => built_nil
  | .numPages _, _ => built_nil
theorem walkSdtChild_built : ∀ (x : SdtChild) (w : List Place), WalkMade w (walkSdtChild w x)
  | .run x, w => by
    simp only [walkSdtChild]
    exact up (walkRun_built x _)
  | .paragraph x, w => by
    simp only [walkSdtChild]
    exact up (walkParagraph_built x _)
  | .table x, w => by
    simp only [walkSdtChild]
    exact up (walkTable_built x _)
  | .bookmarkStart _ _, _ => built_nil
  | .bookmarkEnd _, _ => built_nil
  | .commentStart i c, w => by
    simp only [walkSdtChild]
    exact WalkMade.comment (walkComment_built c _)
  | .commentEnd _, _ => built_nil
  | .sdt x, w => by
    simp only [walkSdtChild]
    exact up (walkSdt_built x _)
theorem walkCellContent_built : ∀ (x : CellContent) (w : List Place), WalkMade w (walkCellContent w x)
  | .paragraph x, w => by
    simp only [walkCellContent]
    exact up (walkParagraph_built x _)
  | .table x, w => by
    simp only [walkCellContent]
    exact up (walkTable_built x _)
  | .sdt x, w => by
    simp only [walkCellContent]
    exact up (walkSdt_built x _)
  | .toc x, w => by
    simp only [walkCellContent]
    exact up (walkToc_built x _)
theorem walkToc_built : ∀ (x : Toc) (w : List Place), WalkMade w (walkToc w x)
  | ⟨a, b, c, d, e, f, g, bs, as, i, j⟩, w => by
    simp only [walkToc]
    exact built_cons rfl (built_append (up (walkBlocks_built bs _)) (up (walkBlocks_built as _)))
end

theorem walkHeader_built (x : Header) (w : List Place) : WalkMade w (walkHeader w x) := by
  refine built_flatMap fun c _ => ?_
  cases c with
  | paragraph x => exact up (walkParagraph_built x _)
  | table x => exact up (walkTable_built x _)
  | sdt x => exact up (walkSdt_built x _)

theorem walkSectionProperty_built (x : SectionProperty) (w : List Place) : WalkMade w (walkSectionProperty w x) :=
  built_append (built_flatMap fun _ _ => up (walkHeader_built _ _)) (built_flatMap fun _ _ => up (walkHeader_built _ _))

theorem walkSection_built (x : Section) (w : List Place) : WalkMade w (walkSection w x) := by
  refine built_append (built_flatMap fun c _ => ?_) (up (up (walkSectionProperty_built _ _)))
  cases c with
  | paragraph x => exact up (walkParagraph_built x _)
  | table x => exact up (walkTable_built x _)
  | commentStart i c => exact WalkMade.push (by decide) (WalkMade.comment (i := i) (walkComment_built c _))
  | sdt x => exact up (walkSdt_built x _)
  | toc x => exact up (walkToc_built x _)
  | _ => exact built_nil

theorem walkDocument_built (x : Document) : WalkMade [] (walkDocument x) := by
  refine built_append (built_flatMap fun c _ => ?_) (up (up (walkSectionProperty_built _ _)))
  cases c with
  | paragraph x => exact up (walkParagraph_built x _)
  | table x => exact up (walkTable_built x _)
  | commentStart i c => exact WalkMade.push (by decide) (WalkMade.comment (i := i) (walkComment_built c _))
  | sdt x => exact up (walkSdt_built x _)
  | toc x => exact up (walkToc_built x _)
  | «section» x => exact up (walkSection_built x _)
  | _ => exact built_nil

/-! ## Consequences -/

theorem WalkMade.under {w : List Place} {l : Walk} (h : WalkMade w l) : ∀ x ∈ l, w <:+ x.1 := by
  induction h with
  | nil w => exact fun x hx => by cases hx
  | append _ _ ha hb => exact fun x hx => (List.mem_append.1 hx).elim (ha x) (hb x)
  | cons _ _ ih =>
    intro x hx
    rcases List.mem_cons.1 hx with rfl | hx
    · exact List.suffix_refl _
    · exact ih x hx
  | comment _ ih =>
    intro x hx
    rcases List.mem_cons.1 hx with rfl | hx
    · exact List.suffix_refl _
    · exact (List.suffix_cons _ _).trans (ih x hx)
  | footnote _ ih =>
    intro x hx
    rcases List.mem_cons.1 hx with rfl | hx
    · exact List.suffix_refl _
    · exact (List.suffix_cons _ _).trans (ih x hx)
  | push _ _ ih => exact fun x hx => (List.suffix_cons _ _).trans (ih x hx)

theorem searched_comment {v : List Place} : ∀ {w : List Place}, searched w = true → ¬ (.comment :: v) <:+ w := by
  intro w
  induction w using searched.induct with
  | case1 =>
    intro _ h
    have := List.suffix_nil.1 h
    cases this
  | case2 w ih =>
    intro h hs
    rw [searched] at h
    rcases List.suffix_cons_iff.1 hs with e | hs
    · cases e
    · rcases List.suffix_cons_iff.1 hs with e | hs
      · cases e
      · exact ih h hs
  | case8 t h1 h2 h3 h4 h5 h6 h7 =>
    intro h
    simp [searched] at h
  | _ w ih =>
    intro h hs
    rw [searched] at h
    rcases List.suffix_cons_iff.1 hs with e | hs
    · cases e
    · exact ih h hs

theorem inText_comment {v w : List Place} (h : inText w = true) : ¬ (.comment :: v) <:+ w := by
  intro hs
  unfold inText at h
  split at h
  · rcases List.suffix_cons_iff.1 hs with e | hs
    · cases e
    · exact searched_comment h hs
  · rcases List.suffix_cons_iff.1 hs with e | hs
    · cases e
    · rcases List.suffix_cons_iff.1 hs with e | hs
      · cases e
      · exact searched_comment h hs
  · cases h

/-- The paragraph ids of the comments that start in the text. -/
def commentIdsAt (w : List Place) : Item → List Str
  | .comment _ c => if inText w then c.paragraphIds else []
  | _ => []

/-- The ids of the paragraphs directly in comments that start in the text. -/
def idsInComments : List Place → Item → List Str
  | .comment :: w, .paragraph p => if inText w then [p.id] else []
  | _, _ => []

theorem pick_none {α : Type} {k : List Place → Item → List α} {l : Walk} (h : ∀ x ∈ l, k x.1 x.2 = []) : pick k l = [] := by
  unfold pick
  rw [List.flatMap_eq_nil_iff]
  exact h

theorem commentIdsAt_inside {v w : List Place} (i : Item) (h : (.comment :: v) <:+ w) : commentIdsAt w i = [] := by
  cases i with
  | comment n c =>
    rw [commentIdsAt, if_neg]
    exact fun hi => inText_comment hi h
  | _ => rfl

theorem idsInComments_inside {v : List Place} {p : Place} {w : List Place} (i : Item) (h : (p :: .comment :: v) <:+ w) : idsInComments w i = [] := by
  unfold idsInComments
  split
  · rename_i w' q
    rw [if_neg]
    intro hi
    rcases List.suffix_cons_iff.1 h with e | h
    · simp only [List.cons.injEq] at e
      rw [← e.2] at hi
      exact inText_comment hi (List.suffix_refl _)
    · exact inText_comment hi ((List.suffix_cons _ _).trans h)
  · rfl

theorem idsInComments_other {w : List Place} {i : Item} (h : i.paraId? = none) : idsInComments w i = [] := by
  unfold idsInComments
  split
  · cases h
  · rfl

theorem rows_idsInComments (w : List Place) : ∀ rs : List Row, pick idsInComments (walkRows (.comment :: w) rs) = []
  | [] => rfl
  | ⟨cs, _, _⟩ :: rs => by
    rw [walkRows, pick_append, rows_idsInComments w rs, List.append_nil, walkRow]
    induction cs with
    | nil => rfl
    | cons c cs ih =>
      obtain ⟨ks, _, _⟩ := c
      rw [walkCells, pick_append, ih, List.append_nil, walkCell, pick_cons]
      refine List.append_eq_nil_iff.2 ⟨rfl, pick_none fun x hx => idsInComments_inside _ ((walkCellContents_built ks _).under x hx)⟩

theorem blocks_idsInComments (w : List Place) : ∀ bs : List Block, pick idsInComments (walkBlocks (.comment :: w) bs) =
    if inText w then bs.filterMap (fun b => match b with | .paragraph p => some p.id | .table _ => none) else []
  | [] => by simp [walkBlocks, pick]
  | .paragraph ⟨i, cs, pr, n⟩ :: bs => by
    rw [walkBlocks, pick_append, blocks_idsInComments w bs, walkBlock, walkParagraph, pick_cons,
      pick_none fun x hx => idsInComments_inside _ ((walkParagraphChildren_built cs _).under x hx), idsInComments]
    cases inText w <;> simp
  | .table ⟨rs, g, n, pr⟩ :: bs => by
    rw [walkBlocks, pick_append, blocks_idsInComments w bs, walkBlock, walkTable, pick_cons, rows_idsInComments]
    cases inText w <;> simp [idsInComments]

theorem WalkMade.comment_ids {w : List Place} {l : Walk} (h : WalkMade w l) (hw : ∀ v, w = .comment :: v → inText v = false) :
    pick commentIdsAt l = pick idsInComments l := by
  induction h with
  | nil w => rfl
  | append _ _ ha hb => rw [pick_append, pick_append, ha hw, hb hw]
  | @cons w i l hi _ ih =>
    rw [pick_cons, pick_cons, ih hw]
    congr 1
    cases i with
    | paragraph p =>
      unfold idsInComments
      split
      · rename_i v q e
        rw [hw _ rfl]
        rfl
      · rfl
    | comment n c => cases hi
    | _ => exact (idsInComments_other rfl).symm
  | @comment w i c _ ih =>
    obtain ⟨a, b, d, bs, e⟩ := c
    rw [pick_cons, pick_cons, walkComment, blocks_idsInComments]
    rw [pick_none (k := commentIdsAt) fun x hx => commentIdsAt_inside _ ((walkBlocks_built bs _).under x hx)]
    have : idsInComments w (.comment i ⟨a, b, d, bs, e⟩) = [] := idsInComments_other rfl
    rw [this, commentIdsAt, List.append_nil, List.nil_append]
    rfl
  | @footnote w i ps _ ih =>
    rw [pick_cons, pick_cons, ih (by rintro v ⟨⟩)]
    rw [idsInComments_other rfl]
    rfl
  | push hp _ ih =>
    refine ih fun v e => ?_
    simp only [List.cons.injEq] at e
    exact absurd e.1 hp

theorem searched_inBody : ∀ {w : List Place}, searched w = true → inBody w = true := by
  intro w
  induction w using searched.induct with
  | case1 => exact fun _ => rfl
  | case2 w ih =>
    intro h
    rw [searched] at h
    simpa [inBody] using ih h
  | case8 t h1 h2 h3 h4 h5 h6 h7 =>
    intro h
    simp [searched] at h
  | _ w ih =>
    intro h
    rw [searched] at h
    simpa [inBody] using ih h

theorem inText_inBody {w : List Place} (h : inText w = true) : inBody (.comment :: w) = true := by
  unfold inText at h
  split at h
  · simpa [inBody] using searched_inBody h
  · simpa [inBody] using searched_inBody h
  · cases h

/-- The paragraph ids of the comments of the body are among the paragraph ids of the document, each at its own place. -/
theorem bodyComments_ids (d : Document) : ((bodyComments d).flatMap Comment.paragraphIds).Sublist (bodyIds (walkDocument d)) := by
  have h1 : (bodyComments d).flatMap Comment.paragraphIds = pick commentIdsAt (walkDocument d) := by
    unfold bodyComments Walk.within pick
    generalize walkDocument d = l
    induction l with
    | nil => rfl
    | cons x l ih =>
      obtain ⟨w, i⟩ := x
      rw [List.flatMap_cons, ← ih]
      cases hw : inText w <;> cases i <;> simp [hw, commentIdsAt, Item.comment?, List.filterMap_cons]
  have h2 := (walkDocument_built d).comment_ids (by rintro v ⟨⟩)
  have h3 : bodyIds (walkDocument d) = pick (fun w i => if inBody w then i.paraId?.toList else []) (walkDocument d) := by
    unfold bodyIds Walk.within pick
    generalize walkDocument d = l
    induction l with
    | nil => rfl
    | cons x l ih =>
      obtain ⟨w, i⟩ := x
      rw [List.flatMap_cons, ← ih]
      cases hw : inBody w <;> cases i <;> simp [hw, Item.paraId?, List.filterMap_cons]
  rw [h1, h2, h3]
  have hsub : ∀ (w : List Place) (i : Item), (idsInComments w i).Sublist (if inBody w then i.paraId?.toList else []) := by
    intro w i
    unfold idsInComments
    split
    · rename_i v p
      split
      · rename_i hi
        have : inBody (.comment :: v) = true := inText_inBody hi
        rw [if_pos this]
        exact List.Sublist.refl _
      · exact List.nil_sublist _
    · exact List.nil_sublist _
  unfold pick
  generalize walkDocument d = l
  induction l with
  | nil => exact List.Sublist.refl _
  | cons x l ih =>
    rw [List.flatMap_cons, List.flatMap_cons]
    exact (hsub _ _).append ih

end Docx
