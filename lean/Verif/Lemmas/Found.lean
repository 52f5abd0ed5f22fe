import Verif.Lemmas.Prepared
import Verif.Spec.Dependencies

/-!
# The passes over the document see what the specification lists
-/

namespace Docx

open Docx.Spec

set_option linter.unusedSimpArgs false

theorem pick_nil {α : Type} (k : List Place → Item → List α) : pick k [] = [] := rfl

/-- `k` says nothing about what is at or below `w`. -/
def Dead {α : Type} (k : List Place → Item → List α) (w : List Place) : Prop := ∀ a i, k (a ++ w) i = []

section
variable {α : Type} {k : List Place → Item → List α}

theorem Dead.at {w : List Place} (h : Dead k w) (i : Item) : k w i = [] := h [] i
theorem Dead.cons {w : List Place} (h : Dead k w) {p : Place} : Dead k (p :: w) := fun a i => by
  have := h (a ++ [p]) i
  rwa [List.append_assoc] at this

mutual
theorem walkRun_dead : ∀ (x : Run) (w : List Place), Dead k w → pick k (walkRun w x) = []
  | ⟨pr, cs⟩, w, h => by simp only [walkRun, pick_cons, pick_append, h.at, List.nil_append, walkRunChildren_dead cs _ h.cons, List.append_nil]
theorem walkComment_dead : ∀ (x : Comment) (w : List Place), Dead k w → pick k (walkComment w x) = []
  | ⟨_, _, _, cs, _⟩, w, h => by simp only [walkComment, pick_cons, pick_append, h.at, List.nil_append, walkBlocks_dead cs _ h, List.append_nil]
theorem walkDelete_dead : ∀ (x : Delete) (w : List Place), Dead k w → pick k (walkDelete w x) = []
  | ⟨_, _, cs⟩, w, h => by simp only [walkDelete, pick_cons, pick_append, h.at, List.nil_append, walkDeleteChildren_dead cs _ h, List.append_nil]
theorem walkInsert_dead : ∀ (x : Insert) (w : List Place), Dead k w → pick k (walkInsert w x) = []
  | ⟨_, _, cs⟩, w, h => by simp only [walkInsert, pick_cons, pick_append, h.at, List.nil_append, walkInsertChildren_dead cs _ h, List.append_nil]
theorem walkHyperlink_dead : ∀ (x : Hyperlink) (w : List Place), Dead k w → pick k (walkHyperlink w x) = []
  | ⟨l, y, cs⟩, w, h => by simp only [walkHyperlink, pick_cons, pick_append, h.at, List.nil_append, walkParagraphChildren_dead cs _ h.cons, List.append_nil]
theorem walkParagraph_dead : ∀ (x : Paragraph) (w : List Place), Dead k w → pick k (walkParagraph w x) = []
  | ⟨i, cs, pr, n⟩, w, h => by simp only [walkParagraph, pick_cons, pick_append, h.at, List.nil_append, walkParagraphChildren_dead cs _ h.cons, List.append_nil]
theorem walkSdt_dead : ∀ (x : Sdt) (w : List Place), Dead k w → pick k (walkSdt w x) = []
  | ⟨cs, pr, n⟩, w, h => by simp only [walkSdt, pick_cons, pick_append, h.at, List.nil_append, walkSdtChildren_dead cs _ h.cons, List.append_nil]
theorem walkTable_dead : ∀ (x : Table) (w : List Place), Dead k w → pick k (walkTable w x) = []
  | ⟨cs, g, n, pr⟩, w, h => by simp only [walkTable, pick_cons, pick_append, h.at, List.nil_append, walkRows_dead cs _ h, List.append_nil]
theorem walkRow_dead : ∀ (x : Row) (w : List Place), Dead k w → pick k (walkRow w x) = []
  | ⟨cs, _, _⟩, w, h => by simp only [walkRow, pick_cons, pick_append, h.at, List.nil_append, walkCells_dead cs _ h, List.append_nil]
theorem walkCell_dead : ∀ (x : Cell) (w : List Place), Dead k w → pick k (walkCell w x) = []
  | ⟨cs, pr, n⟩, w, h => by simp only [walkCell, pick_cons, pick_append, h.at, List.nil_append, walkCellContents_dead cs _ h.cons, List.append_nil]
theorem walkToc_dead : ∀ (x : Toc) (w : List Place), Dead k w → pick k (walkToc w x) = []
  | ⟨a, b, c, d, e, f, g, bs, as, j, l⟩, w, h => by simp only [walkToc, pick_cons, pick_append, h.at, List.nil_append, walkBlocks_dead bs _ h.cons, walkBlocks_dead as _ h.cons, List.append_nil]
theorem walkRunChildren_dead : ∀ (x : List RunChild) (w : List Place), Dead k w → pick k (walkRunChildren w x) = []
  | [], _, _ => rfl
  | c :: cs, w, h => by simp only [walkRunChildren, pick_append, walkRunChild_dead c _ h, walkRunChildren_dead cs _ h, List.append_nil]
theorem walkBlocks_dead : ∀ (x : List Block) (w : List Place), Dead k w → pick k (walkBlocks w x) = []
  | [], _, _ => rfl
  | c :: cs, w, h => by simp only [walkBlocks, pick_append, walkBlock_dead c _ h, walkBlocks_dead cs _ h, List.append_nil]
theorem walkDeleteChildren_dead : ∀ (x : List DeleteChild) (w : List Place), Dead k w → pick k (walkDeleteChildren w x) = []
  | [], _, _ => rfl
  | c :: cs, w, h => by simp only [walkDeleteChildren, pick_append, walkDeleteChild_dead c _ h, walkDeleteChildren_dead cs _ h, List.append_nil]
theorem walkInsertChildren_dead : ∀ (x : List InsertChild) (w : List Place), Dead k w → pick k (walkInsertChildren w x) = []
  | [], _, _ => rfl
  | c :: cs, w, h => by simp only [walkInsertChildren, pick_append, walkInsertChild_dead c _ h, walkInsertChildren_dead cs _ h, List.append_nil]
theorem walkParagraphChildren_dead : ∀ (x : List ParagraphChild) (w : List Place), Dead k w → pick k (walkParagraphChildren w x) = []
  | [], _, _ => rfl
  | c :: cs, w, h => by simp only [walkParagraphChildren, pick_append, walkParagraphChild_dead c _ h, walkParagraphChildren_dead cs _ h, List.append_nil]
theorem walkSdtChildren_dead : ∀ (x : List SdtChild) (w : List Place), Dead k w → pick k (walkSdtChildren w x) = []
  | [], _, _ => rfl
  | c :: cs, w, h => by simp only [walkSdtChildren, pick_append, walkSdtChild_dead c _ h, walkSdtChildren_dead cs _ h, List.append_nil]
theorem walkRows_dead : ∀ (x : List Row) (w : List Place), Dead k w → pick k (walkRows w x) = []
  | [], _, _ => rfl
  | c :: cs, w, h => by simp only [walkRows, pick_append, walkRow_dead c _ h, walkRows_dead cs _ h, List.append_nil]
theorem walkCells_dead : ∀ (x : List Cell) (w : List Place), Dead k w → pick k (walkCells w x) = []
  | [], _, _ => rfl
  | c :: cs, w, h => by simp only [walkCells, pick_append, walkCell_dead c _ h, walkCells_dead cs _ h, List.append_nil]
theorem walkCellContents_dead : ∀ (x : List CellContent) (w : List Place), Dead k w → pick k (walkCellContents w x) = []
  | [], _, _ => rfl
  | c :: cs, w, h => by simp only [walkCellContents, pick_append, walkCellContent_dead c _ h, walkCellContents_dead cs _ h, List.append_nil]
theorem walkParagraphs_dead : ∀ (x : List Paragraph) (w : List Place), Dead k w → pick k (walkParagraphs w x) = []
  | [], _, _ => rfl
  | c :: cs, w, h => by simp only [walkParagraphs, pick_append, walkParagraph_dead c _ h, walkParagraphs_dead cs _ h, List.append_nil]
theorem walkRunChild_dead : ∀ (x : RunChild) (w : List Place), Dead k w → pick k (walkRunChild w x) = []
  | .text _, w, h => by simp only [walkRunChild, pick_cons, pick_nil, h.at, List.nil_append]
  | .sym _ _, w, h => by simp only [walkRunChild, pick_cons, pick_nil, h.at, List.nil_append]
  | .deleteText _, w, h => by simp only [walkRunChild, pick_cons, pick_nil, h.at, List.nil_append]
  | .tab, w, h => by simp only [walkRunChild, pick_cons, pick_nil, h.at, List.nil_append]
  | .ptab _, w, h => by simp only [walkRunChild, pick_cons, pick_nil, h.at, List.nil_append]
  | .brk _, w, h => by simp only [walkRunChild, pick_cons, pick_nil, h.at, List.nil_append]
  | .carriageReturn, w, h => by simp only [walkRunChild, pick_cons, pick_nil, h.at, List.nil_append]
  | .picture _, w, h => by simp only [walkRunChild, pick_cons, pick_nil, h.at, List.nil_append]
  | .textBox x, w, h => by simp only [walkRunChild, pick_cons, h.at, List.nil_append, walkBlocks_dead x _ h.cons]
  | .emptyDrawing, w, h => by simp only [walkRunChild, pick_cons, pick_nil, h.at, List.nil_append]
  | .shape _, w, h => by simp only [walkRunChild, pick_cons, pick_nil, h.at, List.nil_append]
  | .commentStart _ c, w, h => by simp only [walkRunChild, pick_cons, h.at, List.nil_append, walkComment_dead c _ h.cons]
  | .commentEnd _, w, h => by simp only [walkRunChild, pick_cons, pick_nil, h.at, List.nil_append]
  | .fieldChar _ _, w, h => by simp only [walkRunChild, pick_cons, pick_nil, h.at, List.nil_append]
  | .instrText _, w, h => by simp only [walkRunChild, pick_cons, pick_nil, h.at, List.nil_append]
  | .deleteInstrText _, w, h => by simp only [walkRunChild, pick_cons, pick_nil, h.at, List.nil_append]
  | .instrTextString _, w, h => by simp only [walkRunChild, pick_cons, pick_nil, h.at, List.nil_append]
  | .footnoteReference _ _ x, w, h => by simp only [walkRunChild, pick_cons, h.at, List.nil_append, walkParagraphs_dead x _ h.cons]
  | .shading _, w, h => by simp only [walkRunChild, pick_cons, pick_nil, h.at, List.nil_append]
theorem walkBlock_dead : ∀ (x : Block) (w : List Place), Dead k w → pick k (walkBlock w x) = []
  | .paragraph x, w, h => by simp only [walkBlock, pick_cons, h.at, List.nil_append, walkParagraph_dead x _ h]
  | .table x, w, h => by simp only [walkBlock, pick_cons, h.at, List.nil_append, walkTable_dead x _ h]
theorem walkDeleteChild_dead : ∀ (x : DeleteChild) (w : List Place), Dead k w → pick k (walkDeleteChild w x) = []
  | .run x, w, h => by simp only [walkDeleteChild, pick_cons, h.at, List.nil_append, walkRun_dead x _ h]
  | .commentStart _ c, w, h => by simp only [walkDeleteChild, pick_cons, h.at, List.nil_append, walkComment_dead c _ h.cons]
  | .commentEnd _, w, h => by simp only [walkDeleteChild, pick_cons, pick_nil, h.at, List.nil_append]
theorem walkInsertChild_dead : ∀ (x : InsertChild) (w : List Place), Dead k w → pick k (walkInsertChild w x) = []
  | .run x, w, h => by simp only [walkInsertChild, pick_cons, h.at, List.nil_append, walkRun_dead x _ h]
  | .delete x, w, h => by simp only [walkInsertChild, pick_cons, h.at, List.nil_append, walkDelete_dead x _ h.cons]
  | .commentStart _ c, w, h => by simp only [walkInsertChild, pick_cons, h.at, List.nil_append, walkComment_dead c _ h.cons]
  | .commentEnd _, w, h => by simp only [walkInsertChild, pick_cons, pick_nil, h.at, List.nil_append]
theorem walkParagraphChild_dead : ∀ (x : ParagraphChild) (w : List Place), Dead k w → pick k (walkParagraphChild w x) = []
  | .run x, w, h => by simp only [walkParagraphChild, pick_cons, h.at, List.nil_append, walkRun_dead x _ h]
  | .insert x, w, h => by simp only [walkParagraphChild, pick_cons, h.at, List.nil_append, walkInsert_dead x _ h.cons]
  | .delete x, w, h => by simp only [walkParagraphChild, pick_cons, h.at, List.nil_append, walkDelete_dead x _ h.cons]
  | .moveFrom x, w, h => by simp only [walkParagraphChild, pick_cons, h.at, List.nil_append, walkDelete_dead x _ h.cons]
  | .moveTo x, w, h => by simp only [walkParagraphChild, pick_cons, h.at, List.nil_append, walkInsert_dead x _ h.cons]
  | .bookmarkStart _ _, w, h => by simp only [walkParagraphChild, pick_cons, pick_nil, h.at, List.nil_append]
  | .hyperlink x, w, h => by simp only [walkParagraphChild, pick_cons, h.at, List.nil_append, walkHyperlink_dead x _ h]
  | .bookmarkEnd _, w, h => by simp only [walkParagraphChild, pick_cons, pick_nil, h.at, List.nil_append]
  | .commentStart _ c, w, h => by simp only [walkParagraphChild, pick_cons, h.at, List.nil_append, walkComment_dead c _ h.cons]
  | .commentEnd _, w, h => by simp only [walkParagraphChild, pick_cons, pick_nil, h.at, List.nil_append]
  | .sdt x, w, h => by simp only [walkParagraphChild, pick_cons, h.at, List.nil_append, walkSdt_dead x _ h]
  | .pageNum _, w, h => by simp only [walkParagraphChild, pick_cons, pick_nil, h.at, List.nil_append]
  | .numPages _, w, h => by simp only [walkParagraphChild, pick_cons, pick_nil, h.at, List.nil_append]
theorem walkSdtChild_dead : ∀ (x : SdtChild) (w : List Place), Dead k w → pick k (walkSdtChild w x) = []
  | .run x, w, h => by simp only [walkSdtChild, pick_cons, h.at, List.nil_append, walkRun_dead x _ h]
  | .paragraph x, w, h => by simp only [walkSdtChild, pick_cons, h.at, List.nil_append, walkParagraph_dead x _ h]
  | .table x, w, h => by simp only [walkSdtChild, pick_cons, h.at, List.nil_append, walkTable_dead x _ h]
  | .bookmarkStart _ _, w, h => by simp only [walkSdtChild, pick_cons, pick_nil, h.at, List.nil_append]
  | .bookmarkEnd _, w, h => by simp only [walkSdtChild, pick_cons, pick_nil, h.at, List.nil_append]
  | .commentStart _ c, w, h => by simp only [walkSdtChild, pick_cons, h.at, List.nil_append, walkComment_dead c _ h.cons]
  | .commentEnd _, w, h => by simp only [walkSdtChild, pick_cons, pick_nil, h.at, List.nil_append]
  | .sdt x, w, h => by simp only [walkSdtChild, pick_cons, h.at, List.nil_append, walkSdt_dead x _ h]
theorem walkCellContent_dead : ∀ (x : CellContent) (w : List Place), Dead k w → pick k (walkCellContent w x) = []
  | .paragraph x, w, h => by simp only [walkCellContent, pick_cons, h.at, List.nil_append, walkParagraph_dead x _ h]
  | .table x, w, h => by simp only [walkCellContent, pick_cons, h.at, List.nil_append, walkTable_dead x _ h]
  | .sdt x, w, h => by simp only [walkCellContent, pick_cons, h.at, List.nil_append, walkSdt_dead x _ h]
  | .toc x, w, h => by simp only [walkCellContent, pick_cons, h.at, List.nil_append, walkToc_dead x _ h]
end

theorem walkHeader_dead (x : Header) (w : List Place) (h : Dead k w) : pick k (walkHeader w x) = [] := by
  simp only [walkHeader, pick_flatMap, List.flatMap_eq_nil_iff]
  intro c _
  cases c <;> simp only [walkHeaderChild, walkParagraph_dead _ _ h, walkTable_dead _ _ h, walkSdt_dead _ _ h]

theorem walkSectionProperty_dead (x : SectionProperty) (w : List Place) (hh : Dead k (.header :: w)) (hf : Dead k (.footer :: w)) :
    pick k (walkSectionProperty w x) = [] := by
  simp only [walkSectionProperty, pick_append, pick_flatMap, walkHeader_dead _ _ hh, walkHeader_dead _ _ hf, List.append_eq_nil_iff,
    List.flatMap_eq_nil_iff]
  exact ⟨fun _ _ => trivial, fun _ _ => trivial⟩

theorem walkSection_dead (x : Section) (w : List Place) (h : Dead k (.section :: w)) : pick k (walkSection w x) = [] := by
  simp only [walkSection, pick_append, walkSectionProperty_dead _ _ h.cons h.cons, List.append_nil, pick_flatMap, List.flatMap_eq_nil_iff]
  intro c _
  cases c <;> simp only [walkSectionChild, walkParagraph_dead _ _ h, walkTable_dead _ _ h, walkSdt_dead _ _ h, walkToc_dead _ _ h,
    walkComment_dead _ _ h.cons, pick_cons, pick_nil, h.at, List.nil_append]

end

/-! ## What the passes find -/

/-- What is found at an item. -/
def foundAt (w : List Place) : Item → List Found
  | .hyperlink h => if searched w then h.link.found else []
  | .comment _ c => if inText w then [.comment c] else []
  | _ => []

theorem searched_append (a w : List Place) (h : searched w = false) (h2 : w.head? ≠ some .cell) : searched (a ++ w) = false := by
  induction a using searched.induct with
  | case1 => exact h
  | case2 w' ih => exact ih
  | case3 w' ih => exact ih
  | case4 w' ih => exact ih
  | case5 w' ih => exact ih
  | case6 w' ih => exact ih
  | case7 w' ih => exact ih
  | case8 l h1 h3 h4 h5 h6 h7 h8 =>
    cases l with
    | nil => exact absurd rfl h1
    | cons p l =>
      cases p with
      | sdt =>
        cases l with
        | nil =>
          cases w with
          | nil => exact absurd h (by decide)
          | cons q w =>
            cases q with
            | cell => exact absurd rfl h2
            | _ => rfl
        | cons q l =>
          cases q with
          | cell => exact absurd rfl (h3 l)
          | _ => rfl
      | paragraph => exact absurd rfl (h4 l)
      | cell => exact absurd rfl (h5 l)
      | tocBefore => exact absurd rfl (h6 l)
      | tocAfter => exact absurd rfl (h7 l)
      | document => exact absurd rfl (h8 l)
      | _ => rfl

theorem inText_append (a w : List Place) (h : searched w = false) (h1 : inText w = false) (h2 : w.head? ≠ some .cell) :
    inText (a ++ w) = false := by
  cases a with
  | nil => exact h1
  | cons p a =>
    cases p with
    | paragraph => exact searched_append a w h h2
    | hyperlink =>
      cases a with
      | nil =>
        cases w with
        | nil => rfl
        | cons q w =>
          cases q with
          | paragraph => exact h
          | _ => rfl
      | cons q a =>
        cases q with
        | paragraph => exact searched_append a w h h2
        | _ => rfl
    | _ => rfl

theorem dead_foundAt {w : List Place} (h : searched w = false) (h1 : inText w = false) (h2 : w.head? ≠ some .cell) : Dead foundAt w := by
  intro a i
  cases i with
  | hyperlink x => simp [foundAt, searched_append a w h h2]
  | comment x y => simp [foundAt, inText_append a w h h1 h2]
  | _ => rfl

theorem dead_run (w : List Place) : Dead foundAt (.run :: w) := dead_foundAt rfl rfl (by simp)
theorem dead_insert (w : List Place) : Dead foundAt (.insert :: w) := dead_foundAt rfl rfl (by simp)
theorem dead_delete (w : List Place) : Dead foundAt (.delete :: w) := dead_foundAt rfl rfl (by simp)
theorem dead_moveFrom (w : List Place) : Dead foundAt (.moveFrom :: w) := dead_foundAt rfl rfl (by simp)
theorem dead_moveTo (w : List Place) : Dead foundAt (.moveTo :: w) := dead_foundAt rfl rfl (by simp)
theorem dead_comment (w : List Place) : Dead foundAt (.comment :: w) := dead_foundAt rfl rfl (by simp)
theorem dead_section (w : List Place) : Dead foundAt (.section :: w) := dead_foundAt rfl rfl (by simp)
theorem dead_header (w : List Place) : Dead foundAt (.header :: w) := dead_foundAt rfl rfl (by simp)
theorem dead_footer (w : List Place) : Dead foundAt (.footer :: w) := dead_foundAt rfl rfl (by simp)
theorem dead_sdt {p : Place} (h : p ≠ .cell) (w : List Place) : Dead foundAt (.sdt :: p :: w) := by
  cases p <;> first | exact absurd rfl h | exact dead_foundAt rfl rfl (by simp)
theorem dead_hyperlink {p : Place} (h : p ≠ .paragraph) (w : List Place) : Dead foundAt (.hyperlink :: p :: w) := by
  cases p <;> first | exact absurd rfl h | exact dead_foundAt rfl rfl (by simp)

theorem found_run (r : Run) (w : List Place) : pick foundAt (walkRun w r) = [] := by
  obtain ⟨a, cs⟩ := r
  simp only [walkRun, pick_cons, foundAt, List.nil_append, walkRunChildren_dead cs _ (dead_run w)]

theorem found_sdt_dead (s : Sdt) {p : Place} (h : p ≠ .cell) (w : List Place) : pick foundAt (walkSdt (p :: w) s) = [] := by
  obtain ⟨cs, a, b⟩ := s
  simp only [walkSdt, pick_cons, foundAt, List.nil_append, walkSdtChildren_dead cs _ (dead_sdt h w)]

theorem found_linkChild (c : ParagraphChild) (w : List Place) (h : searched w = true) :
    pick foundAt (walkParagraphChild (.hyperlink :: .paragraph :: w) c) = c.foundComment := by
  cases c with
  | run r => exact found_run r _
  | insert x => exact walkInsert_dead x _ (dead_insert _)
  | delete x => exact walkDelete_dead x _ (dead_delete _)
  | moveFrom x => exact walkDelete_dead x _ (dead_moveFrom _)
  | moveTo x => exact walkInsert_dead x _ (dead_moveTo _)
  | hyperlink x =>
    obtain ⟨l, y, cs⟩ := x
    simp only [walkParagraphChild, walkHyperlink, pick_cons, foundAt, searched, walkParagraphChildren_dead cs _ (dead_hyperlink (by simp : Place.hyperlink ≠ .paragraph) _)]
    rfl
  | commentStart i x =>
    simp only [walkParagraphChild, pick_cons, foundAt, inText, h, if_true, walkComment_dead x _ (dead_comment _)]
    rfl
  | sdt x => exact found_sdt_dead x (by simp) _
  | _ => rfl

theorem found_linkChildren : ∀ (cs : List ParagraphChild) (w : List Place), searched w = true →
    pick foundAt (walkParagraphChildren (.hyperlink :: .paragraph :: w) cs) = cs.flatMap ParagraphChild.foundComment
  | [], _, _ => rfl
  | c :: cs, w, h => by
    simp only [walkParagraphChildren, pick_append, found_linkChild c w h, found_linkChildren cs w h, List.flatMap_cons]

theorem found_paragraphChild (c : ParagraphChild) (w : List Place) (h : searched w = true) :
    pick foundAt (walkParagraphChild (.paragraph :: w) c) = c.found := by
  cases c with
  | run r => exact found_run r _
  | insert x => exact walkInsert_dead x _ (dead_insert _)
  | delete x => exact walkDelete_dead x _ (dead_delete _)
  | moveFrom x => exact walkDelete_dead x _ (dead_moveFrom _)
  | moveTo x => exact walkInsert_dead x _ (dead_moveTo _)
  | hyperlink x =>
    obtain ⟨l, y, cs⟩ := x
    simp only [walkParagraphChild, walkHyperlink, pick_cons, foundAt, searched, h, if_true, found_linkChildren cs w h]
    rfl
  | commentStart i x =>
    simp only [walkParagraphChild, pick_cons, foundAt, inText, h, if_true, walkComment_dead x _ (dead_comment _)]
    rfl
  | sdt x => exact found_sdt_dead x (by simp) _
  | _ => rfl

theorem found_paragraphChildren : ∀ (cs : List ParagraphChild) (w : List Place), searched w = true →
    pick foundAt (walkParagraphChildren (.paragraph :: w) cs) = cs.flatMap ParagraphChild.found
  | [], _, _ => rfl
  | c :: cs, w, h => by
    simp only [walkParagraphChildren, pick_append, found_paragraphChild c w h, found_paragraphChildren cs w h, List.flatMap_cons]

theorem found_paragraph (p : Paragraph) (w : List Place) (h : searched w = true) : pick foundAt (walkParagraph w p) = p.found := by
  obtain ⟨a, cs, b, c⟩ := p
  simp only [walkParagraph, pick_cons, foundAt, List.nil_append, found_paragraphChildren cs w h, Paragraph.found]

mutual
theorem found_table : ∀ (t : Table) (w : List Place), searched w = true → pick foundAt (walkTable w t) = foundTable t
  | ⟨rs, _, _, _⟩, w, h => by
    simp only [walkTable, pick_cons, foundAt, List.nil_append, foundTable, found_rows rs w h]
theorem found_row : ∀ (t : Row) (w : List Place), searched w = true → pick foundAt (walkRow w t) = foundRow t
  | ⟨cs, _, _⟩, w, h => by simp only [walkRow, foundRow, found_cells cs w h]
theorem found_rows : ∀ (t : List Row) (w : List Place), searched w = true → pick foundAt (walkRows w t) = foundRows t
  | [], _, _ => rfl
  | c :: cs, w, h => by simp only [walkRows, pick_append, foundRows, found_row c w h, found_rows cs w h]
theorem found_cell : ∀ (t : Cell) (w : List Place), searched w = true → pick foundAt (walkCell w t) = foundCell t
  | ⟨cs, _, _⟩, w, h => by
    simp only [walkCell, pick_cons, foundAt, List.nil_append, foundCell, found_contents cs w h]
theorem found_cells : ∀ (t : List Cell) (w : List Place), searched w = true → pick foundAt (walkCells w t) = foundCells t
  | [], _, _ => rfl
  | c :: cs, w, h => by simp only [walkCells, pick_append, foundCells, found_cell c w h, found_cells cs w h]
theorem found_content : ∀ (t : CellContent) (w : List Place), searched w = true →
    pick foundAt (walkCellContent (.cell :: w) t) = foundContent t
  | .paragraph p, w, h => by simp only [walkCellContent, foundContent, found_paragraph p (.cell :: w) h]
  | .table t, w, h => by simp only [walkCellContent, foundContent, found_table t (.cell :: w) h]
  | .sdt s, w, h => by simp only [walkCellContent, foundContent, found_sdt s w h]
  | .toc t, w, h => by simp only [walkCellContent, foundContent, found_toc t (.cell :: w) h]
theorem found_contents : ∀ (t : List CellContent) (w : List Place), searched w = true →
    pick foundAt (walkCellContents (.cell :: w) t) = foundContents t
  | [], _, _ => rfl
  | c :: cs, w, h => by simp only [walkCellContents, pick_append, foundContents, found_content c w h, found_contents cs w h]
theorem found_sdt : ∀ (t : Sdt) (w : List Place), searched w = true → pick foundAt (walkSdt (.cell :: w) t) = foundSdt t
  | ⟨cs, _, _⟩, w, h => by
    simp only [walkSdt, pick_cons, foundAt, List.nil_append, foundSdt, found_sdtChildren cs w h]
theorem found_sdtChild : ∀ (t : SdtChild) (w : List Place), searched w = true →
    pick foundAt (walkSdtChild (.sdt :: .cell :: w) t) = foundSdtChild t
  | .run r, w, h => by simp only [walkSdtChild, found_run, foundSdtChild]
  | .paragraph p, w, h => by simp only [walkSdtChild, foundSdtChild, found_paragraph p (.sdt :: .cell :: w) h]
  | .table t, w, h => by simp only [walkSdtChild, foundSdtChild, found_table t (.sdt :: .cell :: w) h]
  | .commentStart i x, w, h => by
    simp only [walkSdtChild, pick_cons, foundAt, inText, walkComment_dead x _ (dead_comment _), foundSdtChild]
    rfl
  | .sdt s, w, h => by simp only [walkSdtChild, found_sdt_dead s (by simp : Place.sdt ≠ .cell), foundSdtChild]
  | .bookmarkStart _ _, w, h => rfl
  | .bookmarkEnd _, w, h => rfl
  | .commentEnd _, w, h => rfl
theorem found_sdtChildren : ∀ (t : List SdtChild) (w : List Place), searched w = true →
    pick foundAt (walkSdtChildren (.sdt :: .cell :: w) t) = foundSdtChildren t
  | [], _, _ => rfl
  | c :: cs, w, h => by simp only [walkSdtChildren, pick_append, foundSdtChildren, found_sdtChild c w h, found_sdtChildren cs w h]
theorem found_toc : ∀ (t : Toc) (w : List Place), searched w = true → pick foundAt (walkToc w t) = foundToc t
  | ⟨_, _, _, _, _, _, _, bs, as, _, _⟩, w, h => by
    simp only [walkToc, pick_cons, foundAt, List.nil_append, pick_append, foundToc, found_blocks bs (.tocBefore :: w) h,
      found_blocks as (.tocAfter :: w) h]
theorem found_block : ∀ (t : Block) (w : List Place), searched w = true → pick foundAt (walkBlock w t) = foundBlock t
  | .paragraph p, w, h => by simp only [walkBlock, foundBlock, found_paragraph p w h]
  | .table t, w, h => by simp only [walkBlock, foundBlock, found_table t w h]
theorem found_blocks : ∀ (t : List Block) (w : List Place), searched w = true → pick foundAt (walkBlocks w t) = foundBlocks t
  | [], _, _ => rfl
  | c :: cs, w, h => by simp only [walkBlocks, pick_append, foundBlocks, found_block c w h, found_blocks cs w h]
end

/-- What a pass finds is what is in the searched places of the document. -/
theorem document_found (d : Document) : d.found = pick foundAt (walkDocument d) := by
  unfold Document.found walkDocument
  rw [pick_append, walkSectionProperty_dead _ _ (dead_header _) (dead_footer _), List.append_nil, pick_flatMap]
  refine flatMap_congr' fun c _ => ?_
  cases c with
  | paragraph p => exact (found_paragraph p [.document] rfl).symm
  | table t => exact (found_table t [.document] rfl).symm
  | toc t => exact (found_toc t [.document] rfl).symm
  | sdt s => exact (found_sdt_dead s (by simp) _).symm
  | commentStart i x =>
    simp only [walkDocumentChild, pick_cons, foundAt, inText, walkComment_dead x _ (dead_comment _)]
    rfl
  | «section» s => exact (walkSection_dead s _ (dead_section _)).symm
  | _ => rfl

/-- The link a finding stands for. -/
def Found.link? : Found → Option (Str × Str)
  | .link rid path => some (rid, path)
  | .comment _ => none

/-- The comment a finding stands for. -/
def Found.comment? : Found → Option Comment
  | .link _ _ => none
  | .comment c => some c

theorem filterMap_pick {α β : Type} (k : List Place → Item → List α) (f : α → Option β) (l : Walk) :
    (pick k l).filterMap f = pick (fun w i => (k w i).filterMap f) l := by
  unfold pick
  rw [List.filterMap_flatMap]

theorem within_pick {β : Type} (keep : List Place → Bool) (f : Item → Option β) (l : Walk) :
    (l.within keep).filterMap f = pick (fun w i => if keep w then (f i).toList else []) l := by
  unfold Walk.within pick
  induction l with
  | nil => rfl
  | cons x l ih =>
    rw [List.flatMap_cons, ← ih]
    rw [List.filter_cons]
    dsimp only
    by_cases h : keep x.1 = true
    · rw [if_pos h, if_pos h, List.map_cons, List.filterMap_cons]
      cases f x.2 <;> simp
    · rw [if_neg h, if_neg h, List.nil_append]

theorem pick_congr {α : Type} {k k' : List Place → Item → List α} (h : ∀ w i, k w i = k' w i) (l : Walk) : pick k l = pick k' l := by
  have : k = k' := by funext w i; exact h w i
  rw [this]

theorem found_links (d : Document) : d.found.filterMap Found.link? = bodyLinks d := by
  rw [document_found, filterMap_pick, bodyLinks, within_pick]
  refine pick_congr (fun w i => ?_) _
  cases i with
  | hyperlink h =>
    obtain ⟨l, a, cs⟩ := h
    cases l <;> cases hs : searched w <;> simp [foundAt, hs, HyperlinkData.found, Item.external?, Found.link?]
  | comment a c => cases hs : inText w <;> simp [foundAt, hs, Item.external?, Found.link?]
  | _ => simp [foundAt, Item.external?]

theorem found_comments (d : Document) : d.found.filterMap Found.comment? = bodyComments d := by
  rw [document_found, filterMap_pick, bodyComments, within_pick]
  refine pick_congr (fun w i => ?_) _
  cases i with
  | hyperlink h =>
    obtain ⟨l, a, cs⟩ := h
    cases l <;> cases hs : searched w <;> simp [foundAt, hs, HyperlinkData.found, Item.comment?, Found.comment?]
  | comment a c => cases hs : inText w <;> simp [foundAt, hs, Item.comment?, Found.comment?]
  | _ => simp [foundAt, Item.comment?]

/-- Preparation keeps the external links of the body. -/
theorem prepareForBuild_links (env : Env) (d : DocxFile) (w : World) :
    bodyLinks (d.prepareForBuild env w).1.document = bodyLinks d.document := by
  unfold bodyLinks
  rw [within_pick, within_pick]
  refine prepareForBuild_pick ⟨fun w p => ?_, fun w p => ?_⟩ (fun w i => ?_) env d w
  · simp [Item.external?]
  · simp [Item.external?]
  · cases i with
    | hyperlink h =>
      obtain ⟨l, a, cs⟩ := h
      cases l <;> simp [blankItem, blankHyperlink, Item.external?]
    | _ => simp [blankItem, Item.external?]

end Docx
