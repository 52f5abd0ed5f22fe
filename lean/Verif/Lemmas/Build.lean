import Verif.Spec.DocXml
import Verif.Spec.XmlTree

/-!
# The writers write exactly the specified trees

`flat` turns a tree writer into the tag writer it denotes; every builder of the model is the `flat` of
the corresponding `nodes`.
-/

namespace Docx

open Docx.Spec (Tag Node Node.tags tagsForest)

set_option linter.unusedSimpArgs false

/-- The tags of a tree writer. -/
def flat (n : N) : B := fun g =>
  match n g with
  | none => none
  | some (f, g) => some (tagsForest f, g)

@[simp] theorem tagsForest_append' (a b : List Node) : tagsForest (a ++ b) = tagsForest a ++ tagsForest b := by
  induction a with
  | nil => simp [tagsForest]
  | cons x xs ih => simp [tagsForest, ih]

@[simp] theorem flat_emit (ns : List Node) : flat (emitN ns) = emit (tagsForest ns) := rfl
@[simp] theorem flat_panic : flat panicN = panicB := rfl
@[simp] theorem flat_then (a b : N) : flat (a.thenN b) = (flat a).then (flat b) := by
  funext g
  simp only [flat, N.thenN, B.then]
  cases a g with
  | none => rfl
  | some r =>
    obtain ⟨f, g⟩ := r
    dsimp only
    cases b g with
    | none => rfl
    | some r => simp [tagsForest_append']

@[simp] theorem then_assoc (a b c : B) : (a.then b).then c = a.then (b.then c) := by
  funext g
  simp only [B.then]
  cases a g with
  | none => rfl
  | some r =>
    obtain ⟨f, g⟩ := r
    dsimp only
    cases b g with
    | none => rfl
    | some r =>
      obtain ⟨f, g⟩ := r
      dsimp only
      cases c g with
      | none => rfl
      | some r => simp

@[simp] theorem emit_nil_then (b : B) : (emit []).then b = b := by
  funext g
  simp only [B.then, emit]
  cases b g with
  | none => rfl
  | some r => rfl

@[simp] theorem then_emit_nil (b : B) : b.then (emit []) = b := by
  funext g
  simp only [B.then, emit]
  cases b g with
  | none => rfl
  | some r => simp

theorem emit_append (a b : List Tag) : emit (a ++ b) = (emit a).then (emit b) := rfl
theorem emit_cons (a b : Tag) (l : List Tag) : emit (a :: b :: l) = (emit [a]).then (emit (b :: l)) := rfl

theorem emit_cons' (a : Tag) (l : List Tag) : emit (a :: l) = (emit [a]).then (emit l) := rfl

@[simp] theorem flat_elem (n : Str) (as : List (Str × Str)) (body : N) :
    flat (elemN n as body) = (emit [.opn n as]).then ((flat body).then (emit [.cls])) := by
  funext g
  simp only [flat, elemN, B.then, emit]
  cases body g with
  | none => rfl
  | some r => simp [tagsForest, Node.tags]

theorem flat_cat_nil : flat (catN []) = emit [] := rfl
@[simp] theorem flat_cat_cons (a : N) (l : List N) : flat (catN (a :: l)) = (flat a).then (flat (catN l)) := by
  simp [catN]

@[simp] theorem flat_catN_nil : flat (catN []) = emit [] := rfl

@[simp] theorem flat_if (c : Bool) (b : N) : flat (ifN c b) = ifB c (flat b) := by
  cases c <;> rfl

@[simp] theorem flat_opt {α} (o : Option α) (f : α → N) : flat (optNB o f) = optB o (fun a => flat (f a)) := by
  cases o <;> rfl

@[simp] theorem flat_each {α} (f : α → N) (l : List α) : flat (eachN f l) = eachB (fun a => flat (f a)) l := by
  induction l with
  | nil => rfl
  | cons a l ih => simp [eachN, eachB, ih]

@[simp] theorem flat_history (f : Str → N) : flat (withHistoryN f) = withHistory (fun i => flat (f i)) := rfl
@[simp] theorem flat_change (f : Str → N) : flat (withChangeN f) = withChange (fun i => flat (f i)) := rfl
@[simp] theorem flat_paraId (f : Str → N) : flat (withParaIdN f) = withParaId (fun i => flat (f i)) := rfl

@[simp] theorem tagsForest_leaf (n : Str) (as : List (Str × Str)) : tagsForest (leafN n as) = leaf n as := rfl
@[simp] theorem tagsForest_val (n v : Str) : tagsForest (valN n v) = valEl n v := rfl
@[simp] theorem tagsForest_opt {α} (o : Option α) (f : α → List Node) :
    tagsForest (optN o f) = optTags o (fun a => tagsForest (f a)) := by
  cases o <;> rfl
@[simp] theorem tagsForest_ite (c : Prop) [Decidable c] (a b : List Node) :
    tagsForest (if c then a else b) = if c then tagsForest a else tagsForest b := by
  split <;> rfl
@[simp] theorem tagsForest_elem (n : Str) (as : List (Str × Str)) (f l : List Node) :
    tagsForest (.elem n as f :: l) = .opn n as :: (tagsForest f ++ (.cls :: tagsForest l)) := by
  simp [tagsForest, Node.tags]
@[simp] theorem tagsForest_text (s : Str) (l : List Node) :
    tagsForest (.text s :: l) = .txt s :: tagsForest l := rfl
@[simp] theorem tagsForest_flatMap {α} (l : List α) (f : α → List Node) :
    tagsForest (l.flatMap f) = l.flatMap (fun a => tagsForest (f a)) := by
  induction l with
  | nil => rfl
  | cons a l ih => simp [tagsForest_append', ih]
@[simp] theorem tagsForest_nil : tagsForest [] = [] := rfl

@[simp] theorem Color_tags_flat (c : Color) : tagsForest (Color.nodes c) = Color.tags c := by
  simp [-String.reduceToList, Color.nodes, Color.tags]

@[simp] theorem toggleTags_flat (name : Str) (on : Bool) : tagsForest (toggleNodes name on) = toggleTags name on := by
  simp [-String.reduceToList, toggleNodes, toggleTags]

@[simp] theorem toggleCsTags_flat (name : Str) (on : Bool) : tagsForest (toggleCsNodes name on) = toggleCsTags name on := by
  simp [-String.reduceToList, toggleCsNodes, toggleCsTags]

@[simp] theorem RunFonts_tags_flat (f : RunFonts) : tagsForest (RunFonts.nodes f) = RunFonts.tags f := by
  simp [-String.reduceToList, RunFonts.nodes, RunFonts.tags]

@[simp] theorem borderTags_flat (name : Str) (t : BorderType) (size space : Nat) (color : Str) : tagsForest (borderNodes name t size space color) = borderTags name t size space color := by
  simp [-String.reduceToList, borderNodes, borderTags]

@[simp] theorem TextBorder_tags_flat (b : TextBorder) : tagsForest (TextBorder.nodes b) = TextBorder.tags b := by
  simp [-String.reduceToList, TextBorder.nodes, TextBorder.tags]

@[simp] theorem Mark_build_flat (name : Str) (m : Mark) : flat (Mark.nodes name m) = Mark.build name m := by
  simp [-String.reduceToList, Mark.nodes, Mark.build, revisionNode, revisionAttrs, revisionOpen, cat, emit_append, emit_cons]

@[simp] theorem FitText_tags_flat (f : FitText) : tagsForest (FitText.nodes f) = FitText.tags f := by
  simp [-String.reduceToList, FitText.nodes, FitText.tags]

@[simp] theorem PositionalTab_tags_flat (t : PositionalTab) : tagsForest (PositionalTab.nodes t) = PositionalTab.tags t := by
  simp [-String.reduceToList, PositionalTab.nodes, PositionalTab.tags]

@[simp] theorem Shading_tags_flat (s : Shading) : tagsForest (Shading.nodes s) = Shading.tags s := by
  simp [-String.reduceToList, Shading.nodes, Shading.tags]

@[simp] theorem RunProperty_build_flat (p : RunProperty) : flat (RunProperty.nodes p) = RunProperty.build p := by
  simp [-String.reduceToList, RunProperty.nodes, RunProperty.build, revisionNode, revisionAttrs, revisionOpen, cat, emit_append, emit_cons]

@[simp] theorem PageSize_tags_flat (s : PageSize) : tagsForest (PageSize.nodes s) = PageSize.tags s := by
  simp [-String.reduceToList, PageSize.nodes, PageSize.tags]

@[simp] theorem PageMargin_tags_flat (m : PageMargin) : tagsForest (PageMargin.nodes m) = PageMargin.tags m := by
  simp [-String.reduceToList, PageMargin.nodes, PageMargin.tags]

@[simp] theorem DocGrid_tags_flat (g : DocGrid) : tagsForest (DocGrid.nodes g) = DocGrid.tags g := by
  simp [-String.reduceToList, DocGrid.nodes, DocGrid.tags]

@[simp] theorem PartReference_tags_flat (name : Str) (r : PartReference) : tagsForest (PartReference.nodes name r) = PartReference.tags name r := by
  simp [-String.reduceToList, PartReference.nodes, PartReference.tags]

@[simp] theorem PageNumType_tags_flat (t : PageNumType) : tagsForest (PageNumType.nodes t) = PageNumType.tags t := by
  simp [-String.reduceToList, PageNumType.nodes, PageNumType.tags]

@[simp] theorem SectionBase_tags_flat (p : SectionBase) : tagsForest (SectionBase.nodes p) = SectionBase.tags p := by
  simp [-String.reduceToList, SectionBase.nodes, SectionBase.tags]

@[simp] theorem NumberingProperty_tags_flat (n : NumberingProperty) : tagsForest (NumberingProperty.nodes n) = NumberingProperty.tags n := by
  simp [-String.reduceToList, NumberingProperty.nodes, NumberingProperty.tags]

@[simp] theorem FrameProperty_tags_flat (p : FrameProperty) : tagsForest (FrameProperty.nodes p) = FrameProperty.tags p := by
  simp [-String.reduceToList, FrameProperty.nodes, FrameProperty.tags]

@[simp] theorem Indent_tags_flat (i : Indent) : tagsForest (Indent.nodes i) = Indent.tags i := rfl

@[simp] theorem LineSpacing_tags_flat (l : LineSpacing) : tagsForest (LineSpacing.nodes l) = LineSpacing.tags l := rfl

@[simp] theorem ParagraphBorder_tags_flat (b : ParagraphBorder) : tagsForest (ParagraphBorder.nodes b) = ParagraphBorder.tags b := by
  simp [-String.reduceToList, ParagraphBorder.nodes, ParagraphBorder.tags]

@[simp] theorem ParagraphBorders_tags_flat (b : ParagraphBorders) : tagsForest (ParagraphBorders.nodes b) = ParagraphBorders.tags b := by
  simp [-String.reduceToList, ParagraphBorders.nodes, ParagraphBorders.tags]

@[simp] theorem Tab_tags_flat (t : Tab) : tagsForest (Tab.nodes t) = Tab.tags t := by
  simp [-String.reduceToList, Tab.nodes, Tab.tags]

@[simp] theorem ParagraphBase_buildBefore_flat (p : ParagraphBase) : flat (ParagraphBase.nodesBefore p) = ParagraphBase.buildBefore p := by
  simp [-String.reduceToList, ParagraphBase.nodesBefore, ParagraphBase.buildBefore, revisionNode, revisionAttrs, revisionOpen, cat, emit_append, emit_cons]

@[simp] theorem ParagraphBase_tagsAfter_flat (p : ParagraphBase) : tagsForest (ParagraphBase.nodesAfter p) = ParagraphBase.tagsAfter p := by
  simp [-String.reduceToList, ParagraphBase.nodesAfter, ParagraphBase.tagsAfter]

@[simp] theorem widthTags_flat (name : Str) (w : Int) (t : WidthType) : tagsForest (widthNodes name w t) = widthTags name w t := by
  simp [-String.reduceToList, widthNodes, widthTags]

@[simp] theorem TableBorder_tags_flat (b : TableBorder) : tagsForest (TableBorder.nodes b) = TableBorder.tags b := by
  simp [-String.reduceToList, TableBorder.nodes, TableBorder.tags]

@[simp] theorem TableBorders_tags_flat (b : TableBorders) : tagsForest (TableBorders.nodes b) = TableBorders.tags b := by
  simp [-String.reduceToList, TableBorders.nodes, TableBorders.tags]

@[simp] theorem CellMargin_tags_flat (name : Str) (m : CellMargin) : tagsForest (CellMargin.nodes name m) = CellMargin.tags name m := by
  simp [-String.reduceToList, CellMargin.nodes, CellMargin.tags]

@[simp] theorem TableCellMargins_tags_flat (m : TableCellMargins) : tagsForest (TableCellMargins.nodes m) = TableCellMargins.tags m := by
  simp [-String.reduceToList, TableCellMargins.nodes, TableCellMargins.tags]

@[simp] theorem TablePositionProperty_tags_flat (p : TablePositionProperty) : tagsForest (TablePositionProperty.nodes p) = TablePositionProperty.tags p := by
  simp [-String.reduceToList, TablePositionProperty.nodes, TablePositionProperty.tags]

@[simp] theorem TableProperty_tags_flat (p : TableProperty) : tagsForest (TableProperty.nodes p) = TableProperty.tags p := by
  simp [-String.reduceToList, TableProperty.nodes, TableProperty.tags]

@[simp] theorem gridTags_flat (grid : List Nat) : tagsForest (gridNodes grid) = gridTags grid := by
  simp [-String.reduceToList, gridNodes, gridTags]

@[simp] theorem TableRowProperty_build_flat (p : TableRowProperty) : flat (TableRowProperty.nodes p) = TableRowProperty.build p := by
  simp [-String.reduceToList, TableRowProperty.nodes, TableRowProperty.build, revisionNode, revisionAttrs, revisionOpen, cat, emit_append, emit_cons]

@[simp] theorem TableCellBorder_tags_flat (b : TableCellBorder) : tagsForest (TableCellBorder.nodes b) = TableCellBorder.tags b := by
  simp [-String.reduceToList, TableCellBorder.nodes, TableCellBorder.tags]

@[simp] theorem TableCellBorders_tags_flat (b : TableCellBorders) : tagsForest (TableCellBorders.nodes b) = TableCellBorders.tags b := by
  simp [-String.reduceToList, TableCellBorders.nodes, TableCellBorders.tags]

@[simp] theorem CellMargins_tags_flat (m : CellMargins) : tagsForest (CellMargins.nodes m) = CellMargins.tags m := by
  simp [-String.reduceToList, CellMargins.nodes, CellMargins.tags]

@[simp] theorem TableCellProperty_tags_flat (p : TableCellProperty) : tagsForest (TableCellProperty.nodes p) = TableCellProperty.tags p := by
  simp [-String.reduceToList, TableCellProperty.nodes, TableCellProperty.tags]

@[simp] theorem DataBinding_tags_flat (d : DataBinding) : tagsForest (DataBinding.nodes d) = DataBinding.tags d := by
  simp [-String.reduceToList, DataBinding.nodes, DataBinding.tags]

@[simp] theorem SdtProperty_build_flat (p : SdtProperty) : flat (SdtProperty.nodes p) = SdtProperty.build p := by
  simp [-String.reduceToList, SdtProperty.nodes, SdtProperty.build, revisionNode, revisionAttrs, revisionOpen, cat, emit_append, emit_cons]

@[simp] theorem InstrPAGEREF_tags_flat (i : InstrPAGEREF) : tagsForest (InstrPAGEREF.nodes i) = InstrPAGEREF.tags i := by
  simp [-String.reduceToList, InstrPAGEREF.nodes, InstrPAGEREF.tags]

@[simp] theorem commentStartTags_flat (id : Nat) : tagsForest (commentStartNodes id) = commentStartTags id := by
  simp [-String.reduceToList, commentStartNodes, commentStartTags]

@[simp] theorem commentEndTags_flat (id : Nat) : tagsForest (commentEndNodes id) = commentEndTags id := rfl

mutual
theorem ParagraphProperty_build_flat : (p : ParagraphProperty) → flat p.nodes = p.build
  | ⟨base, change⟩ => by
    simp [-String.reduceToList, ParagraphProperty.nodes, ParagraphProperty.build, cat, buildChange_flat change]
theorem buildChange_flat : (c : Option ParagraphPropertyChange) → flat (nodesChange c) = buildChange c
  | none => rfl
  | some c => by simp [nodesChange, buildChange, ParagraphPropertyChange_build_flat c]
theorem ParagraphPropertyChange_build_flat : (c : ParagraphPropertyChange) → flat c.nodes = c.build
  | ⟨author, date, property⟩ => by
    simp [-String.reduceToList, ParagraphPropertyChange.nodes, ParagraphPropertyChange.build, revisionAttrs,
      revisionOpen, cat, ParagraphProperty_build_flat property]
end

attribute [simp] ParagraphProperty_build_flat

@[simp] theorem InstrText_build_flat (i : InstrText) : flat i.nodes = i.build := by
  cases i <;> simp [-String.reduceToList, InstrText.nodes, InstrText.build, cat, emit_append, emit_cons]

@[simp] theorem DeleteInstrText_build_flat (i : DeleteInstrText) : flat i.nodes = i.build := by
  cases i <;> simp [-String.reduceToList, DeleteInstrText.nodes, DeleteInstrText.build, cat, emit_append, emit_cons]

@[simp] theorem Pic_tags_flat (p : Pic) : tagsForest p.nodes = p.tags := by
  simp [-String.reduceToList, Pic.nodes, Pic.tags]

@[simp] theorem DrawingPosition_tags_flat (p : DrawingPosition) : tagsForest p.nodes = p.tags := by
  cases p <;> simp [-String.reduceToList, DrawingPosition.nodes, DrawingPosition.tags]

@[simp] theorem drawingTags_flat (p : Pic) : tagsForest (drawingNodes p) = drawingTags p := by
  unfold drawingNodes drawingTags
  cases h : p.positionType <;> simp [-String.reduceToList, graphicNodes, h]

@[simp] theorem RunChild_build_flat (c : RunChild) : flat c.nodes = c.build := by
  cases c <;> simp [-String.reduceToList, RunChild.nodes, RunChild.build]

@[simp] theorem Run_build_flat (r : Run) : flat r.nodes = r.build := by
  simp [-String.reduceToList, Run.nodes, Run.build, cat]

@[simp] theorem DeleteChild_build_flat (c : DeleteChild) : flat c.nodes = c.build := by
  cases c <;> simp [-String.reduceToList, DeleteChild.nodes, DeleteChild.build]

@[simp] theorem Delete_build_flat (name : Str) (d : Delete) : flat (d.nodes name) = d.build name := by
  simp [-String.reduceToList, Delete.nodes, Delete.build, revisionAttrs, revisionOpen, cat]

@[simp] theorem InsertChild_build_flat (c : InsertChild) : flat c.nodes = c.build := by
  cases c <;> simp [-String.reduceToList, InsertChild.nodes, InsertChild.build]

@[simp] theorem Insert_build_flat (name : Str) (i : Insert) : flat (i.nodes name) = i.build name := by
  simp [-String.reduceToList, Insert.nodes, Insert.build, revisionAttrs, revisionOpen, cat]

@[simp] theorem bookmarkStartTags_flat (id : Nat) (name : Str) : tagsForest (bookmarkStartNodes id name) = bookmarkStartTags id name := by
  simp [-String.reduceToList, bookmarkStartNodes, bookmarkStartTags]

@[simp] theorem bookmarkEndTags_flat (id : Nat) : tagsForest (bookmarkEndNodes id) = bookmarkEndTags id := by
  simp [-String.reduceToList, bookmarkEndNodes, bookmarkEndTags]


@[simp] theorem paragraphB_flat (id : Str) (p : ParagraphProperty) (c : N) :
    flat (paragraphN id p c) = paragraphB id p (flat c) := by
  simp [-String.reduceToList, paragraphN, paragraphB, cat]

@[simp] theorem newParagraphB_flat (p : ParagraphProperty) (c : N) :
    flat (newParagraphN p c) = newParagraphB p (flat c) := by
  simp [-String.reduceToList, newParagraphN, newParagraphB]

@[simp] theorem tocItemRuns_flat (t : TocItem) : flat (tocItemRunsN t) = tocItemRuns t := by
  unfold tocItemRunsN tocItemRuns
  cases t.instr.hyperlink <;> simp [-String.reduceToList, cat]

@[simp] theorem tocItemB_flat (first : Bool) (t : TocItem) : flat (tocItemN first t) = tocItemB first t := by
  simp [-String.reduceToList, tocItemN, tocItemB, cat]

@[simp] theorem tocEndB_flat (t : TocItem) : flat (tocEndN t) = tocEndB t := by
  simp [-String.reduceToList, tocEndN, tocEndB]

@[simp] theorem tocItemsB_flat (ts : List TocItem) :
    ∀ first, flat (tocItemsN first ts) = tocItemsB first ts := by
  induction ts with
  | nil => intro first; rfl
  | cons t ts ih =>
    intro first
    cases ts with
    | nil => simp [tocItemsN, tocItemsB, cat]
    | cons u us => simp [tocItemsN, tocItemsB, cat, ih]

@[simp] theorem tocEntriesB_flat (ts : List TocItem) : flat (tocEntriesN ts) = tocEntriesB ts := by
  simp [-String.reduceToList, tocEntriesN, tocEntriesB, cat, leaf, emit_cons]

@[simp] theorem tocStartChildren_flat (i : InstrToC) (d : Option Mark) :
    flat (tocStartChildrenN i d) = tocStartChildren i d := by
  cases d <;> simp [tocStartChildrenN, tocStartChildren]

@[simp] theorem emptyLineB_flat : flat emptyLineN = emptyLineB := by
  simp [emptyLineN, emptyLineB]

theorem withParaId_then (f : Str → B) (b : B) :
    (withParaId f).then b = withParaId fun i => (f i).then b := rfl

theorem ifB_empty_then (c : Bool) (a b : B) :
    (ifB c a).then b = if c then a.then b else b := by
  cases c <;> simp [ifB]

theorem wrapSdt_flat (without : Bool) (alias : Option Str) (n : N) :
    flat (wrapSdt without alias n)
      = cat [ifB (!without) (cat [emit [.opn c!"w:sdt" []], SdtProperty.build { alias := alias },
          emit [.opn c!"w:sdtContent" []]]), flat n, ifB (!without) (emit [.cls, .cls])] := by
  cases without <;> simp [-String.reduceToList, wrapSdt, cat, ifB, emit_cons]

set_option maxHeartbeats 1000000 in
mutual
theorem ParagraphChild_build_flat : (c : ParagraphChild) → flat c.nodes = c.build
  | .run r => by simp [ParagraphChild.nodes, ParagraphChild.build]
  | .insert i => by simp [ParagraphChild.nodes, ParagraphChild.build]
  | .delete d => by simp [ParagraphChild.nodes, ParagraphChild.build]
  | .moveFrom d => by simp [ParagraphChild.nodes, ParagraphChild.build]
  | .moveTo i => by simp [ParagraphChild.nodes, ParagraphChild.build]
  | .bookmarkStart id name => by simp [ParagraphChild.nodes, ParagraphChild.build]
  | .hyperlink h => by simp [ParagraphChild.nodes, ParagraphChild.build, Hyperlink_build_flat h]
  | .bookmarkEnd id => by simp [ParagraphChild.nodes, ParagraphChild.build]
  | .commentStart id _ => by simp [ParagraphChild.nodes, ParagraphChild.build]
  | .commentEnd id => by simp [ParagraphChild.nodes, ParagraphChild.build]
  | .sdt s => by simp [ParagraphChild.nodes, ParagraphChild.build, Sdt_build_flat s]
  | .pageNum _ => by simp [ParagraphChild.nodes, ParagraphChild.build]
  | .numPages _ => by simp [ParagraphChild.nodes, ParagraphChild.build]
theorem buildParagraphChildren_flat : (l : List ParagraphChild) →
    flat (nodesParagraphChildren l) = buildParagraphChildren l
  | [] => rfl
  | c :: cs => by
    simp [nodesParagraphChildren, buildParagraphChildren, ParagraphChild_build_flat c,
      buildParagraphChildren_flat cs]
theorem Hyperlink_build_flat : (h : Hyperlink) → flat h.nodes = h.build
  | ⟨link, history, children⟩ => by
    simp [-String.reduceToList, Hyperlink.nodes, Hyperlink.build, cat, buildParagraphChildren_flat children]
theorem Sdt_build_flat : (s : Sdt) → flat s.nodes = s.build
  | ⟨children, property, _⟩ => by
    simp [-String.reduceToList, Sdt.nodes, Sdt.build, cat, emit_cons, buildSdtChildren_flat children]
theorem buildSdtChildren_flat : (l : List SdtChild) → flat (nodesSdtChildren l) = buildSdtChildren l
  | [] => rfl
  | c :: cs => by
    simp [nodesSdtChildren, buildSdtChildren, SdtChild_build_flat c, buildSdtChildren_flat cs]
theorem SdtChild_build_flat : (c : SdtChild) → flat c.nodes = c.build
  | .run r => by simp [SdtChild.nodes, SdtChild.build]
  | .paragraph p => by simp [SdtChild.nodes, SdtChild.build, Paragraph_build_flat p]
  | .table t => by simp [SdtChild.nodes, SdtChild.build, Table_build_flat t]
  | .bookmarkStart id name => by simp [SdtChild.nodes, SdtChild.build]
  | .bookmarkEnd id => by simp [SdtChild.nodes, SdtChild.build]
  | .commentStart id _ => by simp [SdtChild.nodes, SdtChild.build]
  | .commentEnd id => by simp [SdtChild.nodes, SdtChild.build]
  | .sdt s => by simp [SdtChild.nodes, SdtChild.build, Sdt_build_flat s]
theorem Paragraph_build_flat : (p : Paragraph) → flat p.nodes = p.build
  | ⟨id, children, property, _⟩ => by
    simp [Paragraph.nodes, Paragraph.build, buildParagraphChildren_flat children]
theorem Table_build_flat : (t : Table) → flat t.nodes = t.build
  | ⟨rows, grid, _, property⟩ => by
    simp [-String.reduceToList, Table.nodes, Table.build, cat, buildRows_flat rows]
theorem buildRows_flat : (l : List Row) → flat (nodesRows l) = buildRows l
  | [] => rfl
  | r :: rs => by simp [nodesRows, buildRows, Row_build_flat r, buildRows_flat rs]
theorem Row_build_flat : (r : Row) → flat r.nodes = r.build
  | ⟨cells, _, property⟩ => by
    simp [-String.reduceToList, Row.nodes, Row.build, cat, buildCells_flat cells]
theorem buildCells_flat : (l : List Cell) → flat (nodesCells l) = buildCells l
  | [] => rfl
  | c :: cs => by simp [nodesCells, buildCells, Cell_build_flat c, buildCells_flat cs]
theorem Cell_build_flat : (c : Cell) → flat c.nodes = c.build
  | ⟨children, property, _⟩ => by
    simp [-String.reduceToList, Cell.nodes, Cell.build, cat, buildCellContents_flat _ children]
theorem buildCellContents_flat (only : Bool) : (l : List CellContent) →
    flat (nodesCellContents only l) = buildCellContents only l
  | [] => rfl
  | c :: cs => by
    simp [nodesCellContents, buildCellContents, CellContent_build_flat only c, buildCellContents_flat only cs]
theorem CellContent_build_flat (only : Bool) : (c : CellContent) → flat (c.nodes only) = c.build only
  | .paragraph p => by simp [CellContent.nodes, CellContent.build, Paragraph_build_flat p]
  | .table t => by simp [CellContent.nodes, CellContent.build, Table_build_flat t]
  | .sdt s => by simp [CellContent.nodes, CellContent.build, Sdt_build_flat s]
  | .toc t => by simp [CellContent.nodes, CellContent.build, Toc_build_flat t]
theorem Toc_build_flat : (t : Toc) → flat t.nodes = t.build
  | ⟨instr, items, _, dirty, withoutSdt, alias, placeholder, before, after, delete, property⟩ => by
    cases items with
    | nil =>
      simp only [Toc.nodes, Toc.build, wrapSdt_flat]
      simp [-String.reduceToList, cat, buildBlocks_flat before, buildAfter_flat _ after, withParaId_then]
    | cons i is =>
      simp only [Toc.nodes, Toc.build, wrapSdt_flat]
      simp [-String.reduceToList, cat, buildBlocks_flat before, buildAfter_flat _ after]
theorem buildBlocks_flat : (l : List Block) → flat (nodesBlocks l) = buildBlocks l
  | [] => rfl
  | b :: bs => by simp [nodesBlocks, buildBlocks, Block_build_flat b, buildBlocks_flat bs]
theorem Block_build_flat : (b : Block) → flat b.nodes = b.build
  | .paragraph p => by simp [Block.nodes, Block.build, Paragraph_build_flat p]
  | .table t => by simp [Block.nodes, Block.build, Table_build_flat t]
theorem buildAfter_flat (pos : TocPosition) : (l : List Block) → flat (nodesAfter pos l) = buildAfter pos l
  | [] => rfl
  | b :: bs => by simp [nodesAfter, buildAfter, Block_buildAfter_flat pos b, buildAfter_flat .later bs]
theorem Block_buildAfter_flat (pos : TocPosition) : (b : Block) → flat (b.nodesAfter pos) = b.buildAfter pos
  | .paragraph ⟨id, children, property, _⟩ => by
    cases pos <;>
      simp [Block.nodesAfter, Block.buildAfter, cat, buildParagraphChildren_flat children]
  | .table t => by
    cases pos <;> simp [Block.nodesAfter, Block.buildAfter, cat, Table_build_flat t]
end

attribute [simp] Paragraph_build_flat Table_build_flat Sdt_build_flat Toc_build_flat buildBlocks_flat

@[simp] theorem HeaderChild_build_flat (c : HeaderChild) : flat c.nodes = c.build := by
  cases c <;> simp [HeaderChild.nodes, HeaderChild.build]

/-- A header or footer part. -/
theorem Header_build_flat (name : Str) (h : Header) : flat (h.nodes name) = h.build name := by
  simp [-String.reduceToList, Header.nodes, Header.build, cat]

@[simp] theorem SectionChild_build_flat (c : SectionChild) : flat c.nodes = c.build := by
  cases c <;> simp [SectionChild.nodes, SectionChild.build]

@[simp] theorem Section_build_flat (s : Section) : flat s.nodes = s.build := by
  simp [-String.reduceToList, Section.nodes, Section.build, cat]
  rfl

@[simp] theorem DocumentChild_build_flat (c : DocumentChild) : flat c.nodes = c.build := by
  cases c <;> simp [DocumentChild.nodes, DocumentChild.build]

/-- The main document part. -/
theorem Document_build_flat (d : Document) : flat d.nodes = d.build := by
  simp [-String.reduceToList, Document.nodes, Document.build, cat, emit_cons]

@[simp] theorem Comment_build_flat (c : Comment) : flat c.nodes = c.build := by
  simp [-String.reduceToList, Comment.nodes, Comment.build, cat]

/-- The comments part. -/
theorem commentsB_flat (cs : List Comment) : flat (commentsN cs) = commentsB cs := by
  simp [-String.reduceToList, commentsN, commentsB, cat]

@[simp] theorem Footnote_build_flat (f : Footnote) : flat f.nodes = f.build := by
  simp [-String.reduceToList, Footnote.nodes, Footnote.build, cat]

/-- The footnotes part. -/
theorem footnotesB_flat (fs : List Footnote) : flat (footnotesN fs) = footnotesB fs := by
  simp [-String.reduceToList, footnotesN, footnotesB, cat]

end Docx
