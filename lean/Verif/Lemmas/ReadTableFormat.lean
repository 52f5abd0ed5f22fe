import Verif.Lemmas.ReadTableProps

/-! Reading back the formatting of tables, rows and cells. -/

namespace Docx
open Xml Spec

variable {x : ReadEnv}

/-! ## Tables -/

/-- A table position read back. -/
def TablePositionProperty.reread (p : TablePositionProperty) : TablePositionProperty where
  leftFromText := p.leftFromText
  rightFromText := p.rightFromText
  verticalAnchor := p.verticalAnchor.map seen
  horizontalAnchor := p.horizontalAnchor.map seen
  positionXAlignment := p.positionXAlignment.map seen
  positionYAlignment := p.positionYAlignment.map seen
  positionX := p.positionX
  positionY := p.positionY

/-- An indent of a table read back: `0` is read as none, and the unit as twentieths of a point. -/
def tableIndentAgain (i : TableIndent) : Option TableIndent := if i.width = 0 then none else some ⟨i.width, .dxa⟩

/-- Table formatting read back: the layout is not read. -/
def TableProperty.reread (p : TableProperty) : TableProperty where
  width := ⟨widthAgain p.width.width, p.width.widthType⟩
  justification := ((TableAlignmentType.fromStr (seen p.justification)).map TableAlignmentType.toStr).getD c!"left"
  borders := p.borders.reread
  margins := p.margins.map TableCellMargins.reread
  indent := p.indent.bind tableIndentAgain
  style := p.style.map seen
  layout := none
  position := p.position.map TablePositionProperty.reread

/-- The numbers of a position are `i32`s. -/
def TablePositionProperty.Fits (p : TablePositionProperty) : Prop :=
  ∀ o ∈ [p.leftFromText, p.rightFromText, p.positionX, p.positionY], ∀ i, o = some i → -(2 ^ 31) ≤ i ∧ i < 2 ^ 31

/-- Strings that can be written, borders in their places, numbers in range. -/
def TableProperty.Readable (p : TableProperty) : Prop :=
  (∀ s ∈ p.strings, (decodeAttr s).isSome) ∧ p.borders.Readable ∧
  (∀ i, p.indent = some i → -(2 ^ 31) ≤ i.width ∧ i.width < 2 ^ 31) ∧
  ∀ t, p.position = some t → t.Fits

/-- The table property loop. -/
abbrev tablePropertyL (x : ReadEnv) : Readers → Loop TableProperty := fun R => tablePropertyLoop x R.fuel

theorem readTablePosition_nodes (p : TablePositionProperty) (h : ∀ s ∈ p.strings, (decodeAttr s).isSome) (hf : p.Fits) :
    readTablePosition (expectAttrs (optAttr c!"w:leftFromText" (p.leftFromText.map decInt)
    ++ optAttr c!"w:rightFromText" (p.rightFromText.map decInt)
    ++ optAttr c!"w:vertAnchor" p.verticalAnchor ++ optAttr c!"w:horzAnchor" p.horizontalAnchor
    ++ optAttr c!"w:tblpXSpec" p.positionXAlignment ++ optAttr c!"w:tblpYSpec" p.positionYAlignment
    ++ optAttr c!"w:tblpX" (p.positionX.map decInt) ++ optAttr c!"w:tblpY" (p.positionY.map decInt))) = p.reread := by
  obtain ⟨a1, a2, a3, a4, a5, a6, a7, a8⟩ := p
  have g : ∀ o ∈ [a1, a2, a7, a8], ∀ i, o = some i → parseSigned 32 (decInt i) = some i := fun o ho i e =>
    parseSigned_decInt 32 i (hf o ho i e)
  have g1 := g a1 (by simp)
  have g2 := g a2 (by simp)
  have g7 := g a7 (by simp)
  have g8 := g a8 (by simp)
  have h3 : OptDecodes a3 := optDecodes_mem h (by simp [TablePositionProperty.strings]; grind)
  have h4 : OptDecodes a4 := optDecodes_mem h (by simp [TablePositionProperty.strings]; grind)
  have h5 : OptDecodes a5 := optDecodes_mem h (by simp [TablePositionProperty.strings]; grind)
  have h6 : OptDecodes a6 := optDecodes_mem h (by simp [TablePositionProperty.strings]; grind)
  clear g h hf
  unfold readTablePosition
  rw [← List.append_nil (optAttr _ (a8.map _))]
  simp only [List.append_assoc]
  generalize hF : (fun (p : TablePositionProperty) (a : QName × Str) => _) = F
  have f1 : ∀ p i, parseSigned 32 (decInt i) = some i → F p (splitQName c!"w:leftFromText", decInt i) = { p with leftFromText := some i } := by
    intro p i h; subst hF; simp [-String.reduceToList, String.toList_inj, h]
  have f2 : ∀ p i, parseSigned 32 (decInt i) = some i → F p (splitQName c!"w:rightFromText", decInt i) = { p with rightFromText := some i } := by
    intro p i h; subst hF; simp [-String.reduceToList, String.toList_inj, h]
  have f7 : ∀ p i, parseSigned 32 (decInt i) = some i → F p (splitQName c!"w:tblpX", decInt i) = { p with positionX := some i } := by
    intro p i h; subst hF; simp [-String.reduceToList, String.toList_inj, h]
  have f8 : ∀ p i, parseSigned 32 (decInt i) = some i → F p (splitQName c!"w:tblpY", decInt i) = { p with positionY := some i } := by
    intro p i h; subst hF; simp [-String.reduceToList, String.toList_inj, h]
  have f3 : ∀ p s, F p (splitQName c!"w:vertAnchor", s) = { p with verticalAnchor := some s } := by
    intro p i; subst hF; simp [-String.reduceToList, String.toList_inj]
  have f4 : ∀ p s, F p (splitQName c!"w:horzAnchor", s) = { p with horizontalAnchor := some s } := by
    intro p i; subst hF; simp [-String.reduceToList, String.toList_inj]
  have f5 : ∀ p s, F p (splitQName c!"w:tblpXSpec", s) = { p with positionXAlignment := some s } := by
    intro p i; subst hF; simp [-String.reduceToList, String.toList_inj]
  have f6 : ∀ p s, F p (splitQName c!"w:tblpYSpec", s) = { p with positionYAlignment := some s } := by
    intro p i; subst hF; simp [-String.reduceToList, String.toList_inj]
  clear hF
  rw [foldl_optMap decodeAttr_decInt, foldl_optMap decodeAttr_decInt, foldl_opt h3, foldl_opt h4, foldl_opt h5,
    foldl_opt h6, foldl_optMap decodeAttr_decInt, foldl_optMap decodeAttr_decInt, expectAttrs_nil, List.foldl_nil]
  have k1 : ∀ p, (a1.elim p fun a => F p (splitQName c!"w:leftFromText", decInt a)) = { p with leftFromText := a1.or p.leftFromText } := by
    intro p; cases a1 with | none => rfl | some a => exact f1 p a (g1 a rfl)
  have k2 : ∀ p, (a2.elim p fun a => F p (splitQName c!"w:rightFromText", decInt a)) = { p with rightFromText := a2.or p.rightFromText } := by
    intro p; cases a2 with | none => rfl | some a => exact f2 p a (g2 a rfl)
  have k7 : ∀ p, (a7.elim p fun a => F p (splitQName c!"w:tblpX", decInt a)) = { p with positionX := a7.or p.positionX } := by
    intro p; cases a7 with | none => rfl | some a => exact f7 p a (g7 a rfl)
  have k8 : ∀ p, (a8.elim p fun a => F p (splitQName c!"w:tblpY", decInt a)) = { p with positionY := a8.or p.positionY } := by
    intro p; cases a8 with | none => rfl | some a => exact f8 p a (g8 a rfl)
  have k3 : ∀ p, (a3.elim p fun a => F p (splitQName c!"w:vertAnchor", seen a)) = { p with verticalAnchor := (a3.map seen).or p.verticalAnchor } := by
    intro p; cases a3 with | none => rfl | some a => exact f3 p _
  have k4 : ∀ p, (a4.elim p fun a => F p (splitQName c!"w:horzAnchor", seen a)) = { p with horizontalAnchor := (a4.map seen).or p.horizontalAnchor } := by
    intro p; cases a4 with | none => rfl | some a => exact f4 p _
  have k5 : ∀ p, (a5.elim p fun a => F p (splitQName c!"w:tblpXSpec", seen a)) = { p with positionXAlignment := (a5.map seen).or p.positionXAlignment } := by
    intro p; cases a5 with | none => rfl | some a => exact f5 p _
  have k6 : ∀ p, (a6.elim p fun a => F p (splitQName c!"w:tblpYSpec", seen a)) = { p with positionYAlignment := (a6.map seen).or p.positionYAlignment } := by
    intro p; cases a6 with | none => rfl | some a => exact f6 p _
  rw [k1, k2, k3, k4, k5, k6, k7, k8]
  simp [TablePositionProperty.reread]

/-- An empty element in the table property loop. -/
macro "tp_leaf" "[" ls:Lean.Parser.Tactic.simpLemma,* "]" : tactic => `(tactic|
  (refine TakesF.leaf' (fun d es hd => ?_) (fun d => ?_)
   · simp [-String.reduceToList, String.toList_inj, tablePropertyLoop, Read.bind, Read.map, expectAttrs_nil, firstValue, attrFirst,
       attrNamed_cons, attrNamed_nil, orErr, $ls,*]
   · simp [-String.reduceToList, String.toList_inj, tablePropertyLoop, closesAt]))

theorem takes_tblW (w : Width) : TakesN x (tablePropertyL x) (emitN (widthNodes c!"w:tblW" (asI32 w.width) w.widthType))
    (fun p => { p with width := ⟨widthAgain w.width, w.widthType⟩ }) := by
  refine .emit fun p => ?_
  tp_leaf [withWidth_nodes _ _ _ (asI32_range _), widthAgain]

theorem takes_tblJc (s : Str) (h : (decodeAttr s).isSome) : TakesN x (tablePropertyL x) (emitN (valN c!"w:jc" s))
    (fun p => { p with justification := ((TableAlignmentType.fromStr (seen s)).map TableAlignmentType.toStr).getD p.justification }) := by
  refine .emit fun p => ?_
  cases hv : TableAlignmentType.fromStr (seen s) <;> tp_leaf [expectAttrs_cons h, hv]

theorem takes_tblBorders (b : TableBorders) (h : b.Readable) : TakesN x (tablePropertyL x) (emitN b.nodes)
    (fun p => { p with borders := b.reread }) := by
  refine .emit fun p => ?_
  obtain ⟨body, e, hr⟩ := returns_tableBorders (x := x) b h
  rw [e]
  refine TakesF.child ((hr.caught (g := fun b es => .ok { p with borders := b.getD p.borders } es) (fun es => rfl)).congr (fun d es hd => ?_))
  simp [-String.reduceToList, tablePropertyLoop]

theorem takes_tblCellMar (o : Option TableCellMargins) : TakesN x (tablePropertyL x) (emitN (optN o TableCellMargins.nodes))
    (fun p => { p with margins := (o.map TableCellMargins.reread).or p.margins }) := by
  refine .opt (fun m e p => ?_) (fun e p => by simp [e])
  subst e
  obtain ⟨body, e, hr⟩ := returns_tableCellMargins (x := x) m
  rw [e]
  refine TakesF.child ((hr.caught (g := fun m es => .ok { p with margins := m.or p.margins } es) (fun es => rfl)).congr (fun d es hd => ?_))
  simp [-String.reduceToList, tablePropertyLoop]

theorem isizeAsI32_small {i : Int} (h : -(2 ^ 31) ≤ i ∧ i < 2 ^ 31) : isizeAsI32 i = i := by
  unfold isizeAsI32
  simp only
  split <;> omega

theorem takes_tblInd (o : Option TableIndent) (h : ∀ i, o = some i → -(2 ^ 31) ≤ i.width ∧ i.width < 2 ^ 31) :
    TakesN x (tablePropertyL x) (emitN (optN o fun i => widthNodes c!"w:tblInd" i.width i.widthType))
    (fun p => { p with indent := (o.bind tableIndentAgain).or p.indent }) := by
  refine .opt (fun i e p => ?_) (fun e p => by simp [e])
  replace h := h i e
  subst e
  by_cases hz : i.width = 0
  · have h0 := hz ▸ h
    tp_leaf [hz, withWidth_nodes _ _ _ h0, tableIndentAgain]
  · tp_leaf [withWidth_nodes _ _ _ h, tableIndentAgain, hz, isizeAsI32_small h]

theorem takes_tblStyle (o : Option Str) (h : OptDecodes o) : TakesN x (tablePropertyL x) (emitN (optN o (valN c!"w:tblStyle")))
    (fun p => { p with style := (o.map seen).or p.style }) := by
  refine .opt (fun s e p => ?_) (fun e p => by simp [e])
  replace h := h s e
  subst e
  tp_leaf [expectAttrs_cons h]

theorem takes_tblLayout (o : Option TableLayoutType) :
    TakesN x (tablePropertyL x) (emitN (optN o fun l => leafN c!"w:tblLayout" [(c!"w:type", l.toStr)])) id := by
  refine .opt (fun s e p => ?_) (fun e p => rfl)
  tp_leaf []

theorem takes_tblpPr (o : Option TablePositionProperty) (h : ∀ t, o = some t → ∀ s ∈ t.strings, (decodeAttr s).isSome)
    (hf : ∀ t, o = some t → t.Fits) : TakesN x (tablePropertyL x) (emitN (optN o TablePositionProperty.nodes))
    (fun p => { p with position := (o.map TablePositionProperty.reread).or p.position }) := by
  refine .opt (fun t e p => ?_) (fun e p => by simp [e])
  replace h := h t e
  replace hf := hf t e
  subst e
  have := readTablePosition_nodes t h hf
  refine TakesF.leaf' (fun d es hd => ?_) (fun d => ?_)
  · simp only [tablePropertyLoop, split_w_tblpPr, el_tblpPr, this, Option.map_some, Option.some_or]
  · simp [-String.reduceToList, tablePropertyLoop, closesAt]

theorem returns_tableProperty (p : TableProperty) (h : p.Readable) :
    ∃ body, p.nodes = [.elem c!"w:tblPr" [] body] ∧
      Returns x (fun R es => (tablePropertyLoop x R.fuel).run R.fuel { borders := .withEmpty } es) c!"w:tblPr" body p.reread := by
  obtain ⟨hs, hb, hi, hp⟩ := h
  refine ⟨_, rfl, ?_⟩
  have h1 : (decodeAttr p.justification).isSome := hs _ (by simp [TableProperty.strings])
  have h2 : OptDecodes p.style := optDecodes_mem hs (by simp [TableProperty.strings]; grind)
  have h3 : ∀ t, p.position = some t → ∀ s ∈ t.strings, (decodeAttr s).isSome := fun t e s hm =>
    hs s (by simp [TableProperty.strings, e, optStrings, hm])
  have key := (takes_tblW (x := x) p.width).nodes { borders := .withEmpty } |>.append <| (takes_tblJc p.justification h1).nodes _ |>.append <|
    (takes_tblBorders p.borders hb).nodes _ |>.append <| (takes_tblCellMar p.margins).nodes _ |>.append <|
    (takes_tblInd p.indent hi).nodes _ |>.append <| (takes_tblStyle p.style h2).nodes _ |>.append <|
    (takes_tblLayout p.layout).nodes _ |>.append <| (takes_tblpPr p.position h3 hp).nodes _
  simp only [← List.append_assoc] at key
  refine Returns.mono (Returns.loop key (fun d => by simp [-String.reduceToList, tablePropertyLoop, closesAt])) ?_
  simp [TableProperty.reread]

/-! ## Cells -/

/-- Cell formatting read back. -/
def TableCellProperty.reread (p : TableCellProperty) : TableCellProperty where
  width := p.width
  borders := p.borders.map TableCellBorders.reread
  gridSpan := p.gridSpan
  verticalMerge := p.verticalMerge
  verticalAlign := p.verticalAlign
  textDirection := p.textDirection
  shading := p.shading.map Shading.reread
  margins := p.margins.map CellMargins.reread

/-- Strings that can be written, borders in their places, a width that an `i32` holds. -/
def TableCellProperty.Readable (p : TableCellProperty) : Prop :=
  (∀ s ∈ p.strings, (decodeAttr s).isSome) ∧ (∀ b, p.borders = some b → b.Readable) ∧
  (∀ w, p.width = some w → w.width < 2 ^ 31) ∧ ∀ n, p.gridSpan = some n → n < 2 ^ 64

/-- The cell property loop. -/
abbrev cellPropertyL (x : ReadEnv) : Readers → Loop TableCellProperty := fun R => cellPropertyLoop x R.fuel

/-- An empty element in the cell property loop. -/
macro "cp_leaf" "[" ls:Lean.Parser.Tactic.simpLemma,* "]" : tactic => `(tactic|
  (refine TakesF.leaf' (fun d es hd => ?_) (fun d => ?_)
   · simp [-String.reduceToList, String.toList_inj, cellPropertyLoop, ignoreElement, Read.bind, Read.map, expectAttrs_nil, firstValue, attrFirst,
       attrNamed_cons, attrNamed_nil, orErr, $ls,*]
   · simp [-String.reduceToList, String.toList_inj, cellPropertyLoop, closesAt]))

theorem takes_tcW (o : Option Width) (h : ∀ w, o = some w → w.width < 2 ^ 31) :
    TakesN x (cellPropertyL x) (emitN (optN o fun w => widthNodes c!"w:tcW" (asI32 w.width) w.widthType))
    (fun p => { p with width := o.or p.width }) := by
  refine .opt (fun w e p => ?_) (fun e p => by simp [e])
  replace h := h w e
  subst e
  have hi : asI32 w.width = Int.ofNat w.width := by
    unfold asI32
    simp only
    rw [Nat.mod_eq_of_lt (by omega), if_pos h]; rfl
  have hd : decInt (asI32 w.width) = dec w.width := by rw [hi]; rfl
  unfold widthNodes
  rw [hd]
  cp_leaf [readCellWidth, foldAttrs, expectAttrs_dec, expectAttrs_lit _ _ (widthType_decodes _), Props.C31_WidthType,
    usizeFromStr_dec (show w.width < 2 ^ 64 by omega)]

theorem takes_tcBorders (o : Option TableCellBorders) (h : ∀ b, o = some b → b.Readable) :
    TakesN x (cellPropertyL x) (emitN (optN o TableCellBorders.nodes))
    (fun p => { p with borders := (o.map TableCellBorders.reread).or p.borders }) := by
  refine .opt (fun b e p => ?_) (fun e p => by simp [e])
  obtain ⟨body, e', hr⟩ := returns_cellBorders (x := x) b (h b e)
  subst e
  rw [e']
  refine TakesF.child ((hr.map (fun b => { p with borders := some b })).congr (fun d es hd => ?_))
  simp [-String.reduceToList, cellPropertyLoop, ignoreElement, Read.bind]

theorem takes_gridSpan (o : Option Nat) (h : ∀ n, o = some n → n < 2 ^ 64) :
    TakesN x (cellPropertyL x) (emitN (optN o fun v => valN c!"w:gridSpan" (dec v)))
    (fun p => { p with gridSpan := o.or p.gridSpan }) := by
  refine .opt (fun w e p => ?_) (fun e p => by simp [e])
  replace h := h w e
  subst e
  cp_leaf [expectAttrs_dec, usizeFromStr_dec h]

theorem takes_vMerge (o : Option VMergeType) :
    TakesN x (cellPropertyL x) (emitN (optN o fun v => valN c!"w:vMerge" v.toStr))
    (fun p => { p with verticalMerge := o.or p.verticalMerge }) := by
  refine .opt (fun v e p => ?_) (fun e p => by simp [e])
  subst e
  have ht : decodeAttr v.toStr = some v.toStr := by cases v <;> decide +kernel
  cp_leaf [expectAttrs_lit _ _ ht, Props.C31_VMergeType]

theorem takes_vAlign (o : Option VAlignType) :
    TakesN x (cellPropertyL x) (emitN (optN o fun v => valN c!"w:vAlign" v.toStr))
    (fun p => { p with verticalAlign := o.or p.verticalAlign }) := by
  refine .opt (fun v e p => ?_) (fun e p => by simp [e])
  subst e
  have ht : decodeAttr v.toStr = some v.toStr := by cases v <;> decide +kernel
  cp_leaf [expectAttrs_lit _ _ ht, Props.C31_VAlignType]

theorem takes_cellDirection (o : Option TextDirectionType) :
    TakesN x (cellPropertyL x) (emitN (optN o fun v => valN c!"w:textDirection" v.toStr))
    (fun p => { p with textDirection := o.or p.textDirection }) := by
  refine .opt (fun v e p => ?_) (fun e p => by simp [e])
  subst e
  have ht : decodeAttr v.toStr = some v.toStr := by cases v <;> decide +kernel
  cp_leaf [expectAttrs_lit _ _ ht, Props.C31_TextDirectionType]

theorem takes_cellShading (o : Option Shading) (h : ∀ f, o = some f → ∀ s ∈ f.strings, (decodeAttr s).isSome) :
    TakesN x (cellPropertyL x) (emitN (optN o Shading.nodes))
    (fun p => { p with shading := (o.map Shading.reread).or p.shading }) := by
  refine .opt (fun f e p => ?_) (fun e p => by simp [e])
  replace h := h f e
  subst e
  cp_leaf [readShading_nodes f h]

theorem takes_tcMar (o : Option CellMargins) : TakesN x (cellPropertyL x) (emitN (optN o CellMargins.nodes))
    (fun p => { p with margins := (o.map CellMargins.reread).or p.margins }) := by
  refine .opt (fun m e p => ?_) (fun e p => by simp [e])
  subst e
  obtain ⟨body, e, hr⟩ := returns_cellMargins (x := x) m
  rw [e]
  refine TakesF.child ((hr.caught (g := fun m es => .ok { p with margins := m.or p.margins } es) (fun es => rfl)).congr (fun d es hd => ?_))
  simp [-String.reduceToList, cellPropertyLoop, ignoreElement, Read.bind]

theorem returns_cellProperty (p : TableCellProperty) (h : p.Readable) :
    ∃ body, p.nodes = [.elem c!"w:tcPr" [] body] ∧
      Returns x (fun R es => (cellPropertyLoop x R.fuel).run R.fuel {} es) c!"w:tcPr" body p.reread := by
  obtain ⟨hs, hb, hw, hg⟩ := h
  refine ⟨_, rfl, ?_⟩
  have h3 : ∀ t, p.shading = some t → ∀ s ∈ t.strings, (decodeAttr s).isSome := fun t e s hm =>
    hs s (by simp [TableCellProperty.strings, e, optStrings, hm])
  have key := (takes_tcW (x := x) p.width hw).nodes {} |>.append <| (takes_tcBorders p.borders hb).nodes _ |>.append <|
    (takes_gridSpan p.gridSpan hg).nodes _ |>.append <| (takes_vMerge p.verticalMerge).nodes _ |>.append <|
    (takes_vAlign p.verticalAlign).nodes _ |>.append <| (takes_cellDirection p.textDirection).nodes _ |>.append <|
    (takes_cellShading p.shading h3).nodes _ |>.append <| (takes_tcMar p.margins).nodes _
  simp only [← List.append_assoc] at key
  refine Returns.mono (Returns.loop key (fun d => by simp [-String.reduceToList, cellPropertyLoop, closesAt])) ?_
  simp [TableCellProperty.reread]

/-! ## Rows -/

/-- Row formatting read back: the grid around the row and whether it can be split are not kept, and a height
without a rule gets the rule it is written with. -/
def TableRowProperty.reread (x : ReadEnv) (p : TableRowProperty) : TableRowProperty where
  rowHeight := p.rowHeight.bind fun h => f32Text x (seen h)
  heightRule := p.rowHeight.map fun _ => p.heightRule.getD .atLeast
  del := p.del.map Mark.reread
  ins := p.ins.map Mark.reread

/-- Strings that can be written. -/
def TableRowProperty.Readable (p : TableRowProperty) : Prop := ∀ s ∈ p.strings, (decodeAttr s).isSome

/-- An empty element in the row loop. -/
macro "row_leaf" "[" ls:Lean.Parser.Tactic.simpLemma,* "]" : tactic => `(tactic|
  (refine TakesF.leaf' (fun d es hd => ?_) (fun d => ?_)
   · simp [-String.reduceToList, String.toList_inj, rowLoop, ignoreElement, Read.bind, Read.map, expectAttrs_nil, firstValue, attrFirst,
       attrNamed_cons, attrNamed_nil, orErr, $ls,*]
   · simp [-String.reduceToList, String.toList_inj, rowLoop, closesAt]))

theorem takes_rowDel (o : Option Mark) (h : ∀ m, o = some m → ∀ s ∈ m.strings, (decodeAttr s).isSome) :
    TakesN x (rowLoop x) (optNB o (Mark.nodes c!"w:del"))
    (fun s => (s.1, { s.2 with del := (o.map Mark.reread).or s.2.del })) := by
  refine .optB (fun m e => ?_) (fun e rp => by simp [e])
  replace h := h m e
  subst e
  refine .history fun g => .emit fun rp => TakesF.child ?_
  have h1 := (Returns.loop (x := x) (L := fun R => deleteLoop R .delete) (TakesF.nil {}) (n := c!"w:del")
    (fun d => by simp [-String.reduceToList, String.toList_inj, deleteLoop, closesAt])).map (fun i : Delete =>
      let q := readChange (expectAttrs (revisionAttrs (historyIdText (generateId g.history).1) m.author m.date)) i.author i.date
      { i with author := q.1, date := q.2 })
  refine (h1.caught (g := fun i es => match i with
        | some i => .ok (rp.1, { rp.2 with del := some ⟨i.author, i.date⟩ }) es
        | none => .ok rp es) (fun es => rfl)).congr (fun d es hd => ?_) |>.mono ?_
  · simp [-String.reduceToList, String.toList_inj, rowLoop, ignoreElement, Read.bind, readDelete]
    rfl
  · rw [readChange_attrs _ _ _ _ (decodes_history _) h]; simp [Mark.reread]

theorem takes_rowIns (o : Option Mark) (h : ∀ m, o = some m → ∀ s ∈ m.strings, (decodeAttr s).isSome) :
    TakesN x (rowLoop x) (optNB o (Mark.nodes c!"w:ins"))
    (fun s => (s.1, { s.2 with ins := (o.map Mark.reread).or s.2.ins })) := by
  refine .optB (fun m e => ?_) (fun e rp => by simp [e])
  replace h := h m e
  subst e
  refine .history fun g => .emit fun rp => TakesF.child ?_
  have h1 := (Returns.loop (x := x) (L := fun R => insertLoop R .insert) (TakesF.nil {}) (n := c!"w:ins")
    (fun d => by simp [-String.reduceToList, String.toList_inj, insertLoop, closesAt])).map (fun i : Insert =>
      let q := readChange (expectAttrs (revisionAttrs (historyIdText (generateId g.history).1) m.author m.date)) i.author i.date
      { i with author := q.1, date := q.2 })
  refine (h1.caught (g := fun i es => match i with
        | some i => .ok (rp.1, { rp.2 with ins := some ⟨i.author, i.date⟩ }) es
        | none => .ok rp es) (fun es => rfl)).congr (fun d es hd => ?_) |>.mono ?_
  · simp [-String.reduceToList, String.toList_inj, rowLoop, ignoreElement, Read.bind, readInsert]
    rfl
  · rw [readChange_attrs _ _ _ _ (decodes_history _) h]; simp [Mark.reread]

theorem takes_cantSplit (o : Option Unit) :
    TakesN x (rowLoop x) (emitN (optN o fun _ => leafN c!"w:cantSplit")) id := by
  refine .opt (fun s e p => ?_) (fun e p => rfl)
  row_leaf []

theorem takes_trHeight (o : Option Str) (r : HeightRule) (h : OptDecodes o) :
    TakesN x (rowLoop x) (emitN (optN o fun h => leafN c!"w:trHeight" [(c!"w:val", h), (c!"w:hRule", r.toStr)]))
    (fun s => (s.1, { s.2 with
      rowHeight := (o.bind fun h => f32Text x (seen h)).or s.2.rowHeight
      heightRule := (o.map fun _ => r).or s.2.heightRule })) := by
  refine .opt (fun v e p => ?_) (fun e p => by simp [e])
  replace h := h v e
  subst e
  have ht : decodeAttr r.toStr = some r.toStr := by cases r <;> decide +kernel
  row_leaf [expectAttrs_cons h, expectAttrs_lit _ _ ht, Props.C31_HeightRule]

/-- The row property is read by the loop that reads the cells. -/
theorem takes_trPr (p : TableRowProperty) (h : p.Readable) :
    ∀ {g g' : Gen} {f : List Node}, p.nodes g = some (f, g') → ∀ cs, TakesF x (rowLoop x) (cs, {}) f (cs, p.reread x) := by
  intro g g' f e cs
  obtain ⟨body, hb, rfl⟩ := elemN_eq e
  have h1 : ∀ m, p.del = some m → ∀ s ∈ m.strings, (decodeAttr s).isSome := fun t e s hm =>
    h s (by simp [TableRowProperty.strings, e, optStrings, hm])
  have h2 : ∀ m, p.ins = some m → ∀ s ∈ m.strings, (decodeAttr s).isSome := fun t e s hm =>
    h s (by simp [TableRowProperty.strings, e, optStrings, hm])
  have h3 : OptDecodes p.rowHeight := optDecodes_mem h (by simp [TableRowProperty.strings]; grind)
  have key := (takes_rowDel (x := x) p.del h1).cat_cons <| (takes_rowIns p.ins h2).cat_cons <|
    (takes_cantSplit p.cantSplit).cat_cons <| (takes_trHeight p.rowHeight (p.heightRule.getD .atLeast) h3).cat_cons .cat_nil
  refine TakesF.wrap (s₁ := (cs, {})) (s₂ := (cs, p.reread x)) (fun d es hd => ?_) ?_ (fun d => ?_)
  · simp [-String.reduceToList, rowLoop, ignoreElement, Read.bind]
  · have := key _ _ _ hb (cs, {})
    simpa [TableRowProperty.reread] using this
  · simp [-String.reduceToList, rowLoop, closesAt]

/-- The columns read back. -/
theorem takes_grid (ws : List Nat) : ∀ t : Table, TakesF x (tableLoop x) t (gridNodes ws) { t with grid := t.grid ++ ws.map widthAgain } := by
  intro t
  refine TakesF.wrap (s₁ := t) (s₂ := { t with grid := t.grid ++ ws.map widthAgain }) (fun d es hd => ?_) ?_ (fun d => ?_)
  · simp [-String.reduceToList, tableLoop, ignoreElement, Read.bind]
  · induction ws generalizing t with
    | nil => obtain ⟨a, b, c, d⟩ := t; rw [List.flatMap_nil, List.map_nil, List.append_nil]; exact TakesF.nil _
    | cons w ws ih =>
      rw [List.flatMap_cons]
      have h1 : TakesF x (tableLoop x) t (widthNodes c!"w:gridCol" (asI32 w) .dxa) { t with grid := t.grid ++ [widthAgain w] } := by
        refine TakesF.leaf' (fun d es hd => ?_) (fun d => ?_)
        · simp [-String.reduceToList, tableLoop, ignoreElement, Read.bind, readWidth_nodes _ _ (asI32_range _), Read.map, widthAgain]
        · simp [-String.reduceToList, tableLoop, closesAt]
      have := h1.append (ih { t with grid := t.grid ++ [widthAgain w] })
      simpa using this
  · simp [-String.reduceToList, tableLoop, closesAt]

end Docx
