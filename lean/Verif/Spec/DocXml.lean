import Verif.Model.Build

/-!
# Specification: the element tree each piece of content is written as

`X.nodes` is the sequence of XML elements a piece of content stands for, as a tree: elements contain
their children, so nothing can be left open or closed twice. `N` threads the id generators; `none`
means the content cannot be written.
-/

namespace Docx

open Docx.Spec (Node)

/-- A tree writer. -/
abbrev N := Gen → Option (List Node × Gen)

/-- Fixed nodes. -/
def emitN (ns : List Node) : N := fun g => some (ns, g)

/-- Content that cannot be written. -/
def panicN : N := fun _ => none

/-- One after the other. -/
def N.thenN (a b : N) : N := fun g =>
  match a g with
  | none => none
  | some (f, g) =>
    match b g with
    | none => none
    | some (f', g) => some (f ++ f', g)

/-- A sequence. -/
def catN : List N → N
  | [] => emitN []
  | b :: bs => b.thenN (catN bs)

/-- Conditional content. -/
def ifN (c : Bool) (b : N) : N := if c then b else emitN []

/-- Optional content. -/
def optNB {α} (o : Option α) (f : α → N) : N :=
  match o with
  | some a => f a
  | none => emitN []

/-- Repeated content. -/
def eachN {α} (f : α → N) : List α → N
  | [] => emitN []
  | a :: as => (f a).thenN (eachN f as)

/-- One element. -/
def elemN (name : Str) (attrs : List (Str × Str)) (body : N) : N := fun g =>
  match body g with
  | none => none
  | some (f, g) => some ([.elem name attrs f], g)

/-- Draw a revision id. -/
def withHistoryN (f : Str → N) : N := fun g =>
  let i := generateId g.history
  f (historyIdText i.1) { g with history := i.2 }

/-- Draw a paragraph property change id. -/
def withChangeN (f : Str → N) : N := fun g =>
  let i := generateId g.change
  f (historyIdText i.1) { g with change := i.2 }

/-- Draw a paragraph id. -/
def withParaIdN (f : Str → N) : N := fun g =>
  let i := generateParaId g.para
  f i.1 { g with para := i.2 }

/-- An empty element. -/
def leafN (name : Str) (attrs : List (Str × Str) := []) : List Node := [.elem name attrs []]

/-- An element with one `w:val` attribute. -/
def valN (name v : Str) : List Node := leafN name [(c!"w:val", v)]

/-- An optional element. -/
def optN {α} (o : Option α) (f : α → List Node) : List Node :=
  match o with
  | some a => f a
  | none => []

/-- The attributes of a revision. -/
def revisionAttrs (id author date : Str) : List (Str × Str) :=
  [(c!"w:id", id), (c!"w:author", author), (c!"w:date", date)]

/-- A revision element. -/
def revisionNode (name id author date : Str) (children : List Node) : Node :=
  .elem name (revisionAttrs id author date) children

/-! Run properties. -/

/-- The elements written for `Color`. -/
def Color.nodes (c : Color) : List Node :=
  leafN c!"w:color" ([(c!"w:val", c.val)] ++ optAttr c!"w:themeColor" c.themeColor
    ++ optAttr c!"w:themeShade" c.themeShade ++ optAttr c!"w:themeTint" c.themeTint)

/-- The elements written for `toggleNodes`. -/
def toggleNodes (name : Str) (on : Bool) : List Node :=
  if on then leafN name else valN name c!"false"

/-- The elements written for `toggleCsNodes`. -/
def toggleCsNodes (name : Str) (_on : Bool) : List Node := leafN name

/-- The elements written for `RunFonts`. -/
def RunFonts.nodes (f : RunFonts) : List Node :=
  leafN c!"w:rFonts" (optAttr c!"w:ascii" f.ascii ++ optAttr c!"w:hAnsi" f.hiAnsi
    ++ optAttr c!"w:cs" f.cs ++ optAttr c!"w:eastAsia" f.eastAsia
    ++ optAttr c!"w:asciiTheme" f.asciiTheme ++ optAttr c!"w:hAnsiTheme" f.hiAnsiTheme
    ++ optAttr c!"w:cstheme" f.csTheme ++ optAttr c!"w:eastAsiaTheme" f.eastAsiaTheme
    ++ optAttr c!"w:hint" f.hint)

/-- The elements written for `borderNodes`. -/
def borderNodes (name : Str) (t : BorderType) (size space : Nat) (color : Str) : List Node :=
  leafN name [(c!"w:val", t.toStr), (c!"w:sz", dec size), (c!"w:space", dec space),
    (c!"w:color", color)]

/-- The elements written for `TextBorder`. -/
def TextBorder.nodes (b : TextBorder) : List Node :=
  borderNodes c!"w:bdr" b.borderType b.size b.space b.color

/-- The elements written for `Mark`. -/
def Mark.nodes (name : Str) (m : Mark) : N :=
  withHistoryN fun id => emitN [revisionNode name id m.author m.date []]

/-- The elements written for `FitText`. -/
def FitText.nodes (f : FitText) : List Node :=
  leafN c!"w:fitText" ([(c!"w:val", dec f.val)] ++ optAttr c!"w:id" (f.id.map dec))

/-- The elements written for `PositionalTab`. -/
def PositionalTab.nodes (t : PositionalTab) : List Node :=
  leafN c!"w:ptab" [(c!"w:alignment", t.alignment.toStr), (c!"w:relativeTo", t.relativeTo.toStr),
    (c!"w:leader", t.leader.toStr)]

/-- The elements written for `Shading`. -/
def Shading.nodes (s : Shading) : List Node :=
  leafN c!"w:shd" [(c!"w:val", s.shdType.toStr), (c!"w:color", s.color), (c!"w:fill", s.fill)]

/-- The elements written for `RunProperty`. -/
def RunProperty.nodes (p : RunProperty) : N :=
  elemN c!"w:rPr" []
      (catN [emitN (optN p.sz fun v => valN c!"w:sz" (dec v)),
      emitN (optN p.szCs fun v => valN c!"w:szCs" (dec v)),
      emitN (optN p.color Color.nodes),
      emitN (optN p.bold (toggleNodes c!"w:b")),
      emitN (optN p.boldCs (toggleCsNodes c!"w:bCs")),
      emitN (optN p.caps fun v => valN c!"w:caps" (boolText v)),
      emitN (optN p.italic (toggleNodes c!"w:i")),
      emitN (optN p.italicCs (toggleCsNodes c!"w:iCs")),
      emitN (optN p.strike (toggleNodes c!"w:strike")),
      emitN (optN p.dstrike (toggleNodes c!"w:dstrike")),
      emitN (optN p.highlight (valN c!"w:highlight")),
      emitN (optN p.underline (valN c!"w:u")),
      emitN (optN p.vanish fun _ => leafN c!"w:vanish"),
      emitN (optN p.specVanish fun _ => leafN c!"w:specVanish"),
      emitN (optN p.fonts RunFonts.nodes),
      emitN (optN p.textBorder TextBorder.nodes),
      optNB p.ins (Mark.nodes c!"w:ins"),
      optNB p.del (Mark.nodes c!"w:del"),
      emitN (optN p.vertAlign fun v => valN c!"w:vertAlign" v.toStr),
      emitN (optN p.characterSpacing fun v => valN c!"w:spacing" (decInt v)),
      emitN (optN p.fitText FitText.nodes),
      emitN (optN p.stretch fun v => valN c!"w:w" (decInt v)),
      emitN (optN p.style (valN c!"w:rStyle")),
      emitN (optN p.positionalTab PositionalTab.nodes),
      emitN (optN p.shading Shading.nodes)])

/-! Section properties. -/

/-- The elements written for `PageSize`. -/
def PageSize.nodes (s : PageSize) : List Node :=
  leafN c!"w:pgSz" ([(c!"w:w", dec s.w), (c!"w:h", dec s.h)]
    ++ optAttr c!"w:orient" (s.orient.map PageOrientationType.toStr))

/-- The elements written for `PageMargin`. -/
def PageMargin.nodes (m : PageMargin) : List Node :=
  leafN c!"w:pgMar" [(c!"w:top", decInt m.top), (c!"w:right", decInt m.right),
    (c!"w:bottom", decInt m.bottom), (c!"w:left", decInt m.left), (c!"w:header", decInt m.header),
    (c!"w:footer", decInt m.footer), (c!"w:gutter", decInt m.gutter)]

/-- The elements written for `DocGrid`. -/
def DocGrid.nodes (g : DocGrid) : List Node :=
  leafN c!"w:docGrid" ([(c!"w:type", g.gridType.toStr)] ++ optAttr c!"w:linePitch" (g.linePitch.map dec)
    ++ optAttr c!"w:charSpace" (g.charSpace.map decInt))

/-- The elements written for `PartReference`. -/
def PartReference.nodes (name : Str) (r : PartReference) : List Node :=
  leafN name [(c!"w:type", r.type), (c!"r:id", r.id)]

/-- The elements written for `PageNumType`. -/
def PageNumType.nodes (t : PageNumType) : List Node :=
  leafN c!"w:pgNumType" (optAttr c!"w:start" (t.start.map dec) ++ optAttr c!"w:chapStyle" t.chapStyle)

/-- The elements written for `SectionBase`. -/
def SectionBase.nodes (p : SectionBase) : List Node :=
  [.elem c!"w:sectPr" []
    (p.pageSize.nodes
  ++ p.pageMargin.nodes
  ++ leafN c!"w:cols" [(c!"w:space", dec p.space), (c!"w:num", dec p.columns)]
  ++ optN p.docGrid DocGrid.nodes
  ++ optN p.headerReference (PartReference.nodes c!"w:headerReference")
  ++ optN p.firstHeaderReference (PartReference.nodes c!"w:headerReference")
  ++ optN p.evenHeaderReference (PartReference.nodes c!"w:headerReference")
  ++ optN p.footerReference (PartReference.nodes c!"w:footerReference")
  ++ optN p.firstFooterReference (PartReference.nodes c!"w:footerReference")
  ++ optN p.evenFooterReference (PartReference.nodes c!"w:footerReference")
  ++ optN p.pageNumType PageNumType.nodes
  ++ (if p.textDirection ≠ c!"lrTb" then valN c!"w:textDirection" p.textDirection else [])
  ++ optN p.sectionType (fun t => valN c!"w:type" t.toStr)
  ++ (if p.titlePg then leafN c!"w:titlePg" else []))]

/-! Paragraph properties. -/

/-- The elements written for `NumberingProperty`. -/
def NumberingProperty.nodes (n : NumberingProperty) : List Node :=
  [.elem c!"w:numPr" []
    (optN n.id (fun i => valN c!"w:numId" (dec i))
    ++ optN n.level (fun l => valN c!"w:ilvl" (dec l)))]

/-- The elements written for `FrameProperty`. -/
def FrameProperty.nodes (p : FrameProperty) : List Node :=
  leafN c!"w:framePr" (optAttr c!"w:wrap" p.wrap ++ optAttr c!"w:hRule" p.hRule
    ++ optAttr c!"w:hAnchor" p.hAnchor ++ optAttr c!"w:vAnchor" p.vAnchor
    ++ optAttr c!"w:xAlign" p.xAlign ++ optAttr c!"w:yAlign" p.yAlign
    ++ optAttr c!"w:x" (p.x.map decInt) ++ optAttr c!"w:y" (p.y.map decInt)
    ++ optAttr c!"w:h_space" (p.hSpace.map decInt) ++ optAttr c!"w:v_space" (p.vSpace.map decInt)
    ++ optAttr c!"w:w" (p.w.map dec) ++ optAttr c!"w:h" (p.h.map dec))

/-- The elements written for `Indent`. -/
def Indent.nodes (i : Indent) : List Node :=
  leafN c!"w:ind" ([(c!"w:left", decInt (i.start.getD 0)), (c!"w:right", decInt (i.end_.getD 0))]
    ++ optAttr c!"w:leftChars" (i.startChars.map decInt)
    ++ (match i.special with
        | some (.firstLine v) => [(c!"w:firstLine", decInt v)]
        | some (.hanging v) => [(c!"w:hanging", decInt v)]
        | none => []))

/-- The elements written for `LineSpacing`. -/
def LineSpacing.nodes (l : LineSpacing) : List Node :=
  leafN c!"w:spacing" (optAttr c!"w:before" (l.before.map dec) ++ optAttr c!"w:after" (l.after.map dec)
    ++ optAttr c!"w:beforeLines" (l.beforeLines.map dec)
    ++ optAttr c!"w:afterLines" (l.afterLines.map dec)
    ++ optAttr c!"w:line" (l.line.map decInt)
    ++ optAttr c!"w:lineRule" (l.lineRule.map fun
        | .auto => c!"auto"
        | .atLeast => c!"atLeast"
        | .exact => c!"exact"))

/-- The elements written for `ParagraphBorder`. -/
def ParagraphBorder.nodes (b : ParagraphBorder) : List Node :=
  leafN b.position.element [(c!"w:val", b.val.toStr), (c!"w:space", dec b.space),
    (c!"w:sz", dec b.size), (c!"w:color", b.color)]

/-- The elements written for `ParagraphBorders`. -/
def ParagraphBorders.nodes (b : ParagraphBorders) : List Node :=
  [.elem c!"w:pBdr" []
    (optN b.left ParagraphBorder.nodes ++ optN b.right ParagraphBorder.nodes
    ++ optN b.top ParagraphBorder.nodes ++ optN b.bottom ParagraphBorder.nodes
    ++ optN b.between ParagraphBorder.nodes ++ optN b.bar ParagraphBorder.nodes)]

/-- The elements written for `Tab`. -/
def Tab.nodes (t : Tab) : List Node :=
  leafN c!"w:tab" (optAttr c!"w:val" (t.val.map TabValueType.toStr)
    ++ optAttr c!"w:leader" (t.leader.map TabLeaderType.toStr) ++ optAttr c!"w:pos" (t.pos.map dec))

/-- The elements written for `ParagraphBaseBefore`. -/
def ParagraphBase.nodesBefore (p : ParagraphBase) : N :=
  catN
    [ p.runProperty.nodes,
      emitN (optN p.style (valN c!"w:pStyle")),
      emitN (optN p.numberingProperty NumberingProperty.nodes),
      emitN (optN p.frameProperty FrameProperty.nodes),
      emitN (optN p.alignment (valN c!"w:jc")),
      emitN (optN p.indent Indent.nodes),
      emitN (optN p.lineSpacing LineSpacing.nodes),
      emitN (optN p.outlineLvl fun v => valN c!"w:outlineLvl" (dec v)) ]

/-- The elements written for `ParagraphBaseAfter`. -/
def ParagraphBase.nodesAfter (p : ParagraphBase) : List Node :=
  optN p.borders ParagraphBorders.nodes
  ++ optN p.shading Shading.nodes
  ++ optN p.textAlignment (fun v => valN c!"w:textAlignment" v.toStr)
  ++ optN p.adjustRightInd (fun v => valN c!"w:adjustRightInd" (decInt v))
  ++ optN p.snapToGrid (fun v => valN c!"w:snapToGrid" (boolText v))
  ++ (if p.keepNext = some true then leafN c!"w:keepNext" else [])
  ++ (if p.keepLines = some true then leafN c!"w:keepLines" else [])
  ++ (if p.pageBreakBefore = some true then leafN c!"w:pageBreakBefore" else [])
  ++ (if p.bidi = some true then leafN c!"w:bidi" else [])
  ++ optN p.widowControl (fun v => valN c!"w:widowControl" (bitText v))
  ++ (if p.tabs ≠ [] then [.elem c!"w:tabs" [] (p.tabs.flatMap Tab.nodes)] else [])
  ++ optN p.sectionProperty SectionBase.nodes

mutual
/-- The elements written for `ParagraphProperty`. -/
def ParagraphProperty.nodes : ParagraphProperty → N
  | ⟨base, change⟩ =>
    elemN c!"w:pPr" []
      (catN [base.nodesBefore, nodesChange change, emitN base.nodesAfter])
/-- The elements written for `nodesChange`. -/
def nodesChange : Option ParagraphPropertyChange → N
  | none => emitN []
  | some c => c.nodes
/-- The elements written for `ParagraphPropertyChange`. -/
def ParagraphPropertyChange.nodes : ParagraphPropertyChange → N
  | ⟨author, date, property⟩ =>
    withChangeN fun id =>
      elemN c!"w:pPrChange" (revisionAttrs id author date)
      (property.nodes)
end

/-! Table properties. -/

/-- The elements written for `widthNodes`. -/
def widthNodes (name : Str) (w : Int) (t : WidthType) : List Node :=
  leafN name [(c!"w:w", decInt w), (c!"w:type", t.toStr)]

/-- The elements written for `TableBorder`. -/
def TableBorder.nodes (b : TableBorder) : List Node :=
  borderNodes b.position.element b.borderType b.size b.space b.color

/-- The elements written for `TableBorders`. -/
def TableBorders.nodes (b : TableBorders) : List Node :=
  [.elem c!"w:tblBorders" []
    (optN b.top TableBorder.nodes ++ optN b.left TableBorder.nodes
    ++ optN b.bottom TableBorder.nodes ++ optN b.right TableBorder.nodes
    ++ optN b.insideH TableBorder.nodes ++ optN b.insideV TableBorder.nodes)]

/-- The elements written for `CellMargin`. -/
def CellMargin.nodes (name : Str) (m : CellMargin) : List Node :=
  widthNodes name (asI32 m.val) m.widthType

/-- The elements written for `TableCellMargins`. -/
def TableCellMargins.nodes (m : TableCellMargins) : List Node :=
  [.elem c!"w:tblCellMar" []
    (m.top.nodes c!"w:top" ++ m.left.nodes c!"w:left"
    ++ m.bottom.nodes c!"w:bottom" ++ m.right.nodes c!"w:right")]

/-- The elements written for `TablePositionProperty`. -/
def TablePositionProperty.nodes (p : TablePositionProperty) : List Node :=
  leafN c!"w:tblpPr" (optAttr c!"w:leftFromText" (p.leftFromText.map decInt)
    ++ optAttr c!"w:rightFromText" (p.rightFromText.map decInt)
    ++ optAttr c!"w:vertAnchor" p.verticalAnchor ++ optAttr c!"w:horzAnchor" p.horizontalAnchor
    ++ optAttr c!"w:tblpXSpec" p.positionXAlignment ++ optAttr c!"w:tblpYSpec" p.positionYAlignment
    ++ optAttr c!"w:tblpX" (p.positionX.map decInt) ++ optAttr c!"w:tblpY" (p.positionY.map decInt))

/-- The elements written for `TableProperty`. -/
def TableProperty.nodes (p : TableProperty) : List Node :=
  [.elem c!"w:tblPr" []
    (widthNodes c!"w:tblW" (asI32 p.width.width) p.width.widthType
  ++ valN c!"w:jc" p.justification
  ++ p.borders.nodes
  ++ optN p.margins TableCellMargins.nodes
  ++ optN p.indent (fun i => widthNodes c!"w:tblInd" i.width i.widthType)
  ++ optN p.style (valN c!"w:tblStyle")
  ++ optN p.layout (fun l => leafN c!"w:tblLayout" [(c!"w:type", l.toStr)])
  ++ optN p.position TablePositionProperty.nodes)]

/-- The elements written for `gridNodes`. -/
def gridNodes (grid : List Nat) : List Node :=
  [.elem c!"w:tblGrid" []
    (grid.flatMap (fun w => widthNodes c!"w:gridCol" (asI32 w) .dxa))]

/-- The elements written for `TableRowProperty`. -/
def TableRowProperty.nodes (p : TableRowProperty) : N :=
  elemN c!"w:trPr" []
      (catN [optNB p.del (Mark.nodes c!"w:del"),
      optNB p.ins (Mark.nodes c!"w:ins"),
      emitN (optN p.cantSplit fun _ => leafN c!"w:cantSplit"),
      emitN (optN p.rowHeight fun h =>
        leafN c!"w:trHeight" [(c!"w:val", h), (c!"w:hRule", (p.heightRule.getD .atLeast).toStr)])])

/-- The elements written for `TableCellBorder`. -/
def TableCellBorder.nodes (b : TableCellBorder) : List Node :=
  borderNodes b.position.element b.borderType b.size b.space b.color

/-- The elements written for `TableCellBorders`. -/
def TableCellBorders.nodes (b : TableCellBorders) : List Node :=
  [.elem c!"w:tcBorders" []
    (optN b.top TableCellBorder.nodes
    ++ optN b.left TableCellBorder.nodes
    ++ optN b.bottom TableCellBorder.nodes ++ optN b.right TableCellBorder.nodes
    ++ optN b.insideH TableCellBorder.nodes ++ optN b.insideV TableCellBorder.nodes
    ++ optN b.tl2br TableCellBorder.nodes ++ optN b.tr2bl TableCellBorder.nodes)]

/-- The elements written for `CellMargins`. -/
def CellMargins.nodes (m : CellMargins) : List Node :=
  [.elem c!"w:tcMar" []
    (optN m.top (CellMargin.nodes c!"w:top")
    ++ optN m.left (CellMargin.nodes c!"w:left") ++ optN m.bottom (CellMargin.nodes c!"w:bottom")
    ++ optN m.right (CellMargin.nodes c!"w:right"))]

/-- The elements written for `TableCellProperty`. -/
def TableCellProperty.nodes (p : TableCellProperty) : List Node :=
  [.elem c!"w:tcPr" []
    (optN p.width (fun w => widthNodes c!"w:tcW" (asI32 w.width) w.widthType)
  ++ optN p.borders TableCellBorders.nodes
  ++ optN p.gridSpan (fun v => valN c!"w:gridSpan" (dec v))
  ++ optN p.verticalMerge (fun v => valN c!"w:vMerge" v.toStr)
  ++ optN p.verticalAlign (fun v => valN c!"w:vAlign" v.toStr)
  ++ optN p.textDirection (fun v => valN c!"w:textDirection" v.toStr)
  ++ optN p.shading Shading.nodes
  ++ optN p.margins CellMargins.nodes)]

/-! Structured data tags. -/

/-- The elements written for `DataBinding`. -/
def DataBinding.nodes (d : DataBinding) : List Node :=
  leafN c!"w:dataBinding" (optAttr c!"w:xpath" d.xpath
    ++ optAttr c!"w:prefixMappings" d.prefixMappings ++ optAttr c!"w:storeItemID" d.storeItemId)

/-- The elements written for `SdtProperty`. -/
def SdtProperty.nodes (p : SdtProperty) : N :=
  elemN c!"w:sdtPr" []
      (catN [p.runProperty.nodes, emitN (optN p.dataBinding DataBinding.nodes),
    emitN (optN p.alias (valN c!"w:alias"))])

/-! Field instructions. -/

/-- The elements written for `InstrPAGEREF`. -/
def InstrPAGEREF.nodes (i : InstrPAGEREF) : List Node :=
  [.text c!"PAGEREF ", .text i.pageRef]
  ++ (if i.relativePosition then [.text c!" \\p"] else [])
  ++ (if i.hyperlink then [.text c!" \\h"] else [])

/-- The elements written for `InstrText`. -/
def InstrText.nodes (i : InstrText) : N :=
  elemN c!"w:instrText" []
      (catN [(match i with
        | .toc t => emitN [.text t.text]
        | .tc t => emitN [.text t.instr]
        | .pageRef p => emitN p.nodes
        | .page => emitN [.text c!"PAGE"]
        | .numPages => emitN [.text c!"NUMPAGES"]
        | .hyperlink _ => panicN
        | .unsupported s => emitN [.text s])])

/-- The elements written for `DeleteInstrText`. -/
def DeleteInstrText.nodes (i : DeleteInstrText) : N :=
  elemN c!"w:delInstrText" []
      (catN [(match i with
        | .toc t => emitN [.text t.text]
        | .tc t => emitN [.text t.instr]
        | .pageRef p => emitN p.nodes
        | .hyperlink _ => panicN
        | .unsupported s => emitN [.text s])])

/-! Pictures. -/

/-- The elements written for `Pic`. -/
def Pic.nodes (p : Pic) : List Node :=
  [.elem c!"pic:pic" [(c!"xmlns:pic", c!"http://schemas.openxmlformats.org/drawingml/2006/picture")]
    [.elem c!"pic:nvPicPr" []
      (leafN c!"pic:cNvPr" [(c!"id", c!"0"), (c!"name", c!"")]
      ++ [.elem c!"pic:cNvPicPr" []
          (leafN c!"a:picLocks" [(c!"noChangeAspect", c!"1"), (c!"noChangeArrowheads", c!"1")])]),
     .elem c!"pic:blipFill" []
      (leafN c!"a:blip" [(c!"r:embed", p.id)] ++ leafN c!"a:srcRect"
      ++ [.elem c!"a:stretch" [] (leafN c!"a:fillRect")]),
     .elem c!"pic:spPr" [(c!"bwMode", c!"auto")]
      [.elem c!"a:xfrm" [(c!"rot", dec (p.rot * 60 * 1000))]
        (leafN c!"a:off" [(c!"x", c!"0"), (c!"y", c!"0")]
        ++ leafN c!"a:ext" [(c!"cx", dec p.size.1), (c!"cy", dec p.size.2)]),
       .elem c!"a:prstGeom" [(c!"prst", c!"rect")] (leafN c!"a:avLst")]]]

/-- The elements written for `DrawingPosition`. -/
def DrawingPosition.nodes : DrawingPosition → List Node
  | .offset x => [.elem c!"wp:posOffset" [] [.text (dec (asU32 x))]]
  | .align a => [.elem c!"wp:align" [] [.text a.toStr]]

/-- What both kinds of drawing contain. -/
def graphicNodes (p : Pic) : List Node :=
  leafN c!"wp:extent" [(c!"cx", dec p.size.1), (c!"cy", dec p.size.2)]
  ++ leafN c!"wp:effectExtent" [(c!"b", c!"0"), (c!"l", c!"0"), (c!"r", c!"0"), (c!"t", c!"0")]
  ++ (if p.allowOverlap then leafN c!"wp:wrapNone"
      else if p.positionType = .anchor then leafN c!"wp:wrapSquare" [(c!"wrapText", c!"bothSides")]
      else [])
  ++ leafN c!"wp:docPr" [(c!"id", c!"1"), (c!"name", c!"Figure")]
  ++ [.elem c!"wp:cNvGraphicFramePr" []
        (leafN c!"a:graphicFrameLocks"
          [(c!"xmlns:a", c!"http://schemas.openxmlformats.org/drawingml/2006/main"),
           (c!"noChangeAspect", c!"1")]),
      .elem c!"a:graphic" [(c!"xmlns:a", c!"http://schemas.openxmlformats.org/drawingml/2006/main")]
        [.elem c!"a:graphicData"
          [(c!"uri", c!"http://schemas.openxmlformats.org/drawingml/2006/picture")] p.nodes]]

/-- The elements written for `drawingNodes`. -/
def drawingNodes (p : Pic) : List Node :=
  [.elem c!"w:drawing" []
    (match p.positionType with
      | .inline =>
        [.elem c!"wp:inline" [(c!"distT", decInt p.distT), (c!"distB", decInt p.distB),
          (c!"distL", decInt p.distL), (c!"distR", decInt p.distR)] (graphicNodes p)]
      | .anchor =>
        [.elem c!"wp:anchor" [(c!"distT", decInt p.distT), (c!"distB", decInt p.distB),
          (c!"distL", decInt p.distL), (c!"distR", decInt p.distR), (c!"simplePos", c!"0"),
          (c!"allowOverlap", bitText p.simplePos), (c!"behindDoc", c!"0"), (c!"locked", c!"0"),
          (c!"layoutInCell", bitText p.layoutInCell), (c!"relativeHeight", dec p.relativeHeight)]
          (leafN c!"wp:simplePos" [(c!"x", decInt p.simplePosX), (c!"y", decInt p.simplePosY)]
          ++ [.elem c!"wp:positionH" [(c!"relativeFrom", p.relativeFromH.toStr)] p.positionH.nodes,
              .elem c!"wp:positionV" [(c!"relativeFrom", p.relativeFromV.toStr)] p.positionV.nodes]
          ++ graphicNodes p)])]

/-! Runs. -/

/-- The elements written for `commentStartNodes`. -/
def commentStartNodes (id : Nat) : List Node := leafN c!"w:commentRangeStart" [(c!"w:id", dec id)]

/-- The elements written for `commentEndNodes`. -/
def commentEndNodes (id : Nat) : List Node :=
  [.elem c!"w:r" [] (leafN c!"w:rPr")]
  ++ leafN c!"w:commentRangeEnd" [(c!"w:id", dec id)]
  ++ [.elem c!"w:r" [] (leafN c!"w:commentReference" [(c!"w:id", dec id)])]

/-- The elements written for `RunChild`. -/
def RunChild.nodes : RunChild → N
  | .text t => emitN [.elem c!"w:t" [(c!"xml:space", c!"preserve")] [.text t]]
  | .sym font char => emitN (leafN c!"w:sym" [(c!"w:font", font), (c!"w:char", char)])
  | .deleteText t => emitN [.elem c!"w:delText" [(c!"xml:space", c!"preserve")] [.text t]]
  | .tab => emitN (leafN c!"w:tab")
  | .ptab t => emitN t.nodes
  | .brk t => emitN (leafN c!"w:br" [(c!"w:type", t.toStr)])
  | .carriageReturn => emitN (leafN c!"w:cr")
  | .picture p => emitN (drawingNodes p)
  | .textBox _ => panicN
  | .emptyDrawing => panicN
  | .shape _ => panicN
  | .commentStart id _ => emitN (commentStartNodes id)
  | .commentEnd id => emitN (commentEndNodes id)
  | .fieldChar t dirty =>
    emitN (leafN c!"w:fldChar" [(c!"w:fldCharType", t.toStr), (c!"w:dirty", boolText dirty)])
  | .instrText i => i.nodes
  | .deleteInstrText i => i.nodes
  | .instrTextString s =>
    emitN [.elem c!"w:instrText" [(c!"xml:space", c!"preserve")] [.text (escape s)]]
  | .footnoteReference id _ _ => emitN (leafN c!"w:footnoteReference" [(c!"w:id", dec id)])
  | .shading s => emitN s.nodes

/-- The elements written for `Run`. -/
def Run.nodes (r : Run) : N :=
  elemN c!"w:r" []
      (catN [r.property.nodes, eachN RunChild.nodes r.children])

/-! Revisions. -/

/-- The elements written for `DeleteChild`. -/
def DeleteChild.nodes : DeleteChild → N
  | .run r => r.nodes
  | .commentStart id _ => emitN (commentStartNodes id)
  | .commentEnd id => emitN (commentEndNodes id)

/-- The elements written for `Delete`. -/
def Delete.nodes (name : Str) (d : Delete) : N :=
  withHistoryN fun id =>
    elemN name (revisionAttrs id d.author d.date)
      (eachN DeleteChild.nodes d.children)

/-- The elements written for `InsertChild`. -/
def InsertChild.nodes : InsertChild → N
  | .run r => r.nodes
  | .delete d => d.nodes c!"w:del"
  | .commentStart id _ => emitN (commentStartNodes id)
  | .commentEnd id => emitN (commentEndNodes id)

/-- The elements written for `Insert`. -/
def Insert.nodes (name : Str) (i : Insert) : N :=
  withHistoryN fun id =>
    elemN name (revisionAttrs id i.author i.date)
      (eachN InsertChild.nodes i.children)

/-! Bookmarks and page number fields. -/

/-- The elements written for `bookmarkStartNodes`. -/
def bookmarkStartNodes (id : Nat) (name : Str) : List Node :=
  leafN c!"w:bookmarkStart" [(c!"w:id", dec id), (c!"w:name", name)]

/-- The elements written for `bookmarkEndNodes`. -/
def bookmarkEndNodes (id : Nat) : List Node := leafN c!"w:bookmarkEnd" [(c!"w:id", dec id)]

/-! Hyperlinks. -/

/-! Paragraphs. -/

/-- The elements written for `paragraphN`. -/
def paragraphN (id : Str) (property : ParagraphProperty) (children : N) : N :=
  elemN c!"w:p" [(c!"w14:paraId", id)]
      (catN [property.nodes, children])

/-- The elements written for `newParagraphN`. -/
def newParagraphN (property : ParagraphProperty) (children : N) : N :=
  withParaIdN fun id => paragraphN id property children

/-! Entries of a table of contents. -/

/-- The elements written for `tocItemRunsN`. -/
def tocItemRunsN (t : TocItem) : N :=
  let runs : N := catN [Run.nodes { children := [.text (textOf t.text)] },
    Run.nodes { children := [.tab] }, (pageRefRun t).nodes]
  if t.instr.hyperlink then
    elemN c!"w:hyperlink" (hyperlinkAttrs (.anchor t.tocKey) none)
      (runs)
  else runs

/-- The elements written for `tocItemN`. -/
def tocItemN (first : Bool) (t : TocItem) : N :=
  newParagraphN (styleProperty (c!"ToC" ++ dec t.level) [tocTab])
    (catN
      [ ifN first (Run.nodes { children := [.fieldChar .begin t.dirty, .instrText (.toc t.instr),
          .fieldChar .separate false] }),
        tocItemRunsN t ])

/-- The elements written for `tocEndN`. -/
def tocEndN (t : TocItem) : N :=
  newParagraphN (styleProperty (c!"ToC" ++ dec t.level))
    (Run.nodes { children := [.fieldChar .end_ false] })

/-- The elements written for `tocItemsN`. -/
def tocItemsN : Bool → List TocItem → N
  | _, [] => emitN []
  | first, [t] => catN [tocItemN first t, tocEndN t]
  | first, t :: ts => catN [tocItemN first t, tocItemsN false ts]

/-- The elements written for `tocEntriesN`. -/
def tocEntriesN (items : List TocItem) : N :=
  elemN c!"w:sdt" [] (catN [emitN (leafN c!"w:sdtPr"),
    elemN c!"w:sdtContent" [] (tocItemsN true items)])

/-- The elements written for `tocStartChildrenN`. -/
def tocStartChildrenN (instr : InstrToC) (delete : Option Mark) : N :=
  match delete with
  | some m => Delete.nodes c!"w:del"
      { author := escape m.author, date := m.date,
        children := [.run { children := [.fieldChar .begin true, .deleteInstrText (.toc instr),
          .fieldChar .separate false] }] }
  | none => Run.nodes { children := [.fieldChar .begin true, .instrText (.toc instr),
      .fieldChar .separate false] }

/-- The elements written for `emptyLineN`. -/
def emptyLineN : N := newParagraphN {} (Run.nodes { children := [.text (textOf [])] })

/-- The optional `w:sdt` around a table of contents. -/
def wrapSdt (without : Bool) (alias : Option Str) (content : N) : N :=
  if without then content
  else elemN c!"w:sdt" [] (catN [SdtProperty.nodes { alias := alias },
    elemN c!"w:sdtContent" [] content])

/-! The recursive content. -/

mutual
/-- The elements written for `ParagraphChild`. -/
def ParagraphChild.nodes : ParagraphChild → N
  | .run r => r.nodes
  | .insert i => i.nodes c!"w:ins"
  | .delete d => d.nodes c!"w:del"
  | .moveFrom d => d.nodes c!"w:moveFrom"
  | .moveTo i => i.nodes c!"w:moveTo"
  | .bookmarkStart id name => emitN (bookmarkStartNodes id name)
  | .hyperlink h => h.nodes
  | .bookmarkEnd id => emitN (bookmarkEndNodes id)
  | .commentStart id _ => emitN (commentStartNodes id)
  | .commentEnd id => emitN (commentEndNodes id)
  | .sdt s => s.nodes
  | .pageNum _ => (pageFieldRun .page).nodes
  | .numPages _ => (pageFieldRun .numPages).nodes
/-- The elements written for `nodesParagraphChildren`. -/
def nodesParagraphChildren : List ParagraphChild → N
  | [] => emitN []
  | c :: cs => c.nodes.thenN (nodesParagraphChildren cs)
/-- The elements written for `Hyperlink`. -/
def Hyperlink.nodes : Hyperlink → N
  | ⟨link, history, children⟩ =>
    elemN c!"w:hyperlink" (hyperlinkAttrs link history)
      (nodesParagraphChildren children)
/-- The elements written for `Sdt`. -/
def Sdt.nodes : Sdt → N
  | ⟨children, property, _⟩ =>
    elemN c!"w:sdt" [] (catN [property.nodes,
      elemN c!"w:sdtContent" [] (nodesSdtChildren children)])
/-- The elements written for `nodesSdtChildren`. -/
def nodesSdtChildren : List SdtChild → N
  | [] => emitN []
  | c :: cs => c.nodes.thenN (nodesSdtChildren cs)
/-- The elements written for `SdtChild`. -/
def SdtChild.nodes : SdtChild → N
  | .run r => r.nodes
  | .paragraph p => p.nodes
  | .table t => t.nodes
  | .bookmarkStart id name => emitN (bookmarkStartNodes id name)
  | .bookmarkEnd id => emitN (bookmarkEndNodes id)
  | .commentStart id _ => emitN (commentStartNodes id)
  | .commentEnd id => emitN (commentEndNodes id)
  | .sdt s => s.nodes
/-- The elements written for `Paragraph`. -/
def Paragraph.nodes : Paragraph → N
  | ⟨id, children, property, _⟩ => paragraphN id property (nodesParagraphChildren children)
/-- The elements written for `Table`. -/
def Table.nodes : Table → N
  | ⟨rows, grid, _, property⟩ =>
    elemN c!"w:tbl" []
      (catN [emitN property.nodes, emitN (gridNodes grid), nodesRows rows])
/-- The elements written for `nodesRows`. -/
def nodesRows : List Row → N
  | [] => emitN []
  | r :: rs => r.nodes.thenN (nodesRows rs)
/-- The elements written for `Row`. -/
def Row.nodes : Row → N
  | ⟨cells, _, property⟩ =>
    elemN c!"w:tr" []
      (catN [property.nodes, nodesCells cells])
/-- The elements written for `nodesCells`. -/
def nodesCells : List Cell → N
  | [] => emitN []
  | c :: cs => c.nodes.thenN (nodesCells cs)
/-- The elements written for `Cell`. -/
def Cell.nodes : Cell → N
  | ⟨children, property, _⟩ =>
    elemN c!"w:tc" []
      (catN [emitN property.nodes,
      nodesCellContents (decide (children.length = 1)) children,
      ifN children.isEmpty (newParagraphN {} (emitN []))])
/-- The elements written for `nodesCellContents`. -/
def nodesCellContents (only : Bool) : List CellContent → N
  | [] => emitN []
  | c :: cs => (c.nodes only).thenN (nodesCellContents only cs)
/-- The elements written for `CellContent`. -/
def CellContent.nodes (only : Bool) : CellContent → N
  | .paragraph p => p.nodes
  | .table t => t.nodes.thenN (ifN only (newParagraphN {} (emitN [])))
  | .sdt s => s.nodes
  | .toc t => t.nodes
/-- The elements written for `Toc`. -/
def Toc.nodes : Toc → N
  | ⟨instr, items, _, dirty, withoutSdt, alias, placeholder, before, after, delete, property⟩ =>
    wrapSdt withoutSdt alias
      (match items with
        | [] =>
          catN
            [ nodesBlocks before,
              newParagraphN (property.getD {}) (tocStartChildrenN instr delete),
              (withParaIdN fun id =>
                catN
                  [ ifN after.isEmpty (paragraphN id {} fieldEndRun.nodes),
                    nodesAfter .firstMerging after ]) ]
        | _ :: _ =>
          catN
            [ nodesBlocks before,
              tocEntriesN (tocPreparedItems instr dirty placeholder items),
              nodesAfter .first after ])

/-- The elements written for `nodesBlocks`. -/
def nodesBlocks : List Block → N
  | [] => emitN []
  | b :: bs => b.nodes.thenN (nodesBlocks bs)
/-- The elements written for `Block`. -/
def Block.nodes : Block → N
  | .paragraph p => p.nodes
  | .table t => t.nodes
/-- The elements written for `nodesAfter`. -/
def nodesAfter (pos : TocPosition) : List Block → N
  | [] => emitN []
  | b :: bs => (b.nodesAfter pos).thenN (nodesAfter .later bs)
/-- The elements written for `BlockAfter`. -/
def Block.nodesAfter (pos : TocPosition) : Block → N
  | .paragraph ⟨id, children, property, _⟩ =>
    paragraphN id property
      (catN [(match pos with | .firstMerging => fieldEndRun.nodes | _ => emitN []),
        nodesParagraphChildren children])
  | .table t =>
    catN [(match pos with | .later => emitN [] | _ => emptyLineN), t.nodes]
end

/-! Parts. -/

/-- The elements written for `HeaderChild`. -/
def HeaderChild.nodes : HeaderChild → N
  | .paragraph p => p.nodes
  | .table t => t.nodes
  | .sdt s => s.nodes

/-- The elements written for `Header`. -/
def Header.nodes (name : Str) (h : Header) : N :=
  elemN name headerAttrs
      (eachN HeaderChild.nodes h.children)

/-- The elements written for `SectionChild`. -/
def SectionChild.nodes : SectionChild → N
  | .paragraph p => p.nodes
  | .table t => t.nodes
  | .bookmarkStart id name => emitN (bookmarkStartNodes id name)
  | .bookmarkEnd id => emitN (bookmarkEndNodes id)
  | .commentStart id _ => emitN (commentStartNodes id)
  | .commentEnd id => emitN (commentEndNodes id)
  | .sdt s => s.nodes
  | .toc t => t.nodes

/-- The elements written for `Section`. -/
def Section.nodes (s : Section) : N :=
  withParaIdN fun id =>
    catN
      [ eachN SectionChild.nodes s.children,
        emitN [.elem c!"w:p" [(c!"w14:paraId", id)] [.elem c!"w:pPr" [] s.property.base.nodes]] ]

/-- The elements written for `DocumentChild`. -/
def DocumentChild.nodes : DocumentChild → N
  | .paragraph p => p.nodes
  | .table t => t.nodes
  | .bookmarkStart id name => emitN (bookmarkStartNodes id name)
  | .bookmarkEnd id => emitN (bookmarkEndNodes id)
  | .commentStart id _ => emitN (commentStartNodes id)
  | .commentEnd id => emitN (commentEndNodes id)
  | .sdt s => s.nodes
  | .toc t => t.nodes
  | .«section» s => s.nodes

/-- The elements written for `Document`. -/
def Document.nodes (d : Document) : N :=
  elemN c!"w:document" documentAttrs
    (elemN c!"w:body" []
      (catN [eachN DocumentChild.nodes d.children, emitN d.sectionProperty.base.nodes]))

/-- The elements written for `Comment`. -/
def Comment.nodes (c : Comment) : N :=
  elemN c!"w:comment" [(c!"w:id", dec c.id), (c!"w:author", c.author), (c!"w:date", c.date),
      (c!"w:initials", [])]
    (nodesBlocks c.children)

/-- The elements written for `commentsN`. -/
def commentsN (cs : List Comment) : N :=
  elemN c!"w:comments" commentsAttrs
      (eachN Comment.nodes cs)

/-- The elements written for `Footnote`. -/
def Footnote.nodes (f : Footnote) : N :=
  elemN c!"w:footnote" [(c!"w:id", dec f.id)]
      (catN [eachN Paragraph.nodes f.content,
      ifN f.content.isEmpty (newParagraphN {} (emitN []))])

/-- The elements written for `footnotesN`. -/
def footnotesN (fs : List Footnote) : N :=
  elemN c!"w:footnotes" footnotesAttrs
      (eachN Footnote.nodes fs)

end Docx
