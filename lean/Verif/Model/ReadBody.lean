import Verif.Model.ReadProps
import Verif.Model.Escape

/-!
# Readers of content (`docx-core/src/reader/*.rs`)

Runs, paragraphs, tables, content controls, tracked changes, hyperlinks and the document body. The
readers call each other; the four calls that close the cycles go through `Readers`, so that the depth
of the nesting is bounded by a number like the loops.
-/

namespace Docx

open Docx.Xml

/-- The readers that others call in a cycle, and a number of steps for the loops. -/
structure Readers where
  fuel : Nat
  run : List REvent → Read Run
  paragraphProperty : List REvent → Read ParagraphProperty
  table : List REvent → Read Table
  paragraph : Attrs → List REvent → Read Paragraph

/-! ## Tracked changes -/

/-- Author and date from the attributes. reader/insert.rs:48-55, reader/delete.rs, reader/move_from.rs,
reader/move_to.rs. -/
def readChange (as : Attrs) (author date : Str) : Str × Str :=
  as.foldl (fun m a =>
    if a.1.loc = c!"author" then (escapeOwned a.2, m.2)
    else if a.1.loc = c!"date" then (m.1, a.2)
    else m) (author, date)

/-- The loop of `<Delete as ElementReader>::read` and, with `stop` another element,
`<MoveFrom as ElementReader>::read` (which does not skip `moveFrom`).
reader/delete.rs:6-66, reader/move_from.rs:6-61. -/
def deleteLoop (R : Readers) (stop : El) : Loop Delete where
  start d q as es :=
    match elementOf q.loc with
    | .run => (R.run es).map d.addRun
    | .commentRangeStart =>
      match readCommentId as with
      | some i => .ok (d.addCommentStart (.new i)) es
      | none => .ok d es
    | .commentRangeEnd =>
      match readCommentId as with
      | some i => .ok (d.addCommentEnd i) es
      | none => .ok d es
    | .moveFrom => if stop = .moveFrom then .ok d es else (skipTo R.fuel .moveFrom es).map fun _ => d
    | _ => .ok d es
  close := closesAt stop

/-- `<Delete as ElementReader>::read`. reader/delete.rs:6-66. -/
def readDelete (R : Readers) (as : Attrs) (es : List REvent) : Read Delete :=
  ((deleteLoop R .delete).run R.fuel {} es).map fun d =>
    let m := readChange as d.author d.date
    { d with author := m.1, date := m.2 }

/-- `<MoveFrom as ElementReader>::read`. reader/move_from.rs:6-61. -/
def readMoveFrom (R : Readers) (as : Attrs) (es : List REvent) : Read Delete :=
  ((deleteLoop R .moveFrom).run R.fuel {} es).map fun d =>
    let m := readChange as d.author d.date
    { d with author := m.1, date := m.2 }

/-- The loop of `<Insert as ElementReader>::read` and `<MoveTo as ElementReader>::read`.
reader/insert.rs:6-63, reader/move_to.rs:6-65. -/
def insertLoop (R : Readers) (stop : El) : Loop Insert where
  start i q as es :=
    match elementOf q.loc with
    | .run => (R.run es).map i.addRun
    | .delete => (readDelete R as es).map i.addDelete
    | .commentRangeStart =>
      match readCommentId as with
      | some n => .ok (i.addCommentStart (.new n)) es
      | none => .ok i es
    | .commentRangeEnd =>
      match readCommentId as with
      | some n => .ok (i.addCommentEnd n) es
      | none => .ok i es
    | .moveFrom => (skipTo R.fuel .moveFrom es).map fun _ => i
    | _ => .ok i es
  close := closesAt stop

/-- `<Insert as ElementReader>::read`. reader/insert.rs:6-63. -/
def readInsert (R : Readers) (as : Attrs) (es : List REvent) : Read Insert :=
  ((insertLoop R .insert).run R.fuel {} es).map fun i =>
    let m := readChange as i.author i.date
    { i with author := m.1, date := m.2 }

/-- `<MoveTo as ElementReader>::read`. reader/move_to.rs:6-65. -/
def readMoveTo (R : Readers) (as : Attrs) (es : List REvent) : Read Insert :=
  ((insertLoop R .moveTo).run R.fuel {} es).map fun i =>
    let m := readChange as i.author i.date
    { i with author := m.1, date := m.2 }

/-! ## Runs -/

/-- `read_color`. reader/run_property.rs:14-29. -/
def readColor (rp : RunProperty) (as : Attrs) : RunProperty :=
  let rp := rp.setColor ((attrNamed as c!"val").getD c!"auto")
  let rp := match (attrNamed as c!"themeColor").bind ThemeColor.fromStr with
    | some t => rp.setThemeColor t
    | none => rp
  let rp := match attrNamed as c!"themeShade" with
    | some t => rp.setThemeShade t
    | none => rp
  match attrNamed as c!"themeTint" with
  | some t => rp.setThemeTint t
  | none => rp

/-- `read_run_fonts`. reader/run_property.rs:31-66. -/
def readFonts (as : Attrs) : RunFonts :=
  as.foldl (fun f a =>
    if a.1.loc = c!"asciiTheme" then f.setAsciiTheme a.2
    else if a.1.loc = c!"eastAsiaTheme" then f.setEastAsiaTheme a.2
    else if a.1.loc = c!"hAnsiTheme" then f.setHiAnsiTheme a.2
    else if a.1.loc = c!"cstheme" then f.setCsTheme a.2
    else if a.1.loc = c!"ascii" then f.setAscii a.2
    else if a.1.loc = c!"eastAsia" then f.setEastAsia a.2
    else if a.1.loc = c!"hAnsi" then f.setHiAnsi a.2
    else if a.1.loc = c!"cs" then f.setCs a.2
    else if a.1.loc = c!"hint" then f.setHint a.2
    else f) {}

/-- `<RunProperty as ElementReader>::read`. reader/run_property.rs:68-203. -/
def runPropertyLoop (x : ReadEnv) (R : Readers) : Loop RunProperty where
  start rp q as es :=
    (ignoreElement R.fuel (elementOf q.loc) .runPropertyChange es).bind fun _ es =>
    match elementOf q.loc with
    | .runStyle =>
      match attrNamed as c!"val" with
      | some v => .ok (rp.setStyle v) es
      | none => .ok rp es
    | .bold => .ok (if readBool as then rp.setBold else rp.disableBold) es
    | .caps => .ok (if readBool as then rp.setCaps else { rp with caps := some false }) es
    | .pTab => (readPtab R.fuel as es).caught fun t es =>
        match t with
        | some t => .ok (rp.setPtab t) es
        | none => .ok rp es
    | .highlight => (firstValue as es).map rp.setHighlight
    | .strike => .ok (if readBool as then rp.setStrike else { rp with strike := some false }) es
    | .dstrike => .ok (if readBool as then rp.setDstrike else { rp with dstrike := some false }) es
    | .vertAlign => (firstValue as es).bind fun v es =>
        match VertAlignType.fromStr v with
        | some t => .ok (rp.setVertAlign t) es
        | none => .ok rp es
    | .color => .ok (readColor rp as) es
    | .size => (firstValue as es).bind fun v es =>
        (orErr (parseFloat x v) es).map fun i => rp.setSize (toUsize i)
    | .spacing =>
      match (attrNamed as c!"val").bind (parseFloat x) with
      | some i => .ok (rp.setSpacing (toI32 i)) es
      | none => .ok rp es
    | .fitText =>
      match (attrNamed as c!"val").bind usizeFromStr with
      | some n => .ok (rp.setFitText n ((attrNamed as c!"id").bind u32FromStr)) es
      | none => .ok rp es
    | .runFonts => .ok (rp.setFonts (readFonts as)) es
    | .underline => (firstValue as es).map rp.setUnderline
    | .italic => .ok (if readBool as then rp.setItalic else rp.disableItalic) es
    | .shading => .ok (rp.setShading (readShading as)) es
    | .vanish => .ok rp.setVanish es
    | .specVanish => .ok rp.setSpecVanish es
    | .textBorder => (readBorder x as es).caught fun b es =>
        match b with
        | some b => .ok (rp.setTextBorder { borderType := b.borderType, color := b.color, size := b.size }) es
        | none => .ok rp es
    | .insert => (readInsert R as es).caught fun i es =>
        match i with
        | some i => .ok (rp.setInsert ⟨i.author, i.date⟩) es
        | none => .ok rp es
    | .delete => (readDelete R as es).caught fun d es =>
        match d with
        | some d => .ok (rp.setDelete ⟨d.author, d.date⟩) es
        | none => .ok rp es
    | _ => .ok rp es
  close := closesAt .runProperty

/-- `<RunProperty as ElementReader>::read`. reader/run_property.rs:68-203. -/
def readRunProperty (x : ReadEnv) (R : Readers) (es : List REvent) : Read RunProperty :=
  (runPropertyLoop x R).run R.fuel {} es

/-! ## Drawings -/

/-- `Pic::with_empty`. elements/pic.rs:104-126. -/
def Pic.empty : Pic := { id := [], image := [], size := (0, 0) }

/-- A number in an attribute: `if let Some(v) = read(…) { if let Ok(v) = f64::from_str(&v) { n = v as i32 } }`. -/
def attrI32 (x : ReadEnv) (as : Attrs) (name : Str) (default : Int) : Int :=
  match (attrNamed as name).bind (parseFloat x) with
  | some i => toI32 i
  | none => default

/-- `<Pic as ElementReader>::read`. reader/pic.rs:8-72. `AXMLElement::from_str` and `PicXMLElement::from_str`
(reader/xml_element.rs:483-506,548-556) look at the local name only. -/
def picLoop (x : ReadEnv) : Loop Pic where
  start p q as es :=
    if q.loc = c!"blip" then
      match attrNamed as c!"embed" with
      | some i => .ok { p with id := i } es
      | none => .ok p es
    else if q.loc = c!"off" then
      .ok { p with positionH := .offset (attrI32 x as c!"x" 0), positionV := .offset (attrI32 x as c!"y" 0) } es
    else if q.loc = c!"ext" then
      .ok { p with size := (((attrNamed as c!"cx").bind u32FromStr).getD 0, ((attrNamed as c!"cy").bind u32FromStr).getD 0) } es
    else .ok p es
  close p q := if q.loc = c!"pic" then none else some p

/-- `read_position_h` and `read_position_v`: the number is the text of whatever is inside. reader/drawing.rs:11-73. What the
position is relative to comes from the attributes of the element and is returned by `relativeTo`. -/
def positionLoop (x : ReadEnv) (stop : Str) : Loop Int where
  start i _ _ es := .ok i es
  text i white t := if white then i else
    match parseFloat x t with
    | some n => toI32 n
    | none => i
  close i q := if q.loc = stop then none else some i

/-- What `relativeFrom` says, if it is known. reader/drawing.rs:19-23,50-54. -/
def relativeTo {α : Type} (fromStr : Str → Option α) (default : α) (as : Attrs) : α :=
  ((attrNamed as c!"relativeFrom").bind fromStr).getD default

/-- `read_textbox_content`. reader/drawing.rs:75-111. -/
def textBoxLoop (R : Readers) : Loop (List Block) where
  start l q as es :=
    match elementOf q.loc with
    | .paragraph => (R.paragraph as es).map fun p => l ++ [.paragraph p]
    | .table => (R.table es).map fun t => l ++ [.table t]
    | _ => .ok l es
  close l q := if q.loc = c!"txbx" then none else some l

/-- The drawing being read and the variables of `Drawing::read`; these are fields of a picture without bytes and size.
reader/drawing.rs:118-134. -/
structure DrawingState where
  drawing : RunChild := .emptyDrawing
  place : Pic := { Pic.empty with layoutInCell := true, relativeHeight := 0, allowOverlap := true }

/-- The variables copied into a picture. reader/drawing.rs:241-256. -/
def placePic (p place : Pic) : Pic := { place with id := p.id, image := p.image, size := p.size, rot := p.rot }

/-- The attributes of `wp:anchor`. reader/drawing.rs:145-187. -/
def readAnchor (x : ReadEnv) (as : Attrs) (p : Pic) : Pic :=
  { p with
    positionType := .anchor
    simplePos := match attrNamed as c!"simplePos" with
      | some v => if isFalse v then p.simplePos else true
      | none => p.simplePos
    distT := attrI32 x as c!"distT" p.distT
    distB := attrI32 x as c!"distB" p.distB
    distL := attrI32 x as c!"distL" p.distL
    distR := attrI32 x as c!"distR" p.distR
    layoutInCell := match attrNamed as c!"layoutInCell" with
      | some v => if isFalse v then false else p.layoutInCell
      | none => p.layoutInCell
    relativeHeight := match (attrNamed as c!"relativeHeight").bind (parseFloat x) with
      | some i => toU32 i
      | none => p.relativeHeight
    allowOverlap := match attrNamed as c!"allowOverlap" with
      | some v => if isFalse v then false else p.allowOverlap
      | none => p.allowOverlap }

/-- The attributes of `wp:inline`. reader/drawing.rs:188-210. -/
def readInline (x : ReadEnv) (as : Attrs) (p : Pic) : Pic :=
  { p with
    positionType := .inline
    distT := attrI32 x as c!"distT" p.distT
    distB := attrI32 x as c!"distB" p.distB
    distL := attrI32 x as c!"distL" p.distL
    distR := ((attrNamed as c!"distR").bind (parseSigned 32)).getD p.distR }

/-- `<Drawing as ElementReader>::read`. reader/drawing.rs:113-297. `WpXMLElement::from_str`, `PicXMLElement::from_str` and
`WpsXMLElement::from_str` (reader/xml_element.rs:464-481,508-521,548-556) look at the local name only, and no name is known to two
of them. The place of a text box is not modelled (see `RunChild`). -/
def drawingLoop (x : ReadEnv) (R : Readers) : Loop DrawingState where
  start s q as es :=
    if q.loc = c!"anchor" then .ok { s with place := readAnchor x as s.place } es
    else if q.loc = c!"inline" then .ok { s with place := readInline x as s.place } es
    else if q.loc = c!"simplePos" then
      .ok { s with place := { s.place with
        simplePosX := attrI32 x as c!"x" s.place.simplePosX
        simplePosY := attrI32 x as c!"y" s.place.simplePosY } } es
    else if q.loc = c!"positionH" then ((positionLoop x c!"positionH").run R.fuel 0 es).caught fun i es =>
      match i with
      | some i => .ok { s with place := { s.place with relativeFromH := relativeTo RelativeFromHType.fromStr .margin as, positionH := .offset i } } es
      | none => .ok s es
    else if q.loc = c!"positionV" then ((positionLoop x c!"positionV").run R.fuel 0 es).caught fun i es =>
      match i with
      | some i => .ok { s with place := { s.place with relativeFromV := relativeTo RelativeFromVType.fromStr .margin as, positionV := .offset i } } es
      | none => .ok s es
    else if q.loc = c!"pic" then ((picLoop x).run R.fuel Pic.empty es).caught fun p es =>
      match p with
      | some p => .ok { s with drawing := .picture (placePic p s.place) } es
      | none => .ok s es
    else if q.loc = c!"txbx" then ((textBoxLoop R).run R.fuel [] es).caught fun l es =>
      match l with
      | some l => .ok { s with drawing := .textBox l } es
      | none => .ok s es
    else .ok s es
  close := closesAt .drawing

/-- `<Drawing as ElementReader>::read`. reader/drawing.rs:113-297. -/
def readDrawing (x : ReadEnv) (R : Readers) (es : List REvent) : Read RunChild :=
  ((drawingLoop x R).run R.fuel {} es).map DrawingState.drawing

/-! ## Runs -/

/-- What the run reader does with character data: `TextState`, or inside the inner loop that reads an
instruction text. reader/run.rs:12-17, 108-128. -/
inductive TextState where
  | idle
  | text
  | delete
  /-- In the inner loop, with the state to go back to. -/
  | instr (back : TextState)

/-- State of the run reader: the run and `text_state`. -/
abbrev RunState := Run × TextState

/-- `Run::add_delete_text_without_escape`. elements/run.rs:186-192. -/
def Run.addDeleteTextWithoutEscape (r : Run) (s : Str) : Run := { r with children := r.children ++ [.deleteText (dropLineFeeds s)] }

/-- `<Run as ElementReader>::read`. reader/run.rs:47-198. -/
def runLoop (x : ReadEnv) (R : Readers) : Loop RunState where
  start s q as es :=
    let (r, ts) := s
    match ts with
    | .instr _ => .ok s es
    | _ =>
    if q.pfx = some c!"w" then
      (ignoreElement R.fuel (elementOf q.loc) .runPropertyChange es).bind fun _ es =>
      match elementOf q.loc with
      | .tab => .ok (r.addTab, ts) es
      | .pTab => (readPtab R.fuel as es).caught fun t es =>
          match t with
          | some t => .ok (r.addPtab t, ts) es
          | none => .ok s es
      | .sym =>
        match attrNamed as c!"font", attrNamed as c!"char" with
        | some f, some c => .ok (r.addSym f c, ts) es
        | _, _ => .ok s es
      | .runProperty => (readRunProperty x R es).map fun p => ({ r with property := p }, ts)
      | .text => .ok (r, .text) es
      | .deleteText => .ok (r, .delete) es
      | .«break» =>
        match attrFirst as with
        | some v => (orErr (BreakType.fromStr v) es).map fun t => (r.addBreak t, ts)
        | none => .ok (r.addBreak .textWrapping, ts) es
      | .carriageReturn => .ok (r.addCarriageReturn, ts) es
      | .drawing => (readDrawing x R es).caught fun c es =>
          match c with
          | some c => .ok ({ r with children := r.children ++ [c] }, ts) es
          | none => .ok s es
      | .fieldChar =>
        match readFieldChar as with
        | some (t, d) => .ok (r.addFieldChar t d, ts) es
        | none => .ok s es
      | .instrText => .ok (r, .instr ts) es
      | _ => .ok s es
    else if q.pfx = some c!"mc" then
      if q.loc = c!"Fallback" then (fallbackLoop.run R.fuel () es).map fun _ => s else .ok s es
    else if q.pfx = some c!"v" then
      if q.loc = c!"shape" then
        (shapeLoop.run R.fuel { style := attrNamed as c!"style" } es).caught fun h es =>
          match h with
          | some h => .ok ({ r with children := r.children ++ [.shape h] }, ts) es
          | none => .ok s es
      else .ok s es
    else .ok s es
  text s white t :=
    match s with
    | (r, .text) => (r.addTextWithoutEscape (replaceEscaped t), .text)
    | (r, .delete) => (r.addDeleteTextWithoutEscape (replaceEscaped t), .delete)
    | (r, .instr back) =>
      if white then s else ({ r with children := r.children ++ [.instrTextString t] }, back)
    | (_, .idle) => s
  close s q :=
    match s.2 with
    | .instr _ => closesAt .run s q
    | _ =>
      match elementOf q.loc with
      | .run => none
      | .deleteText | .text => some (s.1, .idle)
      | _ => some s

/-- `<Run as ElementReader>::read`. reader/run.rs:47-198. -/
def readRun (x : ReadEnv) (R : Readers) (es : List REvent) : Read Run :=
  ((runLoop x R).run R.fuel ({}, .idle) es).map Prod.fst

/-! ## Paragraphs -/

/-- `<ParagraphPropertyChange as ElementReader>::read`. reader/paragraph_property_change.rs:6-43. -/
def changeLoop (R : Readers) : Loop ParagraphPropertyChange where
  start c q _ es :=
    if elementOf q.loc = .paragraphProperty then
      (R.paragraphProperty es).caught fun p es => .ok { c with property := p.getD c.property } es
    else .ok c es
  close := closesAt .paragraphPropertyChange

/-- `<ParagraphPropertyChange as ElementReader>::read`. reader/paragraph_property_change.rs:6-43. -/
def readParagraphPropertyChange (R : Readers) (as : Attrs) (es : List REvent) : Read ParagraphPropertyChange :=
  let m := readChange as c!"unnamed" c!"1970-01-01T00:00:00Z"
  (changeLoop R).run R.fuel ⟨m.1, m.2, {}⟩ es

/-- `<ParagraphProperty as ElementReader>::read`. reader/paragraph_property.rs:9-164. -/
def paragraphPropertyLoop (x : ReadEnv) (R : Readers) : Loop ParagraphProperty where
  start p q as es :=
    match elementOf q.loc with
    | .indent => (readIndent x as es).map fun i =>
        let p := p.setIndent i.start i.special i.end_ i.startChars
        let p := match i.hangingChars with
          | some n => p.setHangingChars n
          | none => p
        match i.firstLineChars with
        | some n => p.setFirstLineChars n
        | none => p
    | .spacing => (readLineSpacing x as es).caught fun s es =>
        match s with
        | some s => .ok (p.setLineSpacing s) es
        | none => .ok p es
    | .justification => (firstValue as es).map fun v =>
        match AlignmentType.fromStr v with
        | some a => p.setAlign a
        | none => p
    | .textAlignment => (firstValue as es).map fun v =>
        match TextAlignmentType.fromStr v with
        | some a => p.setTextAlignment a
        | none => p
    | .adjustRightInd =>
      match (attrNamed as c!"val").bind (parseSigned 64) with
      | some i => .ok (p.setAdjustRightInd i) es
      | none => .ok p es
    | .paragraphStyle => (firstValue as es).map p.setStyle
    | .runProperty => (readRunProperty x R es).caught fun r es =>
        match r with
        | some r => .ok (p.setRunProperty r) es
        | none => .ok p es
    | .divId =>
      match attrNamed as c!"val" with
      | some v => .ok (p.upd fun b => { b with divId := some v }) es
      | none => .ok p es
    | .numberingProperty => (numPrLoop.run R.fuel {} es).caught fun n es =>
        match n with
        | some n => .ok (p.setNumberingProperty n) es
        | none => .ok p es
    | .outlineLvl =>
      match (attrNamed as c!"val").bind usizeFromStr with
      | some n => .ok (p.setOutlineLvl n) es
      | none => .ok p es
    | .snapToGrid => .ok (p.upd fun b => { b with snapToGrid := some (readBool as) }) es
    | .keepNext => .ok (if readBool as then p.upd fun b => { b with keepNext := some true } else p) es
    | .keepLines => .ok (if readBool as then p.upd fun b => { b with keepLines := some true } else p) es
    | .pageBreakBefore =>
      .ok (if readBool as then p.upd fun b => { b with pageBreakBefore := some true } else p) es
    | .widowControl => .ok (if readBool as then p.upd fun b => { b with widowControl := some true } else p) es
    | .paragraphPropertyChange => (readParagraphPropertyChange R as es).caught fun c es =>
        match c with
        | some c => .ok (p.setChange c) es
        | none => .ok p es
    | .sectionProperty => (readSection x R.fuel es).caught fun s es =>
        match s with
        | some s => .ok (p.upd fun b => { b with sectionProperty := some s }) es
        | none => .ok p es
    | .frameProperty => .ok (p.upd fun b => { b with frameProperty := some (readFrame x as) }) es
    | .shading => .ok (p.upd fun b => { b with shading := some (readShading as) }) es
    | .paragraphBorders => ((paragraphBordersLoop x).run R.fuel .withEmpty es).caught fun b es =>
        match b with
        | some b => .ok (p.setBorders b) es
        | none => .ok p es
    | .tabs => ((tabsLoop x R.fuel).run R.fuel [] es).caught fun ts es =>
        .ok ((ts.getD []).foldl ParagraphProperty.addTab p) es
    | _ => .ok p es
  close := closesAt .paragraphProperty

/-- `<ParagraphProperty as ElementReader>::read`. reader/paragraph_property.rs:9-164. -/
def readParagraphProperty (x : ReadEnv) (R : Readers) (es : List REvent) : Read ParagraphProperty :=
  (paragraphPropertyLoop x R).run R.fuel {} es

/-- `<Hyperlink as ElementReader>::read`: the loop. reader/hyperlink.rs:31-103. -/
def hyperlinkLoop (R : Readers) : Loop Hyperlink where
  start h q as es :=
    match elementOf q.loc with
    | .run => (R.run es).caught fun r es => .ok (add h (r.map .run)) es
    | .insert => (readInsert R as es).caught fun i es => .ok (add h (i.map .insert)) es
    | .delete => (readDelete R as es).caught fun d es => .ok (add h (d.map .delete)) es
    | .bookmarkStart => (readBookmarkStart as es).caught fun b es =>
        .ok (add h (b.map fun b => .bookmarkStart b.1 b.2)) es
    | .bookmarkEnd => (readBookmarkEnd as es).caught fun b es => .ok (add h (b.map .bookmarkEnd)) es
    | .commentRangeStart => .ok (add h ((readCommentId as).map fun i => .commentStart i (.new i))) es
    | .commentRangeEnd => .ok (add h ((readCommentId as).map .commentEnd)) es
    | .moveFrom => (skipTo R.fuel .moveFrom es).map fun _ => h
    | _ => .ok h es
  close := closesAt .hyperlink
where
  /-- `link = link.add_…(…)` when there is a value. -/
  add (h : Hyperlink) : Option ParagraphChild → Hyperlink
    | some c => h.addChild c
    | none => h

/-- `<Hyperlink as ElementReader>::read`. reader/hyperlink.rs:8-104. -/
def readHyperlink (R : Readers) (as : Attrs) (es : List REvent) : Read Hyperlink :=
  (hyperlinkLoop R).run R.fuel
    { link := match attrNamed as c!"anchor" with
        | some a => .anchor a
        | none => .external ((attrNamed as c!"id").getD []) []
      history := (attrNamed as c!"history").map fun h => (usizeFromStr h).getD 1 } es

/-- `<Paragraph as ElementReader>::read`: the loop. reader/paragraph.rs:17-104. -/
def paragraphLoop (x : ReadEnv) (R : Readers) : Loop Paragraph where
  start p q as es :=
    match elementOf q.loc with
    | .run => (R.run es).map fun r => p.addChild (.run r)
    | .hyperlink => (readHyperlink R as es).map fun h => p.addChild (.hyperlink h)
    | .insert => (readInsert R as es).map fun i => p.addChild (.insert i)
    | .delete => (readDelete R as es).map fun d => p.addChild (.delete d)
    | .moveFrom => (readMoveFrom R as es).map fun d => p.addChild (.moveFrom d)
    | .moveTo => (readMoveTo R as es).map fun i => p.addChild (.moveTo i)
    | .bookmarkStart => (readBookmarkStart as es).map fun b => p.addChild (.bookmarkStart b.1 b.2)
    | .bookmarkEnd => (readBookmarkEnd as es).map fun i => p.addChild (.bookmarkEnd i)
    | .commentRangeStart =>
      match readCommentId as with
      | some i => .ok (p.addChild (.commentStart i (.new i))) es
      | none => .ok p es
    | .commentRangeEnd =>
      match readCommentId as with
      | some i => .ok (p.addChild (.commentEnd i)) es
      | none => .ok p es
    | .paragraphProperty => (readParagraphProperty x R es).caught fun pr es =>
        match pr with
        | some pr => .ok { p with property := pr, hasNumbering := pr.base.numberingProperty.isSome } es
        | none => .ok p es
    | _ => .ok p es
  close := closesAt .paragraph

/-- `<Paragraph as ElementReader>::read`. reader/paragraph.rs:8-105. -/
def readParagraph (x : ReadEnv) (R : Readers) (as : Attrs) (es : List REvent) : Read Paragraph :=
  (paragraphLoop x R).run R.fuel { id := (attrNamed as c!"paraId").getD x.freshId } es

/-! ## Content controls, tables -/

/-- `<StructuredDataTag as ElementReader>::read`. reader/structured_data_tag.rs:8-91. -/
def sdtLoop (x : ReadEnv) (R : Readers) : Loop Sdt where
  start s q as es :=
    match elementOf q.loc with
    | .paragraph => (readParagraph x R as es).caught fun p es => .ok (add s (p.map .paragraph)) es
    | .table => (R.table es).caught fun t es => .ok (add s (t.map .table)) es
    | .bookmarkStart => (readBookmarkStart as es).caught fun b es =>
        .ok (add s (b.map fun b => .bookmarkStart b.1 b.2)) es
    | .bookmarkEnd => (readBookmarkEnd as es).caught fun b es => .ok (add s (b.map .bookmarkEnd)) es
    | .commentRangeStart => .ok (add s ((readCommentId as).map fun i => .commentStart i (.new i))) es
    | .commentRangeEnd => .ok (add s ((readCommentId as).map .commentEnd)) es
    | .run => (R.run es).caught fun r es => .ok (add s (r.map .run)) es
    | _ => .ok s es
  close := closesAt .structuredDataTag
where
  /-- `sdt.children.push(…)` when there is a value. -/
  add (s : Sdt) : Option SdtChild → Sdt
    | some c => { s with children := s.children ++ [c] }
    | none => s

/-- `<StructuredDataTag as ElementReader>::read`. reader/structured_data_tag.rs:8-91. -/
def readSdt (x : ReadEnv) (R : Readers) (es : List REvent) : Read Sdt := (sdtLoop x R).run R.fuel {} es

/-- `<TableCell as ElementReader>::read`. reader/table_cell.rs:6-54. -/
def cellLoop (x : ReadEnv) (R : Readers) : Loop Cell where
  start c q as es :=
    match elementOf q.loc with
    | .paragraph => (readParagraph x R as es).map c.addParagraph
    | .structuredDataTag => (readSdt x R es).caught fun s es =>
        match s with
        | some s => .ok (c.addSdt s) es
        | none => .ok c es
    | .tableCellProperty => ((cellPropertyLoop x R.fuel).run R.fuel {} es).caught fun p es =>
        .ok { c with property := p.getD c.property } es
    | .table => (R.table es).caught fun t es =>
        match t with
        | some t => .ok (c.addTable t) es
        | none => .ok c es
    | _ => .ok c es
  close := closesAt .tableCell

/-- State of the row reader: the cells and the property so far. reader/table_row.rs:11-19. -/
abbrev RowState := List Cell × TableRowProperty

/-- `<TableRow as ElementReader>::read`. reader/table_row.rs:9-127. -/
def rowLoop (x : ReadEnv) (R : Readers) : Loop RowState where
  start s q as es :=
    let (cs, p) := s
    (ignoreElement R.fuel (elementOf q.loc) .tableRowPropertyChange es).bind fun _ es =>
    match elementOf q.loc with
    | .tableCell => ((cellLoop x R).run R.fuel {} es).map fun c => (cs ++ [c], p)
    | .gridAfter =>
      match attrNamed as c!"val" with
      | some v => (orErr (u32FromStr v) es).map fun n => (cs, { p with gridAfter := some n })
      | none => .ok s es
    | .widthAfter => withWidth x s as es fun w _ => (cs, { p with widthAfter := f32Text x (decInt w) })
    | .gridBefore =>
      match attrNamed as c!"val" with
      | some v => (orErr (u32FromStr v) es).map fun n => (cs, { p with gridBefore := some n })
      | none => .ok s es
    | .widthBefore => withWidth x s as es fun w _ => (cs, { p with widthBefore := f32Text x (decInt w) })
    | .tableRowHeight =>
      .ok (cs, { p with
        rowHeight := ((attrNamed as c!"val").bind (f32Text x)).or p.rowHeight
        heightRule := ((attrNamed as c!"hRule").bind HeightRule.fromStr).or p.heightRule }) es
    | .delete => (readDelete R as es).caught fun d es =>
        match d with
        | some d => .ok (cs, { p with del := some ⟨d.author, d.date⟩ }) es
        | none => .ok s es
    | .insert => (readInsert R as es).caught fun i es =>
        match i with
        | some i => .ok (cs, { p with ins := some ⟨i.author, i.date⟩ }) es
        | none => .ok s es
    | _ => .ok s es
  close := closesAt .tableRow

/-- `<TableRow as ElementReader>::read`. reader/table_row.rs:9-127. -/
def readRow (x : ReadEnv) (R : Readers) (es : List REvent) : Read Row :=
  ((rowLoop x R).run R.fuel ([], {}) es).map fun s => { Row.new s.1 with property := s.2 }

/-- `<Table as ElementReader>::read`; the columns are collected in `grid`. reader/table.rs:7-79. -/
def tableLoop (x : ReadEnv) (R : Readers) : Loop Table where
  start t q as es :=
    (ignoreElement R.fuel (elementOf q.loc) .tablePropertyChange es).bind fun _ es =>
    (ignoreElement R.fuel (elementOf q.loc) .tableGridChange es).bind fun _ es =>
    match elementOf q.loc with
    | .tableRow => (readRow x R es).map t.addRow
    | .tableWidth => (readWidth x as es).map fun w =>
        { t with property := { t.property with width := ⟨isizeAsUsize w.1, w.2⟩ } }
    | .tableProperty =>
      ((tablePropertyLoop x R.fuel).run R.fuel { borders := .withEmpty } es).caught fun p es =>
        .ok { t with property := p.getD t.property } es
    | .justification => (firstValue as es).bind fun v es =>
        (orErr (TableAlignmentType.fromStr v) es).map fun a =>
          { t with property := { t.property with justification := a.toStr } }
    | .tableIndent => (readWidth x as es).map fun w =>
        { t with property := { t.property with indent := some ⟨isizeAsI32 w.1, .dxa⟩ } }
    | .tableBorders => ((tableBordersLoop x).run R.fuel .withEmpty es).caught fun b es =>
        .ok { t with property := { t.property with borders := b.getD t.property.borders } } es
    | .tableStyle =>
      .ok { t with property := { t.property with style := (attrNamed as c!"val").or t.property.style } } es
    | .tableCellMargin => ((tableCellMarginsLoop x).run R.fuel {} es).caught fun m es =>
        .ok { t with property := { t.property with margins := m.or t.property.margins } } es
    | .gridCol => (readWidth x as es).map fun w => { t with grid := t.grid ++ [isizeAsUsize w.1] }
    | _ => .ok t es
  close := closesAt .table

/-- `<Table as ElementReader>::read`. reader/table.rs:7-79. -/
def readTable (x : ReadEnv) (R : Readers) (es : List REvent) : Read Table :=
  (tableLoop x R).run R.fuel (.withoutBorders []) es

/-! ## The document -/

/-- The readers nested at most `d` deep, each loop running for at most `d` steps. -/
def readers (x : ReadEnv) : Nat → Readers
  | 0 => ⟨0, fun _ => .running, fun _ => .running, fun _ => .running, fun _ _ => .running⟩
  | d + 1 => ⟨d + 1, readRun x (readers x d), readParagraphProperty x (readers x d), readTable x (readers x d), readParagraph x (readers x d)⟩

/-- `<Document as FromXML>::from_xml`: the loop. reader/document.rs:12-75. -/
def documentLoop (x : ReadEnv) (R : Readers) : Loop Document where
  start d q as es :=
    match elementOf q.loc with
    | .paragraph => (readParagraph x R as es).map d.addParagraph
    | .table => (R.table es).map d.addTable
    | .bookmarkStart => (readBookmarkStart as es).map fun b => d.addBookmarkStart b.1 b.2
    | .bookmarkEnd => (readBookmarkEnd as es).map d.addBookmarkEnd
    | .commentRangeStart =>
      match readCommentId as with
      | some i => .ok (d.addCommentStart (.new i)) es
      | none => .ok d es
    | .commentRangeEnd =>
      match readCommentId as with
      | some i => .ok (d.addCommentEnd i) es
      | none => .ok d es
    | .sectionProperty => (readSection x R.fuel es).map fun s => { d with sectionProperty := { base := s } }
    | .structuredDataTag => (readSdt x R es).caught fun s es =>
        match s with
        | some s => .ok (d.addSdt s) es
        | none => .ok d es
    | _ => .ok d es
  close d _ := some d
  atEnd := true

/-- `<Document as FromXML>::from_xml` of a text, in at most `d` steps per loop and nesting.
reader/document.rs:8-78. -/
def readDocument (x : ReadEnv) (d : Nat) (text : Str) : Read Document :=
  (documentLoop x (readers x d)).run d {} (readEvents text)

end Docx
