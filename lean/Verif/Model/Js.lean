import Verif.Model.Docx
import Verif.Model.ReadProps

/-!
# The JavaScript interface (`docx-wasm/js`, `docx-wasm/src`)

A JavaScript program puts together plain objects (`new Run().addText("a").bold()`), and `Docx.build` goes over
them and makes the corresponding calls of the Rust library. A type `Js…` below is the state of such an object;
a function `….build` is what the building makes of it.

Simplifications, for the whole file:
* JavaScript strings are sequences of Unicode characters (lone surrogates are not modelled), numbers are whole
  numbers in the range of the Rust type they become, and a string of a union type such as `"page" | "column"` is
  the value of the enumeration of the Rust library with that name.
* `undefined` and `null` are `none`.
* `lib` is the image library: the bytes it keeps and the size. If it rejects the bytes, an exception ends the build.
* A table of contents is given as what `buildWasmObject` makes of it.
-/

namespace Docx

/-! ## Helpers -/

/-- `if (x) …` for a string that may be missing: the empty string counts as missing. -/
def truthy (x : Option Str) : Option Str := x.filter fun s => decide (s ≠ [])

/-- `if (x != null) { target = target.f(x) }`. -/
def onSome {α β : Type} (x : Option α) (f : β → α → β) (b : β) : β :=
  match x with
  | some a => f b a
  | none => b

/-- `if (x) { target = target.f() }` for a flag that may be missing. -/
def onTrue {β : Type} (x : Option Bool) (f : β → β) (b : β) : β := if x = some true then f b else b

/-! ## Fonts and run properties -/

/-- `RunFonts`. docx-wasm/js/run-property.ts:207-216. -/
structure JsFonts where
  ascii : Option Str := none
  hiAnsi : Option Str := none
  eastAsia : Option Str := none
  cs : Option Str := none
  asciiTheme : Option Str := none
  hiAnsiTheme : Option Str := none
  eastAsiaTheme : Option Str := none
  csTheme : Option Str := none
  hint : Option Str := none
deriving DecidableEq

/-- The methods of `RunFonts`. docx-wasm/js/run-property.ts:218-261. -/
inductive JsFontCall where
  | ascii (s : Str) | hiAnsi (s : Str) | cs (s : Str) | eastAsia (s : Str) | asciiTheme (s : Str)
  | hiAnsiTheme (s : Str) | csTheme (s : Str) | eastAsiaTheme (s : Str) | hint (s : Str)

/-- One of them: `eastAsiaTheme` stores in `_eastAsia`. docx-wasm/js/run-property.ts:218-261. -/
def JsFonts.call (f : JsFonts) : JsFontCall → JsFonts
  | .ascii s => { f with ascii := some s }
  | .hiAnsi s => { f with hiAnsi := some s }
  | .cs s => { f with cs := some s }
  | .eastAsia s => { f with eastAsia := some s }
  | .asciiTheme s => { f with asciiTheme := some s }
  | .hiAnsiTheme s => { f with hiAnsiTheme := some s }
  | .csTheme s => { f with csTheme := some s }
  | .eastAsiaTheme s => { f with eastAsia := some s }
  | .hint s => { f with hint := some s }

/-- `RunFonts.buildWasmObject`. docx-wasm/js/run-property.ts:263-297. -/
def JsFonts.build (f : JsFonts) : RunFonts :=
  ({} : RunFonts)
  |> onSome (truthy f.ascii) RunFonts.setAscii
  |> onSome (truthy f.hiAnsi) RunFonts.setHiAnsi
  |> onSome (truthy f.cs) RunFonts.setCs
  |> onSome (truthy f.eastAsia) RunFonts.setEastAsia
  |> onSome (truthy f.asciiTheme) RunFonts.setAsciiTheme
  |> onSome (truthy f.hiAnsiTheme) RunFonts.setHiAnsiTheme
  |> onSome (truthy f.csTheme) RunFonts.setCsTheme
  |> onSome (truthy f.eastAsiaTheme) RunFonts.setEastAsiaTheme
  |> onSome (truthy f.hint) RunFonts.setHint

/-- The fonts of a paragraph, without themes and hint. docx-wasm/js/paragraph-property.ts:362-377. -/
def JsFonts.buildPlain (f : JsFonts) : RunFonts :=
  ({} : RunFonts)
  |> onSome (truthy f.ascii) RunFonts.setAscii
  |> onSome (truthy f.hiAnsi) RunFonts.setHiAnsi
  |> onSome (truthy f.cs) RunFonts.setCs
  |> onSome (truthy f.eastAsia) RunFonts.setEastAsia

/-- `convertBorderType`: kinds after the tenth become single lines. docx-wasm/js/run-property.ts:174-199. -/
def convertBorderType : BorderType → BorderType
  | .nil => .nil
  | .none_ => .none_
  | .single => .single
  | .thick => .thick
  | .double => .double
  | .dotted => .dotted
  | .dashed => .dashed
  | .dotDash => .dotDash
  | .dotDotDash => .dotDotDash
  | .triple => .triple
  | _ => .single

/-- `RunProperty`. docx-wasm/js/run-property.ts:30-49. -/
structure JsRunProperty where
  style : Option Str := none
  size : Option Nat := none
  color : Option Str := none
  highlight : Option Str := none
  vertAlign : Option VertAlignType := none
  bold : Option Bool := none
  italic : Option Bool := none
  strike : Option Bool := none
  dstrike : Option Bool := none
  caps : Option Bool := none
  underline : Option Str := none
  vanish : Option Bool := none
  fonts : Option JsFonts := none
  characterSpacing : Option Int := none
  fitText : Option (Nat × Option Nat) := none
  textBorder : Option TextBorder := none
  ins : Option (Str × Str) := none
  del : Option (Str × Str) := none
  shading : Option (Str × Str × Str) := none

/-- The formatting methods of `Run`. docx-wasm/js/run.ts:73-186. -/
inductive JsRunCall where
  | style (s : Str) | size (n : Nat) | color (s : Str) | highlight (s : Str) | vertAlign (a : VertAlignType)
  | bold | strike | dstrike | italic | underline (s : Str) | vanish | caps | fonts (f : JsFonts)
  | spacing (n : Int) | fitText (n : Nat) (id : Option Nat) | delete (author date : Str)
  | insert (author date : Str) | textBorder (kind : BorderType) (size space : Nat) (color : Str)
  | shading (kind color fill : Str)

/-- One of them: `insert` records a deletion. docx-wasm/js/run.ts:73-186, docx-wasm/js/run-property.ts:51-171. -/
def JsRunProperty.call (p : JsRunProperty) : JsRunCall → JsRunProperty
  | .style s => { p with style := some s }
  | .size n => { p with size := some n }
  | .color s => { p with color := some s }
  | .highlight s => { p with highlight := some s }
  | .vertAlign a => { p with vertAlign := some a }
  | .bold => { p with bold := some true }
  | .strike => { p with strike := some true }
  | .dstrike => { p with dstrike := some true }
  | .italic => { p with italic := some true }
  | .underline s => { p with underline := some s }
  | .vanish => { p with vanish := some true }
  | .caps => { p with caps := some true }
  | .fonts f => { p with fonts := some f }
  | .spacing n => { p with characterSpacing := some n }
  | .fitText n id => { p with fitText := some (n, id) }
  | .delete a d => { p with del := some (a, d) }
  | .insert a d => { p with del := some (a, d) }
  | .textBorder k s sp c => { p with textBorder := some ⟨k, s, c, sp⟩ }
  | .shading k c f => { p with shading := some (k, c, f) }

/-- `shading` of the bridge. docx-wasm/src/run.rs:144-151, docx-wasm/src/table_cell.rs:67-74. -/
def bridgeShading (kind color fill : Str) : Shading :=
  match ShdType.fromStr kind with
  | some t => { shdType := t, color := color, fill := fill }
  | none => { color := color, fill := fill }

/-- `setRunProperty` on a run: `_ins` and `_del` are not looked at, `"baseline"` is not passed on.
docx-wasm/js/run-property.ts:300-388, docx-wasm/src/run.rs:83-170. -/
def setRunProperty (p : RunProperty) (j : JsRunProperty) : RunProperty :=
  p
  |> onSome (truthy j.style) RunProperty.setStyle
  |> onSome j.size RunProperty.setSize
  |> onSome (truthy j.color) RunProperty.setColor
  |> onSome (truthy j.highlight) RunProperty.setHighlight
  |> onSome (j.vertAlign.filter fun a => decide (a = .superScript ∨ a = .subScript)) RunProperty.setVertAlign
  |> onTrue j.bold RunProperty.setBold
  |> onTrue j.italic RunProperty.setItalic
  |> onTrue j.strike RunProperty.setStrike
  |> onTrue j.dstrike RunProperty.setDstrike
  |> onTrue j.caps RunProperty.setCaps
  |> onSome (truthy j.underline) RunProperty.setUnderline
  |> onTrue j.vanish RunProperty.setVanish
  |> onSome j.characterSpacing RunProperty.setSpacing
  |> onSome j.fitText (fun p x => p.setFitText x.1 x.2)
  |> onSome j.textBorder (fun p x => p.setTextBorder { x with borderType := convertBorderType x.borderType })
  |> onSome j.fonts (fun p x => p.setFonts x.build)
  |> onSome j.shading (fun p x => p.setShading (bridgeShading x.1 x.2.1 x.2.2))

/-! ## Runs -/

/-- The counters the Rust library takes ids from. paragraph_id.rs:12-19, hyperlink_id.rs:7-13, pic_id.rs:7-13. -/
structure Ids where
  paragraph : Nat
  hyperlink : Nat
  pic : Nat

/-- What the image library makes of the bytes of an image in `Pic::new`: the bytes kept and the size in EMU.
elements/pic.rs:57-102. -/
abbrev ImageLib := List UInt8 → List UInt8 × Nat × Nat

/-- A step that takes ids. -/
abbrev Making (α : Type) := Ids → α × Ids

/-- `Image`. docx-wasm/js/image.ts:1-41. -/
structure JsImage where
  data : List UInt8
  size : Option (Nat × Nat) := none
  floating : Bool := false
  offsetX : Int := 0
  offsetY : Int := 0
  rot : Nat := 0

/-- The picture of an image: `_offsetY` is passed to `offset_x`. docx-wasm/js/run.ts:210-227,
docx-wasm/src/pic.rs:8-43. -/
def JsImage.build (lib : ImageLib) (i : JsImage) : Making Pic := fun s =>
  let p : Pic := { id := createPicRid s.pic, image := (lib i.data).1, size := (lib i.data).2 }
  let p := onSome i.size (fun p x => { p with size := x }) p
  let p := if i.floating then { p with positionType := .anchor } else p
  let p := { p with positionH := .offset i.offsetX }
  let p := { p with positionH := .offset i.offsetY }
  let p := { p with rot := i.rot }
  (p, { s with pic := (generateId s.pic).2 })

/-- `RunChild`. docx-wasm/js/run.ts:20-28. -/
inductive JsRunChild where
  | text (s : Str)
  | deleteText (s : Str)
  | tab
  | carriageReturn
  | brk (t : BreakType)
  | image (i : JsImage)
  | positionalTab (t : PositionalTab)
  | tc (text : Str) (omitPageNumber : Bool) (level : Option Nat) (identifier : Option Str)

/-- `Run`. docx-wasm/js/run.ts:30-32. -/
structure JsRun where
  children : List JsRunChild := []
  property : Option JsRunProperty := none

/-- The body of the loop of `Run.build`. docx-wasm/js/run.ts:189-236, docx-wasm/src/run.rs:19-81. -/
def JsRunChild.build (lib : ImageLib) (r : Run) : JsRunChild → Making Run
  | .text s => fun n => (r.addText s, n)
  | .deleteText s => fun n => (r.addDeleteText s, n)
  | .tab => fun n => (r.addTab, n)
  | .carriageReturn => fun n => (r.addCarriageReturn, n)
  | .positionalTab t => fun n => (r.addPtab t, n)
  | .brk t => fun n =>
    (match t with
      | .unsupported => r
      | t => r.addBreak t, n)
  | .image i => fun n => let p := i.build lib n; (r.addImage p.1, p.2)
  | .tc t o l i => fun n => (r.addTc { InstrTC.new t with omitsPageNumber := o, level := l, itemTypeIdentifier := i }, n)

/-- The loop. docx-wasm/js/run.ts:189-236. -/
def jsRunChildren (lib : ImageLib) (r : Run) : List JsRunChild → Making Run
  | [], n => (r, n)
  | c :: cs, n => let x := c.build lib r n; jsRunChildren lib x.1 cs x.2

/-- `Run.build`. docx-wasm/js/run.ts:187-243. -/
def JsRun.build (lib : ImageLib) (r : JsRun) : Making Run := fun n =>
  let x := jsRunChildren lib {} r.children n
  (match r.property with
    | some p => x.1.format (setRunProperty · p)
    | none => x.1, x.2)

/-! ## Paragraph properties -/

/-- `ParagraphProperty`. docx-wasm/js/paragraph-property.ts:65-90,131-139. Simplification: line spacing and frame
are the records of the Rust library, whose fields their setters fill one by one. -/
structure JsParagraphProperty where
  align : Option AlignmentType := none
  textAlignment : Option TextAlignmentType := none
  styleId : Option Str := none
  indent : Option (Int × Option SpecialIndentKind × Option Int × Option Int) := none
  numbering : Option (Nat × Nat) := none
  lineSpacing : Option LineSpacing := none
  runProperty : JsRunProperty := {}
  keepNext : Bool := false
  keepLines : Bool := false
  pageBreakBefore : Bool := false
  widowControl : Bool := false
  outlineLvl : Option Nat := none
  snapToGrid : Option Bool := none
  adjustRightInd : Option Int := none
  tabs : List Tab := []
  frame : FrameProperty := {}
  change : Option (Str × Str × Option (Nat × Nat)) := none

/-- `createParagraphAlignment`: there is no case for `"start"`. docx-wasm/js/paragraph-property.ts:141-172. -/
def createParagraphAlignment : AlignmentType → Option AlignmentType
  | .center => some .center
  | .right => some .right
  | .justified => some .justified
  | .left => some .left
  | .distribute => some .distribute
  | .both => some .both
  | .end_ => some .end_
  | .start => none

/-- `create_special_indent`. docx-wasm/src/adaptors/special_indent.rs:1-16. -/
def createSpecialIndent (kind : Option SpecialIndentKind) (size : Option Int) : Option SpecialIndentType :=
  match kind with
  | some .firstLine => some (.firstLine (size.getD 0))
  | some .hanging => some (.hanging (size.getD 0))
  | none => none

/-- The leader of a tab of a paragraph: `"underscore"` becomes none. docx-wasm/js/paragraph-property.ts:440-459. -/
def paragraphTabLeader : TabLeaderType → TabLeaderType
  | .dot => .dot
  | .heavy => .heavy
  | .hyphen => .hyphen
  | .middleDot => .middleDot
  | .none_ => .none_
  | .underscore => .none_

/-- Apply a setter to the run properties of the paragraph mark. elements/paragraph.rs:335-358. -/
def ParagraphProperty.mark (p : ParagraphProperty) (f : RunProperty → RunProperty) : ParagraphProperty :=
  p.upd fun b => { b with runProperty := f b.runProperty }

/-- Set one field of the frame. elements/paragraph.rs:481-575. -/
def ParagraphProperty.frame {α : Type} (f : FrameProperty → α → FrameProperty) (p : ParagraphProperty) (x : α) :
    ParagraphProperty :=
  p.upd fun b => { b with frameProperty := some (f (b.frameProperty.getD {}) x) }

/-- `setParagraphProperty` on a paragraph. docx-wasm/js/paragraph-property.ts:295-505,
docx-wasm/src/paragraph.rs:83-288. Only bold, colour, italic, size and fonts of the paragraph mark are passed on, and
flags only when they are on. -/
def setParagraphProperty (p : ParagraphProperty) (j : JsParagraphProperty) : ParagraphProperty :=
  let p := p
    |> onSome (j.align.bind createParagraphAlignment) ParagraphProperty.setAlign
    |> onSome j.textAlignment ParagraphProperty.setTextAlignment
    |> onSome j.adjustRightInd ParagraphProperty.setAdjustRightInd
    |> onSome j.indent (fun p x => p.setIndent (some x.1) (createSpecialIndent x.2.1 x.2.2.1) x.2.2.2 none)
    |> onSome j.numbering (fun p x => p.setNumbering x.1 x.2)
    |> onTrue j.runProperty.bold (·.mark RunProperty.setBold)
    |> onSome (truthy j.runProperty.color) (fun p x => p.mark (·.setColor x))
    |> onSome j.lineSpacing ParagraphProperty.setLineSpacing
    |> onTrue j.runProperty.italic (·.mark RunProperty.setItalic)
    |> onSome (j.runProperty.size.filter (· ≠ 0)) (fun p x => p.mark (·.setSize x))
    |> onSome j.runProperty.fonts (fun p x => p.mark (·.setFonts x.buildPlain))
    |> onTrue (some j.keepLines) (·.setKeepLines true)
    |> onSome j.snapToGrid ParagraphProperty.setSnapToGrid
    |> onTrue (some j.keepNext) (·.setKeepNext true)
    |> onTrue (some j.pageBreakBefore) (·.setPageBreakBefore true)
    |> onTrue (some j.widowControl) (·.setWidowControl true)
    |> onSome j.outlineLvl ParagraphProperty.setOutlineLvl
  let p := j.tabs.foldl (fun p t => p.addTab { t with leader := t.leader.map paragraphTabLeader }) p
  p
    |> onSome j.frame.h (ParagraphProperty.frame fun f x => { f with h := some x })
    |> onSome j.frame.hRule (ParagraphProperty.frame fun f x => { f with hRule := some x })
    |> onSome j.frame.hAnchor (ParagraphProperty.frame fun f x => { f with hAnchor := some x })
    |> onSome j.frame.hSpace (ParagraphProperty.frame fun f x => { f with hSpace := some x })
    |> onSome j.frame.vAnchor (ParagraphProperty.frame fun f x => { f with vAnchor := some x })
    |> onSome j.frame.vSpace (ParagraphProperty.frame fun f x => { f with vSpace := some x })
    |> onSome j.frame.w (ParagraphProperty.frame fun f x => { f with w := some x })
    |> onSome j.frame.wrap (ParagraphProperty.frame fun f x => { f with wrap := some x })
    |> onSome j.frame.x (ParagraphProperty.frame fun f x => { f with x := some x })
    |> onSome j.frame.xAlign (ParagraphProperty.frame fun f x => { f with xAlign := some x })
    |> onSome j.frame.y (ParagraphProperty.frame fun f x => { f with y := some x })
    |> onSome j.frame.yAlign (ParagraphProperty.frame fun f x => { f with yAlign := some x })

/-- The end of `buildParagraph`. docx-wasm/js/builder.ts:75-115; the change keeps only the numbering. -/
def finishParagraph (p : ParagraphProperty) (j : JsParagraphProperty) : ParagraphProperty :=
  setParagraphProperty p j
  |> onSome j.styleId ParagraphProperty.setStyle
  |> onSome j.runProperty.del (fun p x => p.mark (·.setDelete (.new x.1 x.2)))
  |> onSome j.runProperty.ins (fun p x => p.mark (·.setInsert (.new x.1 x.2)))
  |> onSome j.runProperty.characterSpacing ParagraphProperty.setCharacterSpacing
  |> onSome j.change (fun p x =>
      p.setChange (.new x.1 x.2.1 (onSome x.2.2 (fun q n => q.setNumbering n.1 n.2) {})))

/-! ## Paragraphs -/

mutual

/-- `ParagraphChild`. docx-wasm/js/paragraph.ts:24-34; `Insert`, `Delete` and `Hyperlink` are inlined:
docx-wasm/js/insert.ts:5-12, docx-wasm/js/delete.ts:5-13, docx-wasm/js/hyperlink.ts:14-22. -/
inductive JsParagraphChild where
  | run (r : JsRun)
  | insert (r : JsRun) (author date : Option Str)
  | delete (r : JsRun) (author date : Option Str)
  | hyperlink (v : Str) (t : HyperlinkType) (children : List JsParagraphChild)
  | bookmarkStart (id : Nat) (name : Str)
  | bookmarkEnd (id : Nat)
  | comment (c : JsComment)
  | commentEnd (id : Nat)
  | numPages
  | pageNum

/-- `Comment`: paragraphs are the only content that can be added. docx-wasm/js/comment.ts:4-35. -/
structure JsComment where
  id : Nat
  author : Option Str := none
  date : Option Str := none
  parent : Option Nat := none
  children : List JsParagraph := []

/-- `Paragraph`. docx-wasm/js/paragraph.ts:36-39. -/
structure JsParagraph where
  children : List JsParagraphChild := []
  property : JsParagraphProperty := {}
  hasNumberings : Bool := false

end

variable (lib : ImageLib)

/-- `Insert.build`. docx-wasm/js/insert.ts:24-34, docx-wasm/src/insert.rs:8-32. -/
def jsInsert (r : JsRun) (author date : Option Str) : Making Insert := fun n =>
  let x := r.build lib n
  (Insert.new x.1 |> onSome (truthy author) Insert.setAuthor |> onSome (truthy date) Insert.setDate, x.2)

/-- `Delete.build`. docx-wasm/js/delete.ts:25-35, docx-wasm/src/delete.rs:8-32. -/
def jsDelete (r : JsRun) (author date : Option Str) : Making Delete := fun n =>
  let x := r.build lib n
  (({} : Delete).addRun x.1 |> onSome (truthy author) Delete.setAuthor |> onSome (truthy date) Delete.setDate, x.2)

/-- `if (child._parentCommentId)`: 0 counts as missing. docx-wasm/js/builder.ts:136-138. -/
def parentId (x : Option Nat) : Option Nat := x.filter (· ≠ 0)

mutual

/-- The loop of `buildParagraph`, adding to a paragraph. docx-wasm/js/builder.ts:45-73,
docx-wasm/src/paragraph.rs:14-82. -/
def jsChildren (p : Paragraph) : List JsParagraphChild → Making Paragraph
  | [], n => (p, n)
  | c :: cs, n => let x := jsChild c n; jsChildren (p.addChild x.1) cs x.2

/-- One child of a paragraph. docx-wasm/js/builder.ts:48-72. -/
def jsChild : JsParagraphChild → Making ParagraphChild
  | .run r => fun n => let x := r.build lib n; (.run x.1, x.2)
  | .insert r a d => fun n => let x := jsInsert lib r a d n; (.insert x.1, x.2)
  | .delete r a d => fun n => let x := jsDelete lib r a d n; (.delete x.1, x.2)
  | .hyperlink v t cs => fun n =>
    let x := jsHyperlink (Hyperlink.new n.hyperlink v t) cs
      (match t with
        | .external => { n with hyperlink := (generateId n.hyperlink).2 }
        | .anchor => n)
    (.hyperlink x.1, x.2)
  | .bookmarkStart i s => fun n => (.bookmarkStart i s, n)
  | .bookmarkEnd i => fun n => (.bookmarkEnd i, n)
  | .comment c => fun n => let x := jsComment c n; (.commentStart x.1.id x.1, x.2)
  | .commentEnd i => fun n => (.commentEnd i, n)
  | .numPages => fun n => (.numPages .numPages, n)
  | .pageNum => fun n => (.pageNum .page, n)

/-- The loop of `buildHyperlink`: links and page numbers inside a link have no case.
docx-wasm/js/builder.ts:19-43, docx-wasm/src/hyperlink.rs:8-69. -/
def jsHyperlink (h : Hyperlink) : List JsParagraphChild → Making Hyperlink
  | [], n => (h, n)
  | .run r :: cs, n => let x := r.build lib n; jsHyperlink (h.addChild (.run x.1)) cs x.2
  | .insert r a d :: cs, n => let x := jsInsert lib r a d n; jsHyperlink (h.addChild (.insert x.1)) cs x.2
  | .delete r a d :: cs, n => let x := jsDelete lib r a d n; jsHyperlink (h.addChild (.delete x.1)) cs x.2
  | .bookmarkStart i s :: cs, n => jsHyperlink (h.addChild (.bookmarkStart i s)) cs n
  | .bookmarkEnd i :: cs, n => jsHyperlink (h.addChild (.bookmarkEnd i)) cs n
  | .comment c :: cs, n =>
    let x := jsComment c n
    jsHyperlink (h.addChild (.commentStart x.1.id x.1)) cs x.2
  | .commentEnd i :: cs, n => jsHyperlink (h.addChild (.commentEnd i)) cs n
  | .hyperlink _ _ _ :: cs, n => jsHyperlink h cs n
  | .numPages :: cs, n => jsHyperlink h cs n
  | .pageNum :: cs, n => jsHyperlink h cs n

/-- `buildComment`. docx-wasm/js/builder.ts:120-140, docx-wasm/src/comment.rs:8-44. -/
def jsComment : JsComment → Making Comment
  | ⟨id, author, date, parent, ps⟩ => fun n =>
    let x := jsCommentChildren (Comment.new id) ps n
    (x.1 |> onSome (truthy author) Comment.setAuthor |> onSome (truthy date) Comment.setDate
      |> onSome (parentId parent) Comment.setParent, x.2)

/-- Its loop. docx-wasm/js/builder.ts:122-128. -/
def jsCommentChildren (c : Comment) : List JsParagraph → Making Comment
  | [], n => (c, n)
  | p :: ps, n => let x := jsParagraph p n; jsCommentChildren (c.addParagraph x.1) ps x.2

/-- `buildParagraph`. docx-wasm/js/builder.ts:45-118. The flag `has_numbering` of the Rust paragraph stays off:
docx-wasm/src/paragraph.rs:118-123. -/
def jsParagraph : JsParagraph → Making Paragraph
  | ⟨cs, pr, _⟩ => fun n =>
    let g := generateParaId n.paragraph
    let x := jsChildren (Paragraph.new g.1) cs { n with paragraph := g.2 }
    (x.1.format (finishParagraph · pr), x.2)

end

/-! ## Tables -/

/-- `TablePosition.build`: the distance on the right is passed on as the distance on the left. docx-wasm/js/table.ts:56-83. -/
def jsTablePosition (j : TablePositionProperty) : TablePositionProperty :=
  ({} : TablePositionProperty)
  |> onSome j.leftFromText (fun p x => { p with leftFromText := some x })
  |> onSome j.rightFromText (fun p x => { p with leftFromText := some x })
  |> onSome j.verticalAnchor (fun p x => { p with verticalAnchor := some x })
  |> onSome j.horizontalAnchor (fun p x => { p with horizontalAnchor := some x })
  |> onSome j.positionXAlignment (fun p x => { p with positionXAlignment := some x })
  |> onSome j.positionYAlignment (fun p x => { p with positionYAlignment := some x })
  |> onSome j.positionX (fun p x => { p with positionX := some x })
  |> onSome j.positionY (fun p x => { p with positionY := some x })

/-- The property of a table. docx-wasm/js/table.ts:86-99. -/
structure JsTableProperty where
  indent : Option Int := none
  align : Option TableAlignmentType := none
  width : Option Nat := none
  styleId : Option Str := none
  cellMargins : TableCellMargins := {}
  layout : Option TableLayoutType := none
  position : Option TablePositionProperty := none

/-- The end of `Table.build` and `setTableProperty`: the width is not passed on. docx-wasm/js/table.ts:229-244,266-320,
docx-wasm/src/table.rs:31-93. -/
def setTableProperty (p : TableProperty) (j : JsTableProperty) : TableProperty :=
  let p := p
    |> onSome (truthy j.styleId) (fun p x => { p with style := some x })
    |> onSome j.position (fun p x => { p with position := some (jsTablePosition x) })
  let p := { p with indent := some ⟨j.indent.getD 0, .dxa⟩ }
  let p := { p with margins := some j.cellMargins }
  p
    |> onSome j.align (fun p x => { p with justification := x.toStr })
    |> onSome j.layout (fun p x => { p with layout := some x })

/-- The borders of a cell: `TableCellBorder` by position. docx-wasm/js/table-cell-border.ts:13-38,
docx-wasm/js/table-cell-borders.ts:13-21. A missing kind becomes a single line. -/
structure JsCellBorder where
  kind : Option BorderType := none
  size : Nat := 2
  color : Str := c!"000000"
deriving DecidableEq

/-- `TableCellBorders`. docx-wasm/js/table-cell-borders.ts:13-21. -/
structure JsCellBorders where
  top : Option JsCellBorder := some {}
  left : Option JsCellBorder := some {}
  bottom : Option JsCellBorder := some {}
  right : Option JsCellBorder := some {}
  insideH : Option JsCellBorder := some {}
  insideV : Option JsCellBorder := some {}
  tl2br : Option JsCellBorder := none
  tr2bl : Option JsCellBorder := none
deriving DecidableEq

/-- `TableCell.setBorder`: the position in lower case is the name of the field, so borders inside are stored in fields
nothing looks at. docx-wasm/js/table-cell.ts:135-139. -/
def JsCellBorders.set (b : JsCellBorders) (x : JsCellBorder) : TableCellBorderPosition → JsCellBorders
  | .top => { b with top := some x }
  | .left => { b with left := some x }
  | .bottom => { b with bottom := some x }
  | .right => { b with right := some x }
  | .insideH => b
  | .insideV => b
  | .tl2br => { b with tl2br := some x }
  | .tr2bl => { b with tr2bl := some x }

/-- One border passed on. docx-wasm/js/table-cell.ts:173-262, docx-wasm/src/table_cell_border.rs. -/
def JsCellBorder.put (pos : TableCellBorderPosition) (p : TableCellProperty) (x : JsCellBorder) : TableCellProperty :=
  { p with borders := some ((p.borders.getD {}).set
      { position := pos, size := x.size, color := x.color
        borderType := match x.kind with
          | some k => convertBorderType k
          | none => .single }) }

/-- `buildCellBorders`. docx-wasm/js/table-cell.ts:172-295. -/
def buildCellBorders (p : TableCellProperty) (b : JsCellBorders) (m : CellMargins) : TableCellProperty :=
  p
  |> onSome b.top (JsCellBorder.put .top)
  |> onSome b.right (JsCellBorder.put .right)
  |> onSome b.bottom (JsCellBorder.put .bottom)
  |> onSome b.left (JsCellBorder.put .left)
  |> onSome b.insideH (JsCellBorder.put .insideH)
  |> onSome b.insideV (JsCellBorder.put .insideV)
  |> onSome b.tl2br (JsCellBorder.put .tl2br)
  |> onSome b.tr2bl (JsCellBorder.put .tr2bl)
  |> onSome m.top (fun p x => { p with margins := some { p.margins.getD {} with top := some x } })
  |> onSome m.right (fun p x => { p with margins := some { p.margins.getD {} with right := some x } })
  |> onSome m.bottom (fun p x => { p with margins := some { p.margins.getD {} with bottom := some x } })
  |> onSome m.left (fun p x => { p with margins := some { p.margins.getD {} with left := some x } })

/-- The property of a cell. docx-wasm/js/table-cell.ts:57-72. -/
structure JsCellProperty where
  borders : JsCellBorders := {}
  verticalMerge : Option VMergeType := none
  verticalAlign : Option VAlignType := none
  gridSpan : Option Nat := none
  width : Option Nat := none
  textDirection : Option TextDirectionType := none
  shading : Option (Str × Str × Str) := none
  margins : CellMargins := {}

/-- The end of `TableCell.build`. docx-wasm/js/table-cell.ts:315-362, docx-wasm/src/table_cell.rs:45-100. -/
def setCellProperty (p : TableCellProperty) (j : JsCellProperty) : TableCellProperty :=
  let p := p
    |> onSome (j.verticalMerge.filter fun x => decide (x ≠ .unsupported)) (fun p x => { p with verticalMerge := some x })
    |> onSome (j.verticalAlign.filter fun x => decide (x ≠ .unsupported)) (fun p x => { p with verticalAlign := some x })
    |> onSome j.gridSpan (fun p x => { p with gridSpan := some x })
    |> onSome j.width (fun p x => { p with width := some ⟨x, .dxa⟩ })
    |> onSome j.textDirection (fun p x => { p with textDirection := some x })
  buildCellBorders p j.borders j.margins
  |> onSome j.shading (fun p x => { p with shading := some (bridgeShading x.1 x.2.1 x.2.2) })

/-- The properties of a row. docx-wasm/js/table-row.ts:5-11. -/
structure JsRowProperty where
  height : Option Nat := none
  hRule : Option HeightRule := none
  del : Option (Str × Str) := none
  ins : Option (Str × Str) := none

/-- The end of the loop of `Table.build`: a height of 0 is not passed on. docx-wasm/js/table.ts:199-225,
docx-wasm/src/table_row.rs:30-58. Simplification: the text of a height, an `f32`, is its decimal text. -/
def setRowProperty (p : TableRowProperty) (j : JsRowProperty) : TableRowProperty :=
  p
  |> onSome (j.height.filter (· ≠ 0)) (fun p x => { p with rowHeight := some (dec x) })
  |> onSome j.del (fun p x => { p with del := some (.new x.1 x.2) })
  |> onSome j.ins (fun p x => { p with ins := some (.new x.1 x.2) })
  |> onSome j.hRule (fun p x => { p with heightRule := some x })

mutual

/-- What a cell holds. docx-wasm/js/table-cell.ts:75. -/
inductive JsCellChild where
  | paragraph (p : JsParagraph)
  | table (t : JsTable)
  | toc (t : Toc)

/-- `TableCell`. docx-wasm/js/table-cell.ts:74-79. -/
structure JsCell where
  children : List JsCellChild := []
  property : JsCellProperty := {}
  hasNumberings : Bool := false

/-- `TableRow`. docx-wasm/js/table-row.ts:5-11. -/
structure JsRow where
  cells : List JsCell := []
  property : JsRowProperty := {}
  hasNumberings : Bool := false

/-- `Table`. docx-wasm/js/table.ts:110-116. -/
structure JsTable where
  rows : List JsRow := []
  grid : List Nat := []
  property : JsTableProperty := {}
  hasNumberings : Bool := false

end

mutual

/-- The loop of `TableCell.build`. docx-wasm/js/table-cell.ts:299-313, docx-wasm/src/table_cell.rs:21-44: no flag
is set. -/
def jsCellChildren (c : Cell) : List JsCellChild → Making Cell
  | [], n => (c, n)
  | x :: xs, n => let y := jsCellChild x n; jsCellChildren { c with children := c.children ++ [y.1] } xs y.2

/-- One item of a cell. docx-wasm/js/table-cell.ts:300-312. -/
def jsCellChild : JsCellChild → Making CellContent
  | .paragraph p => fun n => let x := jsParagraph lib p n; (.paragraph x.1, x.2)
  | .table t => fun n => let x := jsTable t n; (.table x.1, x.2)
  | .toc t => fun n => (.toc t, n)

/-- `TableCell.build`. docx-wasm/js/table-cell.ts:297-363. -/
def jsCell : JsCell → Making Cell
  | ⟨cs, pr, _⟩ => fun n =>
    let x := jsCellChildren {} cs n
    ({ x.1 with property := setCellProperty x.1.property pr }, x.2)

/-- The inner loop of `Table.build`. docx-wasm/js/table.ts:194-197, docx-wasm/src/table_row.rs:23-28. -/
def jsCells (r : Row) : List JsCell → Making Row
  | [], n => (r, n)
  | c :: cs, n => let x := jsCell c n; jsCells { r with cells := r.cells ++ [x.1] } cs x.2

/-- One row of `Table.build`. docx-wasm/js/table.ts:193-226. -/
def jsRow : JsRow → Making Row
  | ⟨cs, pr, _⟩ => fun n =>
    let x := jsCells (Row.new []) cs n
    ({ x.1 with property := setRowProperty x.1.property pr }, x.2)

/-- The outer loop of `Table.build`. docx-wasm/js/table.ts:192-227, docx-wasm/src/table.rs:22-25. -/
def jsRows (t : Table) : List JsRow → Making Table
  | [], n => (t, n)
  | r :: rs, n => let x := jsRow r n; jsRows (t.addRow x.1) rs x.2

/-- `Table.build`. docx-wasm/js/table.ts:190-244. -/
def jsTable : JsTable → Making Table
  | ⟨rs, g, pr, _⟩ => fun n =>
    let x := jsRows (Table.new []) rs n
    ({ x.1 with grid := g, property := setTableProperty x.1.property pr }, x.2)

end

/-! ## The document -/

/-- What a document holds. docx-wasm/js/index.ts:38-44. -/
inductive JsChild where
  | paragraph (p : JsParagraph)
  | table (t : JsTable)
  | bookmarkStart (id : Nat) (name : Str)
  | bookmarkEnd (id : Nat)
  | toc (t : Toc)

/-- `Docx`: its content and the flag about numberings. docx-wasm/js/index.ts:37-47. Not modelled here: numberings,
settings, properties, sections, web extensions, custom items and styles. -/
structure JsDocx where
  children : List JsChild := []
  hasNumberings : Bool := false

/-- The flag of an item that is added. docx-wasm/js/index.ts:59-65,77-83. -/
def JsChild.flagged : JsChild → Bool
  | .paragraph p => p.hasNumberings
  | .table t => t.hasNumberings
  | _ => false

/-- `addParagraph`, `addTable`, `addBookmarkStart`, `addBookmarkEnd`, `addTableOfContents`.
docx-wasm/js/index.ts:49-83. -/
def JsDocx.add (d : JsDocx) (c : JsChild) : JsDocx :=
  { children := d.children ++ [c], hasNumberings := d.hasNumberings || c.flagged }

/-- The body of the loop of `createDocx`: a table goes straight to the document. docx-wasm/js/index.ts:378-391,
docx-wasm/src/doc.rs:21-45. -/
def JsChild.build (d : DocxFile) : JsChild → Making DocxFile
  | .paragraph p => fun n => let x := jsParagraph lib p n; (d.addParagraph x.1, x.2)
  | .table t => fun n => let x := jsTable lib t n; ({ d with document := d.document.addTable x.1 }, x.2)
  | .bookmarkStart i s => fun n => (d.addBookmarkStart i s, n)
  | .bookmarkEnd i => fun n => (d.addBookmarkEnd i, n)
  | .toc t => fun n => (d.addToc t, n)

/-- The loop. docx-wasm/js/index.ts:378-391. -/
def jsItems (d : DocxFile) : List JsChild → Making DocxFile
  | [], n => (d, n)
  | c :: cs, n => let x := c.build lib d n; jsItems x.1 cs x.2

/-- `createDocx`, then the flag set by `build(has_numberings)` before it packs. docx-wasm/js/index.ts:375-391,677-682,
docx-wasm/src/doc.rs:12-17,210-221. -/
def JsDocx.build (d : JsDocx) : Making DocxFile := fun n =>
  let x := jsItems lib DocxFile.new d.children n
  (x.1.noteNumbering d.hasNumberings, x.2)

end Docx
