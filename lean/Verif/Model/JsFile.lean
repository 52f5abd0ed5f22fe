import Verif.Model.JsAdd
import Verif.Model.JsStyle

/-!
# The rest of a document made in JavaScript

Headers and footers, numberings, styles, settings, page set-up, defaults, properties, web extensions and custom items
(docx-wasm/js/index.ts), and how they are handed to the Rust library.
-/

namespace Docx

variable (lib : ImageLib)

/-! ## Headers and footers -/

/-- What a header or footer holds. docx-wasm/js/header.ts:6, docx-wasm/js/footer.ts:6. -/
inductive JsPartChild where
  | paragraph (p : JsParagraph)
  | table (t : JsTable)

/-- `Header` and `Footer`. docx-wasm/js/header.ts:4-6, docx-wasm/js/footer.ts:4-6. -/
structure JsPart where
  children : List JsPartChild := []
  hasNumberings : Bool := false

/-- The flag of what is put into a header. docx-wasm/js/header.ts:8-22. -/
def JsPartChild.flagged : JsPartChild → Bool
  | .paragraph p => p.hasNumberings
  | .table t => t.hasNumberings

/-- `addParagraph`, `addTable` of a header or footer. docx-wasm/js/header.ts:8-22, docx-wasm/js/footer.ts:8-22. -/
def JsPart.add (h : JsPart) (c : JsPartChild) : JsPart :=
  { children := h.children ++ [c], hasNumberings := h.hasNumberings || c.flagged }

/-- The loop over the content of a header. docx-wasm/js/index.ts:459-465, docx-wasm/src/header.rs. -/
def jsPartChildren (h : Header) : List JsPartChild → Making Header
  | [], n => (h, n)
  | .paragraph p :: cs, n => let x := jsParagraph lib p n; jsPartChildren (h.addParagraph x.1) cs x.2
  | .table t :: cs, n => let x := jsTable lib t n; jsPartChildren (h.addTable x.1) cs x.2

/-- One header or footer, if it is there: it is made and given to the document with `f`.
docx-wasm/js/index.ts:457-527. -/
def jsPart (f : DocxFile → Header → DocxFile) (x : Option JsPart) (d : DocxFile) : Making DocxFile := fun n =>
  match x with
  | none => (d, n)
  | some p => let h := jsPartChildren lib {} p.children n; (f d h.1, h.2)

/-! ## Numberings -/

/-- `Level`. docx-wasm/js/level.ts:14-39. Of the paragraph properties only the indent can be set. -/
structure JsLevel where
  id : Nat
  start : Nat
  format : Str
  text : Str
  jc : Str
  indent : Option (Int × Option SpecialIndentKind × Option Int) := none
  runProperty : JsRunProperty := {}
  suffix : LevelSuffixType := .tab

/-- The three states of a flag. docx-wasm/js/index.ts:306-328. -/
def onFlag {β : Type} (x : Option Bool) (yes no : β → β) (b : β) : β :=
  match x with
  | none => b
  | some true => yes b
  | some false => no b

/-- `buildLevel`: highlight, underline and vanish are not passed on. docx-wasm/js/index.ts:287-373, docx-wasm/src/level.rs. -/
def JsLevel.build (l : JsLevel) : Level :=
  { level := l.id, start := l.start, format := l.format, text := l.text, jc := l.jc, suffix := l.suffix
    runProperty := ({} : RunProperty)
      |> onTrue l.runProperty.bold RunProperty.setBold
      |> onTrue l.runProperty.italic RunProperty.setItalic
      |> onFlag l.runProperty.bold RunProperty.setBold RunProperty.disableBold
      |> onFlag l.runProperty.italic RunProperty.setItalic RunProperty.disableItalic
      |> onFlag l.runProperty.strike RunProperty.setStrike RunProperty.disableStrike
      |> onSome (l.runProperty.size.filter (· ≠ 0)) RunProperty.setSize
      |> onSome (truthy l.runProperty.color) RunProperty.setColor
      |> onSome l.runProperty.fonts (fun p x => p.setFonts x.buildPlain)
      |> onSome l.runProperty.characterSpacing RunProperty.setSpacing
    paragraphProperty := ({} : ParagraphProperty)
      |> onSome l.indent (fun p x => p.setIndent (some x.1) (createSpecialIndent x.2.1 x.2.2) none none) }

/-- `AbstractNumbering`. docx-wasm/js/abstract-numbering.ts:3-12. -/
structure JsAbstractNumbering where
  id : Nat
  levels : List JsLevel := []

/-- docx-wasm/js/index.ts:393-400, docx-wasm/src/abstract_numbering.rs. -/
def JsAbstractNumbering.build (a : JsAbstractNumbering) : AbstractNumbering := { id := a.id, levels := a.levels.map JsLevel.build }

/-- One override of `createDocx`: of the level given as JSON five fields are passed on. docx-wasm/js/index.ts:404-420,
docx-wasm/js/level.ts:132-152. Simplification: the JSON form of a level is the level. -/
def jsOverride (o : LevelOverride) : LevelOverride :=
  { level := o.level, overrideStart := o.overrideStart
    overrideLevel := o.overrideLevel.map fun l => { level := l.level, start := l.start, format := l.format, text := l.text, jc := l.jc } }

/-- docx-wasm/js/index.ts:402-422, docx-wasm/src/numbering.rs. -/
def jsNumbering (n : Numbering) : Numbering := { id := n.id, abstractNumId := n.abstractNumId, overrides := n.overrides.map jsOverride }

/-! ## The document -/

/-- `Docx` with everything but styles. docx-wasm/js/index.ts:37-48, docx-wasm/js/section-property.ts:12-27,
docx-wasm/js/settings.ts:11-16, docx-wasm/js/doc-props.ts:1-4, docx-wasm/js/doc-defaults.ts:8-10. Simplifications: the
order of custom properties is not that of JavaScript (the Rust library keeps them in a hash table); the records of the page set-up, of line spacing and of web extensions are those of the
Rust library, and the properties of a web extension are given with the method of the Rust library. -/
structure JsFile where
  docx : JsDocx := {}
  abstractNumberings : List JsAbstractNumbering := []
  numberings : List Numbering := []
  docId : Option Str := none
  docVars : List (Str × Str) := []
  defaultTabStop : Nat := 840
  adjustLineHeightInTable : Bool := false
  characterSpacingControl : Option CharacterSpacingValues := none
  header : Option JsPart := none
  firstHeader : Option JsPart := none
  evenHeader : Option JsPart := none
  footer : Option JsPart := none
  firstFooter : Option JsPart := none
  evenFooter : Option JsPart := none
  pageSize : PageSize := {}
  pageMargin : Option PageMargin := none
  titlePg : Bool := false
  pageNumType : Option PageNumType := none
  docGrid : Option (DocGridType × Option Nat × Option Int) := none
  styles : List JsStyle := []
  defaultFonts : Option JsFonts := none
  defaultSize : Option Nat := none
  defaultSpacing : Option Int := none
  defaultLineSpacing : Option LineSpacing := none
  createdAt : Option Str := none
  updatedAt : Option Str := none
  customProperties : List (Str × Str) := []
  taskpanes : Bool := false
  webExtensions : List WebExtension := []
  customItems : List (Str × Str) := []

/-- The methods of `Docx`. docx-wasm/js/index.ts:50-230. -/
inductive JsFileCall where
  | add (c : JsChild) | addStyle (s : JsStyle)
  | addAbstractNumbering (a : JsAbstractNumbering) | addNumbering (n : Numbering)
  | docId (s : Str) | defaultTabStop (n : Nat) | createdAt (s : Str) | updatedAt (s : Str) | customProperty (name item : Str)
  | addDocVar (name v : Str)
  | header (h : JsPart) | firstHeader (h : JsPart) | evenHeader (h : JsPart)
  | footer (h : JsPart) | firstFooter (h : JsPart) | evenFooter (h : JsPart)
  | titlePg | pageSize (w h : Nat) | pageMargin (m : PageMargin) | pageOrientation (o : PageOrientationType)
  | docGrid (t : DocGridType) (linePitch : Option Nat) (charSpace : Option Int)
  | adjustLineHeightInTable | characterSpacingControl (v : CharacterSpacingValues)
  | defaultSize (n : Nat) | defaultFonts (f : JsFonts) | defaultCharacterSpacing (n : Int) | defaultLineSpacing (s : LineSpacing)
  | taskpanes | webExtension (e : WebExtension) | addCustomItem (id xml : Str)

/-- One of them. docx-wasm/js/index.ts:50-230. Simplification: a margin is given whole (docx-wasm/js/section-property.ts:40-43 fills in
missing sides). -/
def JsFile.call (f : JsFile) : JsFileCall → JsFile
  | .add c => { f with docx := f.docx.add c }
  | .addStyle s => { f with styles := f.styles ++ [s] }
  | .addAbstractNumbering a => { f with abstractNumberings := f.abstractNumberings ++ [a] }
  | .addNumbering n => { f with numberings := f.numberings ++ [n] }
  | .docId s => { f with docId := some s }
  | .defaultTabStop n => { f with defaultTabStop := n }
  | .createdAt s => { f with createdAt := some s }
  | .updatedAt s => { f with updatedAt := some s }
  | .customProperty name item => { f with customProperties := hashInsert name item f.customProperties }
  | .addDocVar name v => { f with docVars := f.docVars ++ [(name, v)] }
  | .header h => { f with header := some h }
  | .firstHeader h => { f with firstHeader := some h }
  | .evenHeader h => { f with evenHeader := some h }
  | .footer h => { f with footer := some h }
  | .firstFooter h => { f with firstFooter := some h }
  | .evenFooter h => { f with evenFooter := some h }
  | .titlePg => { f with titlePg := true }
  | .pageSize w h => { f with pageSize := { f.pageSize with w := w, h := h } }
  | .pageMargin m => { f with pageMargin := some m }
  | .pageOrientation o => { f with pageSize := { f.pageSize with orient := some o } }
  | .docGrid t l c => { f with docGrid := some (t, l, c) }
  | .adjustLineHeightInTable => { f with adjustLineHeightInTable := true }
  | .characterSpacingControl v => { f with characterSpacingControl := some v }
  | .defaultSize n => { f with defaultSize := some n }
  | .defaultFonts x => { f with defaultFonts := some x }
  | .defaultCharacterSpacing n => { f with defaultSpacing := some n }
  | .defaultLineSpacing s => { f with defaultLineSpacing := some s }
  | .taskpanes => { f with taskpanes := true }
  | .webExtension e => { f with webExtensions := f.webExtensions ++ [e] }
  | .addCustomItem id xml => { f with customItems := f.customItems ++ [(id, xml)] }

/-- A call from `createDocx` into the bridge: one with a builder method of the same effect, or one of the three that go to the settings or to
the document itself. docx-wasm/src/doc.rs:47-209. -/
inductive BridgeCall where
  | builder (c : Call)
  | adjustLineHeight
  | characterSpacing (v : CharacterSpacingValues)
  | docGrid (g : DocGrid)

/-- It runs; `none` is a panic. docx-wasm/src/doc.rs:47-209. -/
def BridgeCall.run (d : DocxFile) : BridgeCall → Option DocxFile
  | .builder c => d.call c
  | .adjustLineHeight => some { d with settings := { d.settings with adjustLineHeightInTable := true } }
  | .characterSpacing v => some { d with settings := { d.settings with characterSpacingControl := some v } }
  | .docGrid g => some (d.updBase fun b => { b with docGrid := some g })

/-- Several of them. docx-wasm/js/index.ts:393-658. -/
def bridgeCalls (d : DocxFile) : List BridgeCall → Option DocxFile
  | [] => some d
  | c :: cs => match c.run d with
    | none => none
    | some d => bridgeCalls d cs

/-- A call if there is a value. -/
def callOn {α : Type} (x : Option α) (f : α → Call) : List BridgeCall := (x.map fun a => .builder (f a)).toList

/-- The calls before the headers. docx-wasm/js/index.ts:393-455. -/
def JsFile.before (f : JsFile) : List BridgeCall :=
  f.abstractNumberings.map (fun a => .builder (.addAbstractNumbering a.build))
  ++ f.numberings.map (fun n => .builder (.addNumbering (jsNumbering n)))
  ++ callOn (truthy f.docId) .docId
  ++ (if f.adjustLineHeightInTable then [.adjustLineHeight] else [])
  ++ (f.characterSpacingControl.map .characterSpacing).toList
  ++ [.builder (.defaultTabStop f.defaultTabStop)]
  ++ f.docVars.map (fun v => .builder (.addDocVar v.1 v.2))

/-- The calls after the footers. docx-wasm/js/index.ts:529-658, docx-wasm/src/doc.rs:188-206. -/
def JsFile.after (f : JsFile) : List BridgeCall :=
  callOn f.pageMargin .pageMargin
  ++ [.builder (.pageSize f.pageSize.w f.pageSize.h)]
  ++ callOn f.pageSize.orient .pageOrient
  ++ (if f.titlePg then [.builder .titlePg] else [])
  ++ callOn f.pageNumType .pageNumType
  ++ (f.docGrid.map fun g => BridgeCall.docGrid ⟨g.1, g.2.1, g.2.2⟩).toList
  ++ f.styles.map (fun s => .builder (.addStyle s.build))
  ++ callOn f.defaultFonts (fun x => .defaultFonts x.buildPlain)
  ++ callOn (f.defaultSize.filter (· ≠ 0)) .defaultSize
  ++ callOn (f.defaultSpacing.filter (· ≠ 0)) .defaultSpacing
  ++ callOn f.defaultLineSpacing .defaultLineSpacing
  ++ callOn (truthy f.createdAt) .createdAt
  ++ callOn (truthy f.updatedAt) .updatedAt
  ++ f.customProperties.map (fun p => .builder (.customProperty p.1 p.2))
  ++ callOn (truthy f.updatedAt) .updatedAt
  ++ (if f.taskpanes then .builder .taskpanes :: f.webExtensions.map (fun e => .builder (.webExtension e)) else [])
  ++ f.customItems.map (fun c => .builder (.addCustomItem c.1 c.2))

/-- The headers, then the footers. docx-wasm/js/index.ts:457-527. -/
def JsFile.parts (f : JsFile) (d : DocxFile) : Making DocxFile := fun n =>
  let a := jsPart lib DocxFile.setHeader f.header d n
  let b := jsPart lib DocxFile.setFirstHeader f.firstHeader a.1 a.2
  let c := jsPart lib DocxFile.setEvenHeader f.evenHeader b.1 b.2
  let x := jsPart lib DocxFile.setFooter f.footer c.1 c.2
  let y := jsPart lib DocxFile.setFirstFooter f.firstFooter x.1 x.2
  jsPart lib DocxFile.setEvenFooter f.evenFooter y.1 y.2

/-- `createDocx` and the flag set by `build`; `none` is a panic. docx-wasm/js/index.ts:375-661,677-682,
docx-wasm/src/doc.rs:12-17,210-221. -/
def JsFile.build (f : JsFile) (n : Ids) : Option (DocxFile × Ids) :=
  let x := jsItems lib DocxFile.new f.docx.children n
  (bridgeCalls x.1 f.before).bind fun d =>
    let y := f.parts lib d x.2
    (bridgeCalls y.1 f.after).map fun d => (d.noteNumbering f.docx.hasNumberings, y.2)

end Docx
