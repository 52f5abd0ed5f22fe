import Verif.Model.ReadBody
import Verif.Model.PackageParts

/-!
# Readers of `word/numbering.xml` and `word/styles.xml`
-/

namespace Docx

open Docx.Xml

/-- The last attribute with the local name, as a `usize`; a value that is not one is an error.
reader/attributes/indent_level.rs:7-16, reader/numberings.rs:20-26,63-69. -/
def readNumber (name : Str) (as : Attrs) (es : List REvent) : Read Nat :=
  foldAttrs (fun n k v es => if k = name then orErr (usizeFromStr v) es else .ok n es) 0 as es

/-- The loop of `<Level as ElementReader>::read`. The state is the level under construction, with the style id as
it is read. reader/level.rs:30-109. The indent of a `w:ind` beside the `w:pPr` is read and then thrown away: the
paragraph property is set afterwards (level.rs:96-99). -/
def levelLoop (x : ReadEnv) (R : Readers) : Loop Level where
  start l q as es :=
    match elementOf q.loc with
    | .paragraphStyle => (firstValue as es).map fun v => { l with pstyle := some v }
    | .paragraphProperty => (readParagraphProperty x R es).caught fun p es =>
        match p with
        | some p => .ok { l with paragraphProperty := p } es
        | none => .ok l es
    | .runProperty => (readRunProperty x R es).caught fun p es =>
        match p with
        | some p => .ok { l with runProperty := p } es
        | none => .ok l es
    | .start => (firstValue as es).bind fun v es => (orErr (usizeFromStr v) es).map fun n => { l with start := n }
    | .numberFormat => (firstValue as es).map fun v => { l with format := v }
    | .suffix => (firstValue as es).bind fun v es => (orErr (LevelSuffixType.fromStr v) es).map fun t => { l with suffix := t }
    | .isLgl => .ok { l with isLgl := true } es
    | .levelText => (firstValue as es).map fun v => { l with text := v }
    | .levelRestart => (firstValue as es).map fun v =>
        match u32FromStr v with
        | some n => { l with levelRestart := some n }
        | none => l
    | .levelJustification => (firstValue as es).map fun v => { l with jc := v }
    | .indent => (readIndent x as es).map fun _ => l
    | _ => .ok l es
  close := closesAt .level

/-- `Level::paragraph_style` of the id that was read: `ParagraphStyle::new` escapes it. reader/level.rs:93-95,
elements/level.rs:63-66. -/
def Level.withStyle (l : Level) : Level := { l with pstyle := l.pstyle.map escapeOwned }

/-- `<Level as ElementReader>::read`. reader/level.rs:8-110. -/
def readLevel (x : ReadEnv) (R : Readers) (as : Attrs) (es : List REvent) : Read Level :=
  (readNumber c!"ilvl" as es).bind fun n es =>
    ((levelLoop x R).run R.fuel { level := n, start := 0, format := c!"decimal", text := [], jc := c!"left" } es).map
      Level.withStyle

/-- The loop of `<LevelOverride as ElementReader>::read`. reader/level_override.rs:13-45. -/
def levelOverrideLoop (x : ReadEnv) (R : Readers) : Loop LevelOverride where
  start o q as es :=
    match elementOf q.loc with
    | .startOverride => (firstValue as es).map fun v =>
        match usizeFromStr v with
        | some n => { o with overrideStart := some n }
        | none => o
    | .level => (readLevel x R as es).caught fun l es =>
        match l with
        | some l => .ok { o with overrideLevel := some l } es
        | none => .ok o es
    | _ => .ok o es
  close := closesAt .lvlOverride

/-- `<LevelOverride as ElementReader>::read`. reader/level_override.rs:7-49. -/
def readLevelOverride (x : ReadEnv) (R : Readers) (as : Attrs) (es : List REvent) : Read LevelOverride :=
  (firstValue as es).bind fun v es => (orErr (usizeFromStr v) es).bind fun n es =>
    (levelOverrideLoop x R).run R.fuel { level := n } es

/-- The loop over one `w:abstractNum`: errors of the parser are passed over. reader/numberings.rs:28-59. -/
def abstractNumLoop (x : ReadEnv) (R : Readers) : Loop AbstractNumbering where
  start a q as es :=
    match elementOf q.loc with
    | .level => (readLevel x R as es).map fun l => { a with levels := a.levels ++ [l] }
    | .styleLink => (firstValue as es).map fun v => { a with styleLink := some v }
    | .numStyleLink => (firstValue as es).map fun v => { a with numStyleLink := some v }
    | _ => .ok a es
  close := closesAt .abstractNumbering
  passErr := true

/-- The loop over one `w:num`: errors of the parser are passed over. reader/numberings.rs:73-105. -/
def numLoop (x : ReadEnv) (R : Readers) : Loop Numbering where
  start n q as es :=
    match elementOf q.loc with
    | .abstractNumberingId =>
      (firstValue as es).bind fun v es => (orErr (usizeFromStr v) es).map fun i => { n with abstractNumId := i }
    | .lvlOverride => (readLevelOverride x R as es).caught fun o es =>
        match o with
        | some o => .ok { n with overrides := n.overrides ++ [o] } es
        | none => .ok n es
    | _ => .ok n es
  close := closesAt .num
  passErr := true

/-- `<Numberings as FromXML>::from_xml`: the loop. reader/numberings.rs:11-121. -/
def numberingsLoop (x : ReadEnv) (R : Readers) : Loop Numberings where
  start s q as es :=
    match elementOf q.loc with
    | .abstractNumbering => (readNumber c!"abstractNumId" as es).bind fun i es =>
        ((abstractNumLoop x R).run R.fuel { id := i } es).map fun a => { s with abstractNums := s.abstractNums ++ [a] }
    | .num => (readNumber c!"numId" as es).bind fun i es =>
        ((numLoop x R).run R.fuel { id := i, abstractNumId := 0 } es).map fun n => { s with numberings := s.numberings ++ [n] }
    | _ => .ok s es
  close := closesAt .numbering
  atEnd := true

/-- `<Numberings as FromXML>::from_xml` of a text, in at most `d` steps per loop and nesting. reader/numberings.rs:8-123. -/
def readNumberings (x : ReadEnv) (d : Nat) (text : Str) : Read Numberings :=
  (numberingsLoop x (readers x d)).run d {} (readEvents text)

/-- The loop of `<Style as ElementReader>::read`. reader/style.rs:24-82. -/
def styleLoop (x : ReadEnv) (R : Readers) : Loop Style where
  start s q as es :=
    match elementOf q.loc with
    | .name => (firstValue as es).map s.setName
    | .basedOn =>
      match attrNamed as c!"val" with
      | some v => .ok { s with basedOn := some (escapeOwned v) } es
      | none => .ok s es
    | .link =>
      match attrNamed as c!"val" with
      | some v => .ok { s with link := some (escapeOwned v) } es
      | none => .ok s es
    | .paragraphProperty => (readParagraphProperty x R es).caught fun p es =>
        match p with
        | some p => .ok { s with paragraphProperty := p } es
        | none => .ok s es
    | .runProperty => (readRunProperty x R es).map fun p => { s with runProperty := p }
    | .tableProperty =>
      ((tablePropertyLoop x R.fuel).run R.fuel { borders := .withEmpty } es).caught fun p es =>
        match p with
        | some p => .ok { s with tableProperty := p } es
        | none => .ok s es
    | .tableCellProperty => ((cellPropertyLoop x R.fuel).run R.fuel {} es).caught fun p es =>
        match p with
        | some p => .ok { s with tableCellProperty := p } es
        | none => .ok s es
    | _ => .ok s es
  close := closesAt .style

/-- The attributes of `w:style`. reader/style.rs:13-22. -/
def readStyleAttrs (as : Attrs) (es : List REvent) : Read (Str × StyleType) :=
  foldAttrs (fun r k v es =>
    if k = c!"styleId" then .ok (v, r.2) es
    else if k = c!"type" then (orErr (StyleType.fromStr v) es).map fun t => (r.1, t)
    else .ok r es) ([], .paragraph) as es

/-- `<Style as ElementReader>::read`. reader/style.rs:9-83. -/
def readStyle (x : ReadEnv) (R : Readers) (as : Attrs) (es : List REvent) : Read Style :=
  (readStyleAttrs as es).bind fun r es => (styleLoop x R).run R.fuel (Style.new r.1 r.2) es

/-- `<DocDefaults as ElementReader>::read`: the loop. reader/doc_defaults.rs:7-40. -/
def docDefaultsLoop (x : ReadEnv) (R : Readers) : Loop DocDefaults where
  start d q _ es :=
    match elementOf q.loc with
    | .runProperty => (readRunProperty x R es).map fun p => { d with runProperty := p }
    | .paragraphProperty => (readParagraphProperty x R es).map fun p => { d with paragraphProperty := p }
    | _ => .ok d es
  close := closesAt .docDefaults

/-- `<Styles as FromXML>::from_xml`: the loop. It does not stop at the end of the document. reader/styles.rs:11-43. -/
def stylesLoop (x : ReadEnv) (R : Readers) : Loop Styles where
  start s q as es :=
    match elementOf q.loc with
    | .style => (readStyle x R as es).caught fun t es =>
        match t with
        | some t => .ok { s with styles := s.styles ++ [t] } es
        | none => .ok s es
    | .docDefaults => ((docDefaultsLoop x R).run R.fuel {} es).caught fun d es =>
        match d with
        | some d => .ok { s with docDefaults := d } es
        | none => .ok s es
    | _ => .ok s es
  close := closesAt .styles

/-- `<Styles as FromXML>::from_xml` of a text, in at most `d` steps per loop and nesting. reader/styles.rs:8-45. -/
def readStyles (x : ReadEnv) (d : Nat) (text : Str) : Read Styles :=
  (stylesLoop x (readers x d)).run d {} (readEvents text)

end Docx
