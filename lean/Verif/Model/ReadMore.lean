import Verif.Model.ReadComments

/-!
# Readers of `word/settings.xml`, of headers and footers, and of `docProps/custom.xml`
-/

namespace Docx

open Docx.Xml

/-! ## Settings -/

/-- `Settings::doc_id` for each `w15:val` of a `w15:docId`, with all braces taken out. reader/settings.rs:20-31. -/
def readDocId (s : Settings) (as : Attrs) : Settings :=
  as.foldl (fun s a => if a.1.pfx = some c!"w15" ∧ a.1.loc = c!"val" then
    { s with docId := some (a.2.filter fun c => c ≠ '{' ∧ c ≠ '}') } else s) s

/-- The loop of `<Settings as FromXML>::from_xml`. `w:zoom` is not among the elements it knows. reader/settings.rs:12-79. -/
def settingsLoop (x : ReadEnv) : Loop Settings where
  start s q as es :=
    match elementOf q.loc with
    | .docId => .ok (readDocId s as) es
    | .docVar =>
      match attrNamed as c!"name", attrNamed as c!"val" with
      | some n, some v => .ok { s with docVars := s.docVars ++ [(n, v)] } es
      | _, _ => .ok s es
    | .defaultTabStop =>
      match (attrNamed as c!"val").bind (parseFloat32 x) with
      | some i => .ok { s with defaultTabStop := toUsize i } es
      | none => .ok s es
    | .evenAndOddHeaders => .ok (if readBool as then { s with evenAndOddHeaders := true } else s) es
    | .adjustLineHeightInTable => .ok { s with adjustLineHeightInTable := true } es
    | .characterSpacingControl =>
      match (attrNamed as c!"val").bind CharacterSpacingValues.fromStr with
      | some v => .ok { s with characterSpacingControl := some v } es
      | none => .ok s es
    | _ => .ok s es
  close := closesAt .settings
  atEnd := true

/-- `<Settings as FromXML>::from_xml` of a text, in at most `d` steps. reader/settings.rs:7-82. -/
def readSettings (x : ReadEnv) (d : Nat) (text : Str) : Read Settings := (settingsLoop x).run d {} (readEvents text)

/-! ## Headers and footers -/

/-- The loop of `<Header as FromXML>::from_xml` and `<Footer as FromXML>::from_xml`: a paragraph, table or content control that is not
read is left out. reader/header.rs:12-45, reader/footer.rs:12-45. -/
def headerLoop (x : ReadEnv) (R : Readers) : Loop Header where
  start h q as es :=
    match elementOf q.loc with
    | .paragraph => (readParagraph x R as es).caught fun p es =>
        match p with
        | some p => .ok (h.addParagraph p) es
        | none => .ok h es
    | .table => (R.table es).caught fun t es =>
        match t with
        | some t => .ok (h.addTable t) es
        | none => .ok h es
    | .structuredDataTag => (readSdt x R es).caught fun s es =>
        match s with
        | some s => .ok (h.addSdt s) es
        | none => .ok h es
    | _ => .ok h es
  close h _ := some h
  atEnd := true

/-- `<Header as FromXML>::from_xml`, `<Footer as FromXML>::from_xml` of a text, in at most `d` steps per loop and nesting.
reader/header.rs:8-48, reader/footer.rs:8-48. -/
def readHeader (x : ReadEnv) (d : Nat) (text : Str) : Read Header := (headerLoop x (readers x d)).run d {} (readEvents text)

/-! ## Custom properties -/

/-- The loop over one `property` with a name: character data right behind the start of `vt:lpwstr` is its value. It passes over errors
and over the end of the document. reader/custom_properties.rs:19-42. -/
def customPropertyLoop (key : Str) : Loop (List (Str × Str)) where
  start l q _ es :=
    if q.loc = c!"lpwstr" then
      match nextEvent es with
      | (.chars c, es) => .ok (hashInsert key c l) es
      | (_, es) => .ok l es
    else .ok l es
  close := closesAt .property
  passErr := true

/-- The loop of `<CustomProps as FromXML>::from_xml`. reader/custom_properties.rs:11-52. -/
def customPropsLoop (R : Readers) : Loop (List (Str × Str)) where
  start l q as es :=
    match elementOf q.loc with
    | .property =>
      match attrNamed as c!"name" with
      | some key => (customPropertyLoop key).run R.fuel l es
      | none => .ok l es
    | _ => .ok l es
  close l _ := some l
  atEnd := true

/-- `<CustomProps as FromXML>::from_xml` of a text, in at most `d` steps per loop. reader/custom_properties.rs:6-54. -/
def readCustomProps (x : ReadEnv) (d : Nat) (text : Str) : Read (List (Str × Str)) :=
  (customPropsLoop (readers x d)).run d [] (readEvents text)

end Docx
