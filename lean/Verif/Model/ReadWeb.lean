import Verif.Model.ReadBody

/-!
# Readers of `word/webSettings.xml` and of themes
-/

namespace Docx

open Docx.Xml

/-- `Div`. elements/div.rs:5-12. -/
inductive Div where
  | mk (id : Str) (left right top bottom : Nat) (children : List Div)

/-- A number as `f32::from_str(&val)` and `as usize` give it, if it is there and can be read. reader/div.rs:22-28 and the like. -/
def readMargin (x : ReadEnv) (as : Attrs) (old : Nat) : Nat :=
  match (attrNamed as c!"val").bind (parseFloat32 x) with
  | some i => toUsize i
  | none => old

/-- The loop over `w:divsChild`. reader/div.rs:50-71. -/
def divsChildLoop (child : Attrs → List REvent → Read Div) : Loop (List Div) where
  start l q as es :=
    match elementOf q.loc with
    | .div => (child as es).caught fun c es =>
        match c with
        | some c => .ok (l ++ [c]) es
        | none => .ok l es
    | _ => .ok l es
  close := closesAt .divsChild

/-- The loop of `<Div as ElementReader>::read`, with the reader of the divs in it. reader/div.rs:13-84. -/
def divLoop (x : ReadEnv) (fuel : Nat) (child : Attrs → List REvent → Read Div) : Loop Div where
  start d q as es :=
    match d with
    | .mk id l r t b cs =>
      match elementOf q.loc with
      | .marginLeft => .ok (.mk id (readMargin x as l) r t b cs) es
      | .marginRight => .ok (.mk id l (readMargin x as r) t b cs) es
      | .marginTop => .ok (.mk id l r (readMargin x as t) b cs) es
      | .marginBottom => .ok (.mk id l r t (readMargin x as b) cs) es
      | .divsChild => ((divsChildLoop child).run fuel cs es).map (.mk id l r t b)
      | _ => .ok d es
  close := closesAt .div

/-- `<Div as ElementReader>::read`, for at most so many steps per loop and nestings. reader/div.rs:6-86. -/
def readDiv (x : ReadEnv) (fuel : Nat) : Nat → Attrs → List REvent → Read Div
  | 0, _, _ => .running
  | d + 1, as, es => (divLoop x fuel (readDiv x fuel d)).run fuel (.mk ((attrNamed as c!"id").getD []) 0 0 0 0 []) es

/-- The loop of `<WebSettings as FromXML>::from_xml`. reader/web_settings.rs:11-35. -/
def webSettingsLoop (x : ReadEnv) (fuel : Nat) : Loop (List Div) where
  start l q as es :=
    match elementOf q.loc with
    | .div => (readDiv x fuel fuel as es).caught fun c es =>
        match c with
        | some c => .ok (l ++ [c]) es
        | none => .ok l es
    | _ => .ok l es
  close := closesAt .webSettings
  atEnd := true

/-- `<WebSettings as FromXML>::from_xml`: the divs. reader/web_settings.rs:7-37. -/
def readWebSettings (x : ReadEnv) (d : Nat) (text : Str) : Read (List Div) := (webSettingsLoop x d).run d [] (readEvents text)

/-- `FontGroup`; the fonts are scripts with typefaces. elements/font_scheme.rs:7-21. -/
structure FontGroup where
  latin : Str := []
  ea : Str := []
  cs : Str := []
  fonts : List (Str × Str) := []

/-- `FontScheme`, the one field of `Theme`. elements/font_scheme.rs:27-30, documents/theme.rs:9-11. -/
structure FontScheme where
  major : FontGroup := {}
  minor : FontGroup := {}

/-- `read_script_and_typeface`: the last attribute of each name. reader/font_group.rs:18-35. -/
def readFont (as : Attrs) : Option (Str × Str) :=
  match (as.filter fun a => a.1.loc = c!"script").getLast?, (as.filter fun a => a.1.loc = c!"typeface").getLast? with
  | some s, some t => some (s.2, t.2)
  | _, _ => none

/-- The loop of `<FontGroup as ElementReader>::read`; the names are those of `AXMLElement`. reader/font_group.rs:37-88,
reader/xml_element.rs:483-506. -/
def fontGroupLoop : Loop FontGroup where
  start f q as es :=
    if q.loc = c!"latin" then .ok { f with latin := (attrNamed as c!"typeface").getD f.latin } es
    else if q.loc = c!"ea" then .ok { f with ea := (attrNamed as c!"typeface").getD f.ea } es
    else if q.loc = c!"cs" then .ok { f with cs := (attrNamed as c!"typeface").getD f.cs } es
    else if q.loc = c!"font" then .ok { f with fonts := f.fonts ++ (readFont as).toList } es
    else .ok f es
  close f q := if q.loc = c!"majorFont" ∨ q.loc = c!"minorFont" then none else some f

/-- The loop of `<FontScheme as ElementReader>::read`. reader/font_scheme.rs:8-54. -/
def fontSchemeLoop (fuel : Nat) : Loop FontScheme where
  start f q _ es :=
    if q.pfx = some c!"a" then
      if q.loc = c!"majorFont" then (fontGroupLoop.run fuel {} es).caught fun g es => .ok { f with major := g.getD f.major } es
      else if q.loc = c!"minorFont" then (fontGroupLoop.run fuel {} es).caught fun g es => .ok { f with minor := g.getD f.minor } es
      else .ok f es
    else .ok f es
  close f q := if q.loc = c!"fontScheme" then none else some f

/-- The loop of `<Theme as FromXML>::from_xml`. reader/theme.rs:6-35. -/
def themeLoop (fuel : Nat) : Loop FontScheme where
  start t q _ es :=
    if q.loc = c!"fontScheme" then ((fontSchemeLoop fuel).run fuel {} es).caught fun f es => .ok (f.getD t) es
    else .ok t es
  close t _ := some t
  atEnd := true

/-- `<Theme as FromXML>::from_xml`. reader/theme.rs:6-35. -/
def readTheme (d : Nat) (text : Str) : Read FontScheme := (themeLoop d).run d {} (readEvents text)

end Docx
