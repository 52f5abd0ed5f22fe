import Verif.Props.C63_Ends

/-!
# C63: a part that is cut off within a property or a list
-/

namespace Docx.Props

open Docx Docx.Spec Docx.Xml

/-- Relationships of a package that has custom properties. -/
def customRels : Str :=
  c!"<Relationships><Relationship Id=\"rId1\" Type=\"http://schemas.openxmlformats.org/officeDocument/2006/relationships/custom-properties\" Target=\"docProps/custom.xml\"/></Relationships>"

/-- Custom properties that are cut off within a tag. -/
def cutProperties : Str := c!"<Properties><property name=\"a\"><vt:lpwstr"

/-- Numberings that are cut off within a tag. -/
def cutNumberings : Str := c!"<w:numbering><w:abstractNum w:abstractNumId=\"1\"><w:lvl"

set_option maxRecDepth 20000 in
/-- **C63.** An archive whose custom properties are cut off within a tag of a property is never read to its end, whatever else is in it:
the reader passes over the error and then over the end of the document. -/
theorem C63_cut_property_runs_forever (e : FileEnv) (n : Nat) (es : List Entry) (t1 : readText es c!"[Content_Types].xml" = some c!"<Types/>")
    (t2 : readText es c!"_rels/.rels" = some customRels) (t3 : readText es c!"docProps/custom.xml" = some cutProperties) :
    readDocx e n es = .running := by
  have t4 : contentTypesFromXml c!"<Types/>" = some [] := by decide +kernel
  unfold readDocx
  rw [t1]
  dsimp only [Got.ofOption, Got.bind]
  rw [t4, t2]
  dsimp only [Got.ofOption, Got.bind]
  have he : readEvents customRels = [.start ⟨none, c!"Relationships"⟩ [], .start ⟨none, c!"Relationship"⟩
      [(⟨none, c!"Id"⟩, c!"rId1"), (⟨none, c!"Type"⟩, officeType c!"custom-properties"), (⟨none, c!"Target"⟩, c!"docProps/custom.xml")],
      .«end» ⟨none, c!"Relationship"⟩, .«end» ⟨none, c!"Relationships"⟩, .endDocument] := by decide +kernel
  have hp : (readPackageRels n customRels).got = .running ∨
      (readPackageRels n customRels).got = .ok ⟨[(officeType c!"custom-properties", c!"rId1", c!"docProps/custom.xml")]⟩ := by
    unfold readPackageRels
    rw [he]
    match n with
    | 0 => exact .inl rfl
    | 1 => exact .inl rfl
    | 2 => exact .inl rfl
    | 3 => exact .inl rfl
    | 4 => exact .inl rfl
    | n + 5 => exact .inr rfl
  rcases hp with hp | hp
  · rw [hp]
  · rw [hp]
    dsimp only
    have hc : readCustom e.x n es ⟨[(officeType c!"custom-properties", c!"rId1", c!"docProps/custom.xml")]⟩ = .running := by
      unfold readCustom
      have : Rels.findTarget ⟨[(officeType c!"custom-properties", c!"rId1", c!"docProps/custom.xml")]⟩ (officeType c!"custom-properties")
          = some (officeType c!"custom-properties", c!"rId1", c!"docProps/custom.xml") := by decide +kernel
      rw [this]
      dsimp only [Option.bind]
      rw [t3]
      have hv : readEvents cutProperties = [.start ⟨none, c!"Properties"⟩ [], .start ⟨none, c!"property"⟩ [(⟨none, c!"name"⟩, c!"a")], .error] := by
        decide +kernel
      unfold readCustomProps
      dsimp only
      rw [hv]
      have hl : ∀ m l, (customPropertyLoop c!"a").run m l [.error] = .running := by
        intro m l
        match m with
        | 0 => rfl
        | m + 1 => exact run_over rfl m l
      match n with
      | 0 => rfl
      | 1 => rfl
      | n + 2 =>
        have : (customPropsLoop (readers e.x (n + 2))).run (n + 2) [] [.start ⟨none, c!"Properties"⟩ [], .start ⟨none, c!"property"⟩ [(⟨none, c!"name"⟩, c!"a")], .error]
            = ((customPropertyLoop c!"a").run (readers e.x (n + 2)).fuel [] [.error]).bind
              fun s es => (customPropsLoop (readers e.x (n + 2))).run n s es := rfl
        rw [this, hl]
        rfl
    rw [hc]

/-- **C63.** Numberings that are cut off within a tag of a list are never read to their end. -/
theorem C63_cut_numbering_runs_forever (x : ReadEnv) (n : Nat) : readNumberings x n cutNumberings = .running := by
  have hv : readEvents cutNumberings = [.start ⟨some c!"w", c!"numbering"⟩ [],
      .start ⟨some c!"w", c!"abstractNum"⟩ [(⟨some c!"w", c!"abstractNumId"⟩, c!"1")], .error] := by decide +kernel
  have hl : ∀ R m a, (abstractNumLoop x R).run m a [.error] = .running := by
    intro R m a
    match m with
    | 0 => rfl
    | m + 1 => exact run_over rfl m a
  unfold readNumberings
  rw [hv]
  match n with
  | 0 => rfl
  | 1 => rfl
  | n + 2 =>
    have h2 : ∀ es, readNumber c!"abstractNumId" [(⟨some c!"w", c!"abstractNumId"⟩, c!"1")] es = .ok 1 es := fun es => rfl
    have : (numberingsLoop x (readers x (n + 2))).run (n + 2) {} [.start ⟨some c!"w", c!"numbering"⟩ [],
        .start ⟨some c!"w", c!"abstractNum"⟩ [(⟨some c!"w", c!"abstractNumId"⟩, c!"1")], .error]
        = ((readNumber c!"abstractNumId" [(⟨some c!"w", c!"abstractNumId"⟩, c!"1")] [.error]).bind fun i es =>
            ((abstractNumLoop x (readers x (n + 2))).run (readers x (n + 2)).fuel { id := i } es).map fun a => { abstractNums := [a] }).bind
          fun s es => (numberingsLoop x (readers x (n + 2))).run n s es := rfl
    rw [this, h2]
    dsimp only [Read.bind]
    rw [hl]
    rfl

/-! ## Witnesses -/

/-- An archive with such properties. -/
def cutArchive : List Entry := [⟨c!"[Content_Types].xml", .text c!"<Types/>"⟩, ⟨c!"_rels/.rels", .text customRels⟩,
  ⟨c!"docProps/custom.xml", .text cutProperties⟩, ⟨c!"word/_rels/document.xml.rels", .text c!"<Relationships/>"⟩,
  ⟨c!"word/document.xml", .text c!"<w:document/>"⟩]

set_option maxRecDepth 20000 in
example (e : FileEnv) (n : Nat) : readDocx e n cutArchive = .running :=
  C63_cut_property_runs_forever e n cutArchive (by decide +kernel) (by decide +kernel) (by decide +kernel)

end Docx.Props
