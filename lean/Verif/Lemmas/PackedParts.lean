import Verif.Lemmas.Slots

/-!
# The parts of a written package
-/

namespace Docx

set_option linter.unusedSimpArgs false

open Docx.Spec Docx.Xml

theorem own_bare (side : Side) (p : SectionProperty) :
    Side.own side (bareSectionProperty p) = (Side.own side p).map fun x => (x.1, bareHeader x.2) := by
  have h : ∀ a b c : Option (Str × Header), [barePart a, barePart b, barePart c].filterMap id =
      ([a, b, c].filterMap id).map fun x => (x.1, bareHeader x.2) := by
    intro a b c
    cases a <;> cases b <;> cases c <;> rfl
  cases side
  · exact h p.header p.firstHeader p.evenHeader
  · exact h p.footer p.firstFooter p.evenFooter

theorem all_bare (side : Side) (d : Document) :
    (Side.all side d).map (fun x => (x.1, bareHeader x.2)) = ((sectionProperties d).map bareSectionProperty).flatMap (Side.own side) := by
  unfold Side.all
  rw [List.map_flatMap, flatMap_map']
  exact flatMap_congr' fun p _ => (own_bare side p).symm

/-- Preparing a package keeps the headers and footers, up to the ids of paragraphs and pictures. -/
theorem prepared_parts (side : Side) (env : Env) (d : DocxFile) (w : World) :
    (Side.all side (d.preparePackage env w).1.document).map (fun x => (x.1, bareHeader x.2)) =
      (Side.all side d.document).map fun x => (x.1, bareHeader x.2) := by
  rw [all_bare, all_bare, preparePackage_sections]

theorem headers_all (d : Document) : d.headers = (Side.all .header d).map Prod.snd := by
  rw [headers_eq, headersOf, Side.all, List.map_flatMap]
  rfl
theorem footers_all (d : Document) : d.footers = (Side.all .footer d).map Prod.snd := by
  rw [footers_eq, footersOf, Side.all, List.map_flatMap]
  rfl

/-- What the names of the parts begin with. -/
def Side.kind : Side → Str
  | .header => c!"header"
  | .footer => c!"footer"

theorem step_part (side : Side) (env : Env) (d : DocxFile) (p : PackageMetadata) (j : Nat) (h : Header)
    (e : ((Side.all side d.document).map Prod.snd)[j]? = some h) :
    .write (partName (Side.kind side) (j + 1)) (side.write h) ∈ zipDocxSteps env d p := by
  cases side
  · exact step_header env d p j h (by rw [headers_all]; exact e)
  · exact step_footer env d p j h (by rw [footers_all]; exact e)

/-- The part for the `j`-th header or footer. -/
theorem packed_part {side : Side} {env : Env} {d : DocxFile} {w : World} {es : List Entry} (h : Packed env d w es) {j : Nat}
    {x : Str × Header} (e : (Side.all side d.document)[j]? = some x) :
    ∃ h' s g g', bareHeader h' = bareHeader x.2 ∧ side.write h' g = some (.ok s, g') ∧
      ⟨partName (Side.kind side) (j + 1), .text s⟩ ∈ es := by
  have hf := packed_fits h
  have hp := prepared_parts side env d w
  generalize d.preparePackage env w = q at hf hp
  have h1 : ((Side.all side q.1.document).map fun x => (x.1, bareHeader x.2))[j]? = some (x.1, bareHeader x.2) := by
    rw [hp, List.getElem?_map, e]
    rfl
  rw [List.getElem?_map] at h1
  cases h2 : (Side.all side q.1.document)[j]? with
  | none => rw [h2] at h1; cases h1
  | some y =>
    rw [h2] at h1
    simp only [Option.map_some, Option.some.injEq, Prod.mk.injEq] at h1
    obtain ⟨s, g, g', h3, h4⟩ := fits_write hf (step_part side env q.1 q.2.1 j y.2 (by rw [List.getElem?_map, h2]; rfl))
    exact ⟨y.2, s, g, g', h1.2, h3, h4⟩

/-- The part for a header or footer that was counted exists, when no slot was set twice. -/
theorem packed_part_file {side : Side} {cs : List Call} {env : Env} {d : DocxFile} {w : World} {es : List Entry}
    (hc : DocxFile.new.calls cs = some d) (hp : Plainly cs) (ho : Once side cs) (h : Packed env d w es) {j : Nat}
    (hj : j < Side.count side d) : HasFile es (partName (Side.kind side) (j + 1)) := by
  rw [← all_length hp ho hc] at hj
  obtain ⟨_, _, _, _, _, _, h3⟩ := packed_part h (List.getElem?_eq_getElem hj)
  exact ⟨_, h3, by simp⟩

/-- The parts for a custom item exist. -/
theorem packed_item {env : Env} {d : DocxFile} {w : World} {es : List Entry} (h : Packed env d w es) {j : Nat}
    (hj : j < d.customItems.length) :
    HasFile es (itemRelsName (j + 1)) ∧ HasFile es (itemName (j + 1)) ∧ HasFile es (itemPropsName (j + 1)) := by
  have hf := packed_fits h
  have hb := preparePackage_books env d w
  generalize d.preparePackage env w = q at hf hb
  have e : q.1.customItems[j]? = some d.customItems[j] := by
    rw [hb.2.2.2.1]
    exact List.getElem?_eq_getElem hj
  obtain ⟨h1, h2, h3⟩ := step_customItem env q.1 q.2.1 j _ e
  exact ⟨fits_file hf h1, fits_file hf h2, fits_file hf h3⟩

end Docx
