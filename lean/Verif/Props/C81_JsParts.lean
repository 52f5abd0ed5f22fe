import Verif.Lemmas.JsFile

/-!
# C81: headers and footers given in JavaScript
-/

namespace Docx.Props

open Docx Docx.Xml Docx.Spec

variable (lib : ImageLib)

theorem slots_call (side : Side) (f : JsFile) (c : JsFileCall) :
    Side.slots side (f.call c) = List.zipWith (fun k o => (side.gives k c).or o) [0, 1, 2] (Side.slots side f) := by
  cases side <;> cases c <;> rfl

theorem slots_calls (side : Side) : ∀ (cs : List JsFileCall) (f : JsFile),
    Side.slots side (cs.foldl JsFile.call f) =
      List.zipWith (fun k o => (cs.filterMap (side.gives k)).getLast?.or o) [0, 1, 2] (Side.slots side f)
  | [], f => by cases side <;> rfl
  | c :: cs, f => by
    rw [List.foldl_cons, slots_calls side cs, slots_call]
    have h : ∀ (k : Nat) (o : Option JsPart), (cs.filterMap (side.gives k)).getLast?.or ((side.gives k c).or o) =
        ((c :: cs).filterMap (side.gives k)).getLast?.or o := by
      intro k o
      cases hg : side.gives k c with
      | none => rw [List.filterMap_cons_none hg]; rfl
      | some x =>
        rw [List.filterMap_cons_some hg, List.getLast?_cons]
        cases (cs.filterMap (side.gives k)).getLast? <;> rfl
    cases side <;> simp only [Side.slots, List.zipWith_cons_cons, List.zipWith_nil_left, h]

theorem slots_last (side : Side) (cs : List JsFileCall) : Side.slots side (jsFileOf cs) = side.lastGiven cs := by
  rw [jsFileOf, slots_calls]
  cases side <;> simp [Side.slots, Side.lastGiven]

theorem parts_found {side : Side} {f : JsFile} {n m : Ids} {d : DocxFile} {env : Env} {w : World} {es : List Entry}
    (hb : f.build lib n = some (d, m)) (ht : ∀ t ∈ jsTocs f.docx, TocMade t) (he : ∀ l, (env.links l).Perm l) (h : Packed env d w es) :
    ∃ rids, SectionReferences es side 0 rids ∧ List.Forall₂ (JsPartFound lib es side) (Side.slots side f) rids := by
  have k := file_built lib hb
  have hm := file_made lib k ht
  obtain ⟨hs, h1, h2, h3⟩ := k.parts side
  have h0 : (sectionProperties d.document)[0]? = some d.document.sectionProperty := rfl
  refine ⟨_, packed_references h h0 k.referred, ?_⟩
  have hall : ∀ x, some x ∈ side.parts d.document.sectionProperty → ResolvesTo es side x.1 x.2 := by
    intro x hx
    have hown : Side.all side d.document = Side.own side d.document.sectionProperty ++
        (sectionsOf d.document).flatMap (Side.own side) := Side.all_eq side _
    obtain ⟨j, hj⟩ := List.mem_iff_getElem?.1 (List.mem_filterMap.2 ⟨_, hx, rfl⟩ : x ∈ Side.own side d.document.sectionProperty)
    change (Side.own side d.document.sectionProperty)[j]? = some x at hj
    have hlt : j < (Side.own side d.document.sectionProperty).length := (List.getElem?_eq_some_iff.1 hj).1
    have hj' : (Side.all side d.document)[j]? = some x := by rw [hown, List.getElem?_append_left hlt, hj]
    have hr : x.1 = side.rid (j + 1) := by
      unfold Side.own at hj
      rw [h2] at hj
      have := ridden_get side.rid hs 0 j x hj
      rwa [Nat.zero_add] at this
    have hc : j < Side.count side d := by
      rw [h3, ← ridden_length side.rid hs 0, ← h2]
      exact hlt
    rw [hr]
    exact packed_resolves k.sound he hm h hj' hc
  have hh : (side.parts d.document.sectionProperty).map (Option.map Prod.snd) = hs := by rw [h2, ridden_heads]
  rw [← hh, List.forall₂_map_right_iff] at h1
  rw [List.forall₂_map_right_iff]
  have hmem : ∀ (l : List (Option (Str × Header))) (ps : List (Option JsPart)), (∀ o ∈ l, o ∈ side.parts d.document.sectionProperty) →
      List.Forall₂ (fun p o => PartMade lib p (Option.map Prod.snd o)) ps l →
      List.Forall₂ (fun p o => JsPartFound lib es side p (Option.map Prod.fst o)) ps l := by
    intro l ps hl hf
    induction hf with
    | nil => exact .nil
    | @cons p o ps l hp _ ih =>
      refine .cons ?_ (ih fun o ho => hl o (.tail _ ho))
      cases o with
      | none =>
        cases hp
        exact .none
      | some x =>
        have hx := hall x (hl _ (.head _))
        generalize hv : Option.map Prod.snd (some x) = v at hp
        cases hp with
        | none => cases hv
        | some p n =>
          simp only [Option.map_some, Option.some.injEq] at hv
          rw [hv] at hx
          exact .some _ (part_content lib p n) hx
  exact hmem _ _ (fun _ h => h) h1

/-- **C81.** Whatever methods are called on a document in JavaScript, in whatever order and however often, the package has a reference to a
header (or footer) exactly for those kinds of pages one was given for, and it leads to a part that holds the content last given. -/
theorem C81_found (side : Side) (cs : List JsFileCall) (n m : Ids) (d : DocxFile) (env : Env) (w : World) (es : List Entry)
    (hb : (jsFileOf cs).build lib n = some (d, m)) (ht : ∀ t ∈ jsTocs (jsFileOf cs).docx, TocMade t)
    (he : ∀ l, (env.links l).Perm l) (h : Packed env d w es) :
    ∃ rids, SectionReferences es side 0 rids ∧ List.Forall₂ (JsPartFound lib es side) (side.lastGiven cs) rids := by
  rw [← slots_last]
  exact parts_found lib hb ht he h

/-- **C81.** No relationship of the main document to a part of the package is left without its part. -/
theorem C81_targets (f : JsFile) (n m : Ids) (d : DocxFile) (env : Env) (w : World) (es : List Entry)
    (hb : f.build lib n = some (d, m)) (ht : ∀ t ∈ jsTocs f.docx, TocMade t) (he : ∀ l, (env.links l).Perm l) (h : Packed env d w es) :
    ∃ rs, HasRelations es c!"word/_rels/document.xml.rels" rs ∧ ∀ r ∈ rs, r.mode = none → HasFile es (targetEntry r.target) := by
  have k := file_built lib hb
  refine sound_targets k.sound (fun side i hi => ?_) he (file_made lib k ht) h
  obtain ⟨hs, _, h2, h3⟩ := k.parts side
  have hlt : i < (Side.own side d.document.sectionProperty).length := by
    unfold Side.own
    rw [h2, ridden_length, ← h3]
    exact hi
  have : (Side.all side d.document)[i]? = some (Side.own side d.document.sectionProperty)[i] := by
    rw [Side.all_eq, List.getElem?_append_left hlt, List.getElem?_eq_getElem hlt]
  obtain ⟨_, _, _, _, _, _, h4⟩ := packed_part h this
  exact ⟨_, h4, by simp⟩

theorem file_related {f : JsFile} {n m : Ids} {d : DocxFile} {env : Env} {w : World} {es : List Entry} (hb : f.build lib n = some (d, m))
    (ht : ∀ t ∈ jsTocs f.docx, TocMade t) (he : ∀ l, (env.links l).Perm l) (h : Packed env d w es) :
    NumberingRelated es ↔ f.docx.hasNumberings = true := by
  have k := file_built lib hb
  rw [numbering_related_iff k.sound he (file_made lib k ht).nameable h, k.flag]

theorem calls_docx : ∀ (cs : List JsFileCall) (f : JsFile),
    (cs.foldl JsFile.call f).docx = (cs.filterMap fun | .add c => some c | _ => none).foldl JsDocx.add f.docx
  | [], f => rfl
  | c :: cs, f => by
    rw [List.foldl_cons, calls_docx cs]
    cases c <;> rfl

/-- **C80 fails** for headers and footers: however many paragraphs in them are numbered, the numbering part is related only if one in the
body is. -/
theorem C80_fails_header (f : JsFile) (n m : Ids) (d : DocxFile) (env : Env) (w : World) (es : List Entry) (hd : MadeJsDocx f.docx)
    (hn : jsNumbered f.docx = false) (p : JsPart) (_ : f.header = some p) (_ : jsPartNumbered p = true)
    (hb : f.build lib n = some (d, m)) (ht : ∀ t ∈ jsTocs f.docx, TocMade t) (he : ∀ l, (env.links l).Perm l) (h : Packed env d w es) :
    ¬ NumberingRelated es := by
  rw [file_related lib hb ht he h, madeJs_docx hd, hn]
  exact Bool.false_ne_true

def jsTitle (s : Str) : JsPart := ({} : JsPart).add (.paragraph { children := [.run { children := [.text s] }] })

def jsHeaded : List JsFileCall :=
  [.evenFooter (jsTitle c!"even"), .header (jsTitle c!"old"), .firstHeader (jsTitle c!"front"), .header (jsTitle c!"new"),
    .add (.paragraph { children := [.run { children := [.text c!"body"] }] })]

def isReady {α : Type} (p : α → Bool) : Option α → Bool
  | some x => p x
  | none => false

theorem of_ready {α : Type} {p : α → Bool} {o : Option α} (h : isReady p o = true) : ∃ x, o = some x ∧ p x = true := by
  cases o with
  | none => cases h
  | some x => exact ⟨x, rfl, h⟩

example : Side.header.lastGiven jsHeaded = [some (jsTitle c!"new"), some (jsTitle c!"front"), none] := rfl

example : Side.footer.lastGiven jsHeaded = [none, none, some (jsTitle c!"even")] := rfl

example : JsPart.content sampleLib (jsTitle c!"new") ≠ JsPart.content sampleLib (jsTitle c!"old") := by decide +kernel

def jsNumberedHeader : JsFile :=
  jsFileOf [.header (({} : JsPart).add (.paragraph (({} : JsParagraph).call (.numbering 2 0)))), .add (.paragraph {})]

example : ∃ d m es, (jsFileOf jsHeaded).build sampleLib ⟨1, 1, 1⟩ = some (d, m) ∧ (∀ t ∈ jsTocs (jsFileOf jsHeaded).docx, TocMade t) ∧
    Packed anEnv d {} es := by
  obtain ⟨x, h, hx⟩ := of_ready (p := fun x : DocxFile × Ids => writableB x.1 && decide (x.1.customItems.length = 0))
    (o := (jsFileOf jsHeaded).build sampleLib ⟨1, 1, 1⟩) (by decide +kernel)
  obtain ⟨es, hp⟩ := packs_plainly hx
  exact ⟨x.1, x.2, es, h, (fun t ht => by cases ht), hp⟩

example : ∃ d m es p, MadeJsDocx jsNumberedHeader.docx ∧ jsNumbered jsNumberedHeader.docx = false ∧ jsNumberedHeader.header = some p ∧
    jsPartNumbered p = true ∧ jsNumberedHeader.build sampleLib ⟨1, 1, 1⟩ = some (d, m) ∧ (∀ t ∈ jsTocs jsNumberedHeader.docx, TocMade t) ∧
    Packed anEnv d {} es := by
  obtain ⟨x, h, hx⟩ := of_ready (p := fun x : DocxFile × Ids => writableB x.1 && decide (x.1.customItems.length = 0))
    (o := jsNumberedHeader.build sampleLib ⟨1, 1, 1⟩) (by decide +kernel)
  obtain ⟨es, hp⟩ := packs_plainly hx
  exact ⟨x.1, x.2, es, _, .addParagraph _ _ .new .new, rfl, rfl, rfl, h, (fun t ht => by cases ht), hp⟩

end Docx.Props
