import Verif.Props.C85_JsReadBack
import Verif.Props.C52_PageSetup
import Verif.Lemmas.FileRead

/-!
# C85: the page set-up of a document made in JavaScript
-/

namespace Docx.Props

open Docx.Spec

variable (lib : ImageLib)

theorem same_always {α : Type} : ∀ (l : List BridgeCall) (z : α), l.foldl (fun x _ => x) z = z
  | [], _ => rfl
  | _ :: l, z => same_always l z

theorem view_columns : View (fun d => (d.document.sectionProperty.base.columns, d.document.sectionProperty.base.space,
    d.document.sectionProperty.base.textDirection, d.document.sectionProperty.base.sectionType)) (fun x _ => x) := by view_field

def effNumber : Option PageNumType → BridgeCall → Option PageNumType
  | _, .builder (.pageNumType t) => some t
  | x, _ => x

theorem view_number : View (fun d => d.document.sectionProperty.base.pageNumType) effNumber := by view_field

theorem calls_number : ∀ (cs : List JsFileCall) (f : JsFile), (cs.foldl JsFile.call f).pageNumType = f.pageNumType
  | [], _ => rfl
  | c :: cs, f => by
    rw [List.foldl_cons, calls_number cs]
    cases c <;> rfl

theorem no_number (cs : List JsFileCall) (n m : Ids) (d : DocxFile) (hb : (jsFileOf cs).build lib n = some (d, m)) :
    d.document.sectionProperty.base.pageNumType = none := by
  have h := view_number.built lib hb
  run_field h [effNumber]
  have e : (jsFileOf cs).pageNumType = none := calls_number cs {}
  rw [h, e]
  rfl

theorem ridden_rid (rid : Nat → Str) : ∀ (l : List (Option Header)) (k : Nat) (x : Str × Header), some x ∈ ridden rid k l → ∃ j, x.1 = rid j
  | [], _, _, h => by cases h
  | none :: l, k, x, h => by
    rw [ridden] at h
    rcases List.mem_cons.1 h with h | h
    · cases h
    · exact ridden_rid rid l k x h
  | some y :: l, k, x, h => by
    rw [ridden] at h
    rcases List.mem_cons.1 h with h | h
    · cases h
      exact ⟨_, rfl⟩
    · exact ridden_rid rid l (k + 1) x h

theorem rid_plainValue (side : Side) (j : Nat) : PlainValue (side.rid j) := by
  cases side
  · exact Plain.append (plain_lit (s := c!"rIdHeader") (by decide)) (plain_dec j)
  · exact Plain.append (plain_lit (s := c!"rIdFooter") (by decide)) (plain_dec j)

theorem references_kept {f : JsFile} {n m : Ids} {d : DocxFile} (hb : f.build lib n = some (d, m)) (side : Side) :
    List.Forall₂ KeptReference referenceTypes (side.references d.document.sectionProperty.base) := by
  have k := file_built lib hb
  obtain ⟨hs, _, h2, _⟩ := k.parts side
  have hp : ∀ x, some x ∈ side.parts d.document.sectionProperty → PlainValue x.1 := by
    intro x hx
    rw [h2] at hx
    obtain ⟨j, e⟩ := ridden_rid _ _ _ _ hx
    rw [e]
    exact rid_plainValue side j
  have hl : (side.parts d.document.sectionProperty).length = 3 := by cases side <;> rfl
  rw [k.referred side]
  generalize side.parts d.document.sectionProperty = l at hp hl
  match l, hl with
  | [a, b, c], _ =>
    have key : ∀ (t : Str) (o : Option (Str × Header)), (∀ x, o = some x → PlainValue x.1) →
        KeptReference t (o.map fun x => (⟨t, x.1⟩ : PartReference)) := by
      intro t o ho r hr
      obtain ⟨x, hx, rfl⟩ := Option.map_eq_some_iff.1 hr
      exact ⟨rfl, ho x hx⟩
    exact .cons (key _ _ fun x hx => hp x (by simp [hx])) (.cons (key _ _ fun x hx => hp x (by simp [hx]))
      (.cons (key _ _ fun x hx => hp x (by simp [hx])) .nil))

theorem margins_default : InI32 ({} : PageMargin).top ∧ InI32 ({} : PageMargin).left ∧ InI32 ({} : PageMargin).bottom ∧ InI32 ({} : PageMargin).right ∧
    InI32 ({} : PageMargin).header ∧ InI32 ({} : PageMargin).footer ∧ InI32 ({} : PageMargin).gutter := by
  unfold InI32
  decide +kernel

/-- What holds of the page set-up of every program. -/
theorem page_plain (cs : List JsFileCall) (n m : Ids) (d : DocxFile) (hb : (jsFileOf cs).build lib n = some (d, m)) :
    SectionBase.Kept { d.document.sectionProperty.base with pageSize := {}, pageMargin := {}, docGrid := none } := by
  have hc := view_columns.built lib hb
  rw [same_always] at hc
  simp only [Prod.mk.injEq] at hc
  obtain ⟨c1, c2, c3, _⟩ := hc
  have h1 := references_kept lib hb .header
  have h2 := references_kept lib hb .footer
  simp only [referenceTypes, Side.references, List.forall₂_cons, List.forall₂_nil_left_iff, and_true] at h1 h2
  exact { width := (by decide : (11906 : Nat) < 2 ^ 31), height := (by decide : (16838 : Nat) < 2 ^ 31), orient := rfl
          margins := margins_default, columns := c1, space := c2, textDirection := c3
          grid := fun _ e => by cases e
          header := h1.1, firstHeader := h1.2.1, evenHeader := h1.2.2, footer := h2.1, firstFooter := h2.2.1, evenFooter := h2.2.2
          pageNumber := fun t e => by
            have := no_number lib cs n m d hb
            simp only [this, reduceCtorEq] at e }

/-- **C85.** The page set-up found in the file is the one given last. Missing: the orientation, which is not read (`C85_fails_orient`), and
numbers that do not fit (C52). -/
theorem C85_page_partial (x : ReadEnv) (cs : List JsFileCall) (n m : Ids) (d : DocxFile) (hb : (jsFileOf cs).build lib n = some (d, m))
    (hk : PageKept cs) : ∃ q, PageSetupReadAs x d.document.sectionProperty.base q ∧ PageFound cs q := by
  obtain ⟨h1, h2, h3, h4⟩ := C82_page lib cs n m d hb
  have h5 := (C82_kinds lib cs n m d hb).1
  have p := page_plain lib cs n m d hb
  refine ⟨_, C52_kept_partial x _ { p with width := ?_, height := ?_, orient := ?_, margins := ?_, grid := ?_ }, h1, h3, h4, h5⟩
  · have e : d.document.sectionProperty.base.pageSize.w = ((lastSet givesSize cs).getD (11906, 16838)).1 := congrArg Prod.fst h1
    rw [e]
    cases e : lastSet givesSize cs with
    | none => decide
    | some v =>
      obtain ⟨c, hc, he⟩ := lastSet_mem e
      cases c <;> cases he
      exact (hk.size _ _ hc).1
  · have e : d.document.sectionProperty.base.pageSize.h = ((lastSet givesSize cs).getD (11906, 16838)).2 := congrArg Prod.snd h1
    rw [e]
    cases e : lastSet givesSize cs with
    | none => decide
    | some v =>
      obtain ⟨c, hc, he⟩ := lastSet_mem e
      cases c <;> cases he
      exact (hk.size _ _ hc).2
  · rw [h2]
    cases e : lastSet givesOrient cs with
    | none => rfl
    | some v =>
      obtain ⟨c, hc, he⟩ := lastSet_mem e
      cases c <;> cases he
      exact absurd hc (hk.orient _)
  · rw [h3]
    cases e : lastSet givesMargin cs with
    | none => exact margins_default
    | some v =>
      obtain ⟨c, hc, he⟩ := lastSet_mem e
      cases c <;> cases he
      exact hk.margins _ hc
  · intro g hg
    rw [h4] at hg
    obtain ⟨c, hc, he⟩ := lastSet_mem hg
    cases c <;> cases he
    exact hk.grid _ _ _ hc

/-- **C85 fails** for the orientation: whatever else a program asks for, an orientation is not found. -/
theorem C85_fails_orient (x : ReadEnv) (cs : List JsFileCall) (n m : Ids) (d : DocxFile) (q : SectionBase)
    (hb : (jsFileOf cs).build lib n = some (d, m)) (ho : ∃ o, .pageOrientation o ∈ cs)
    (h : PageSetupReadAs x d.document.sectionProperty.base q) :
    d.document.sectionProperty.base.pageSize.orient ≠ none ∧ q.pageSize.orient = none := by
  have p := page_plain lib cs n m d hb
  constructor
  · rw [(C82_page lib cs n m d hb).2.1, lastSet]
    obtain ⟨o, ho⟩ := ho
    intro e
    have := List.getLast?_eq_none_iff.1 e
    have hm : o ∈ cs.filterMap givesOrient := List.mem_filterMap.2 ⟨_, ho, rfl⟩
    rw [this] at hm
    cases hm
  · have := ReadFrom.unique (C52_read_back x d.document.sectionProperty.base p.strings p.readable.2) h
    rw [← this]
    rfl

/-- The hypotheses are met. -/
def jsPage : List JsFileCall :=
  [.pageSize 1 2, .pageMargin { top := -20, gutter := 10 }, .docGrid .lines (some 360) none, .firstHeader (jsTitle c!"front"), .pageSize 16838 11906,
    .add (.paragraph {})]

example : PageKept jsPage where
  size w h hx := by
    simp only [jsPage, List.mem_cons, List.not_mem_nil, reduceCtorEq, JsFileCall.pageSize.injEq, false_or, or_false] at hx
    omega
  orient o hx := by simp [jsPage] at hx
  margins m hx := by
    simp only [jsPage, List.mem_cons, List.not_mem_nil, reduceCtorEq, JsFileCall.pageMargin.injEq, false_or, or_false] at hx
    subst hx
    unfold InI32
    decide +kernel
  grid t l c hx := by
    simp only [jsPage, List.mem_cons, List.not_mem_nil, reduceCtorEq, JsFileCall.docGrid.injEq, false_or, or_false] at hx
    obtain ⟨_, rfl, rfl⟩ := hx
    exact ⟨fun n e => by cases e; decide, fun i e => by cases e⟩

example : ∃ d m, (jsFileOf jsPage).build sampleLib ⟨1, 1, 1⟩ = some (d, m) ∧ lastSet givesSize jsPage = some (16838, 11906) ∧
    (jsPage.any asksTitlePage || jsPage.any givesFirst) = true := by
  obtain ⟨x, h, _⟩ := of_ready (p := fun _ : DocxFile × Ids => true) (o := (jsFileOf jsPage).build sampleLib ⟨1, 1, 1⟩) (by decide +kernel)
  exact ⟨x.1, x.2, h, rfl, rfl⟩

end Docx.Props
