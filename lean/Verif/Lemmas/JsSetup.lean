import Verif.Spec.JsSetup
import Verif.Lemmas.JsFile
import Verif.Lemmas.HeldParts

/-!
# The set-up of a document made in JavaScript, field by field
-/

namespace Docx.Spec

open Docx Docx.Xml Docx.Props

variable (lib : ImageLib)

/-- A field of a document that content and parts leave alone and that the other calls change by `eff`. -/
structure View {α : Type} (π : DocxFile → α) (eff : α → BridgeCall → α) : Prop where
  run : ∀ d d' c, quietBridge c = true → c.run d = some d' → π d' = eff (π d) c
  note : ∀ d b, π (DocxFile.noteNumbering d b) = π d
  child : ∀ lib (c : JsChild) d n, π (c.build lib d n).1 = π d
  header : ∀ d h, π (DocxFile.setHeader d h) = π d
  firstHeader : ∀ d h, π (DocxFile.setFirstHeader d h) = π d
  evenHeader : ∀ d h, π (DocxFile.setEvenHeader d h) = π d
  footer : ∀ d h, π (DocxFile.setFooter d h) = π d
  firstFooter : ∀ d h, π (DocxFile.setFirstFooter d h) = π d
  evenFooter : ∀ d h, π (DocxFile.setEvenFooter d h) = π d

theorem view_items {α : Type} {π : DocxFile → α} (hc : ∀ (c : JsChild) d n, π (c.build lib d n).1 = π d) :
    ∀ (cs : List JsChild) (d : DocxFile) (n : Ids), π (jsItems lib d cs n).1 = π d
  | [], d, n => by rw [jsItems]
  | c :: cs, d, n => by rw [jsItems, view_items hc cs, hc]

theorem view_bridge {α : Type} {π : DocxFile → α} {eff : α → BridgeCall → α}
    (hr : ∀ d d' c, quietBridge c = true → c.run d = some d' → π d' = eff (π d) c) :
    ∀ (cs : List BridgeCall) {d d' : DocxFile}, (∀ c ∈ cs, quietBridge c = true) → bridgeCalls d cs = some d' → π d' = cs.foldl eff (π d)
  | [], d, d', _, h => by cases h; rfl
  | c :: cs, d, d', hq, h => by
    rw [bridgeCalls] at h
    cases e : c.run d with
    | none => rw [e] at h; cases h
    | some x =>
      rw [e] at h
      rw [view_bridge hr cs (fun y hy => hq y (.tail _ hy)) h, hr _ _ _ (hq c (.head _)) e, List.foldl_cons]

theorem view_part {α : Type} {π : DocxFile → α} {g : DocxFile → Header → DocxFile} (hg : ∀ d h, π (g d h) = π d) (x : Option JsPart)
    (d : DocxFile) (n : Ids) : π (jsPart lib g x d n).1 = π d := by
  cases x with
  | none => rfl
  | some p => exact hg _ _

theorem View.built {α : Type} {π : DocxFile → α} {eff : α → BridgeCall → α} (v : View π eff) {f : JsFile} {n m : Ids} {d : DocxFile}
    (h : f.build lib n = some (d, m)) : π d = (f.before ++ f.after).foldl eff (π DocxFile.new) := by
  unfold JsFile.build at h
  dsimp only at h
  obtain ⟨d1, h1, h⟩ := Option.bind_eq_some_iff.1 h
  obtain ⟨d2, h2, h⟩ := Option.map_eq_some_iff.1 h
  simp only [Prod.mk.injEq] at h
  obtain ⟨rfl, -⟩ := h
  rw [v.note, view_bridge v.run _ (after_quiet f) h2, JsFile.parts, view_part lib v.evenFooter, view_part lib v.firstFooter,
    view_part lib v.footer, view_part lib v.evenHeader, view_part lib v.firstHeader, view_part lib v.header,
    view_bridge v.run _ (before_quiet f) h1, view_items lib (v.child lib), List.foldl_append]

/-- A flag that parts for first pages and parts for even pages turn on as well. -/
structure FlagView (π : DocxFile → Bool) (first even : Bool) (eff : Bool → BridgeCall → Bool) : Prop where
  run : ∀ d d' c, quietBridge c = true → c.run d = some d' → π d' = eff (π d) c
  note : ∀ d b, π (DocxFile.noteNumbering d b) = π d
  child : ∀ lib (c : JsChild) d n, π (c.build lib d n).1 = π d
  header : ∀ d h, π (DocxFile.setHeader d h) = π d
  firstHeader : ∀ d h, π (DocxFile.setFirstHeader d h) = (π d || first)
  evenHeader : ∀ d h, π (DocxFile.setEvenHeader d h) = (π d || even)
  footer : ∀ d h, π (DocxFile.setFooter d h) = π d
  firstFooter : ∀ d h, π (DocxFile.setFirstFooter d h) = (π d || first)
  evenFooter : ∀ d h, π (DocxFile.setEvenFooter d h) = (π d || even)

theorem flag_part {π : DocxFile → Bool} {b : Bool} {g : DocxFile → Header → DocxFile} (hg : ∀ d h, π (g d h) = (π d || b)) (x : Option JsPart)
    (d : DocxFile) (n : Ids) : π (jsPart lib g x d n).1 = (π d || (b && x.isSome)) := by
  cases x with
  | none => rw [Option.isSome_none, Bool.and_false, Bool.or_false]; rfl
  | some p => rw [Option.isSome_some, Bool.and_true]; exact hg _ _

theorem FlagView.built {π : DocxFile → Bool} {first even : Bool} {eff : Bool → BridgeCall → Bool} (v : FlagView π first even eff) {f : JsFile}
    {n m : Ids} {d : DocxFile} (h : f.build lib n = some (d, m)) : π d = f.after.foldl eff
      ((((f.before.foldl eff (π DocxFile.new) || (first && f.firstHeader.isSome)) || (even && f.evenHeader.isSome)) ||
        (first && f.firstFooter.isSome)) || (even && f.evenFooter.isSome)) := by
  unfold JsFile.build at h
  dsimp only at h
  obtain ⟨d1, h1, h⟩ := Option.bind_eq_some_iff.1 h
  obtain ⟨d2, h2, h⟩ := Option.map_eq_some_iff.1 h
  simp only [Prod.mk.injEq] at h
  obtain ⟨rfl, -⟩ := h
  rw [v.note, view_bridge v.run _ (after_quiet f) h2, JsFile.parts, flag_part lib v.evenFooter, flag_part lib v.firstFooter,
    view_part lib v.footer, flag_part lib v.evenHeader, flag_part lib v.firstHeader, view_part lib v.header,
    view_bridge v.run _ (before_quiet f) h1, view_items lib (v.child lib)]

/-- Reads off what the calls do to a field. -/
macro "view_field" : tactic => `(tactic|
  exact {
    run := by
      intro d d' c hq h
      cases c with
      | builder c =>
        cases c with
        | addCustomItem id xml =>
          simp only [BridgeCall.run, DocxFile.call] at h
          split at h <;> cases h
          first | rfl | (simp only [*]; done)
        | _ =>
          first
          | (exfalso; simp only [quietBridge, quietCall, Bool.false_eq_true] at hq; done)
          | (cases h; rfl)
      | _ => cases h; rfl
    note := fun _ _ => rfl
    child := fun _ c _ _ => by cases c <;> rfl
    header := fun _ _ => rfl
    firstHeader := fun _ _ => by first | rfl | exact (Bool.or_false _).symm | exact (Bool.or_true _).symm
    evenHeader := fun _ _ => by first | rfl | exact (Bool.or_false _).symm | exact (Bool.or_true _).symm
    footer := fun _ _ => rfl
    firstFooter := fun _ _ => by first | rfl | exact (Bool.or_false _).symm | exact (Bool.or_true _).symm
    evenFooter := fun _ _ => by first | rfl | exact (Bool.or_false _).symm | exact (Bool.or_true _).symm })

theorem foldl_callOn {α β : Type} (eff : β → BridgeCall → β) (b : β) (x : Option α) (g : α → Call) :
    (callOn x g).foldl eff b = x.elim b (fun a => eff b (.builder (g a))) := by cases x <;> rfl

theorem foldl_toList {α β γ : Type} (eff : β → γ → β) (b : β) (x : Option α) (g : α → γ) :
    (x.map g).toList.foldl eff b = x.elim b (fun a => eff b (g a)) := by cases x <;> rfl

theorem foldl_when {β γ : Type} (eff : β → γ → β) (b : β) (p : Bool) (l : List γ) :
    (if p = true then l else []).foldl eff b = if p = true then l.foldl eff b else b := by cases p <;> rfl

theorem foldl_same {α β : Type} (b : β) (l : List α) : l.foldl (fun b _ => b) b = b := by
  induction l with
  | nil => rfl
  | cons _ _ ih => exact ih

theorem elim_same {α β : Type} (b : β) (x : Option α) : x.elim b (fun _ => b) = b := by cases x <;> rfl

theorem foldl_push {α γ : Type} (g : α → γ) : ∀ (l : List α) (b : List γ), l.foldl (fun b a => b ++ [g a]) b = b ++ l.map g
  | [], b => by simp
  | a :: l, b => by rw [List.foldl_cons, foldl_push g l]; simp

/-- Runs the calls on a field. -/
macro "run_field" h:ident "[" t:ident "]" : tactic => `(tactic|
  simp only [JsFile.before, JsFile.after, List.foldl_append, foldl_callOn, foldl_toList, foldl_when, List.foldl_map, List.foldl_cons, List.foldl_nil,
    foldl_same, elim_same, ite_self, $t:ident] at $h:ident)

/-! ## The calls of JavaScript -/

theorem last_calls {α : Type} {π : JsFile → Option α} {g : JsFileCall → Option α} (h : ∀ f c, π (JsFile.call f c) = (g c).or (π f)) :
    ∀ (cs : List JsFileCall) (f : JsFile), π (cs.foldl JsFile.call f) = (lastSet g cs).or (π f)
  | [], f => rfl
  | c :: cs, f => by
    rw [List.foldl_cons, last_calls h cs, h, lastSet, lastSet]
    cases hg : g c with
    | none => rw [List.filterMap_cons_none hg]; rfl
    | some x =>
      rw [List.filterMap_cons_some hg, List.getLast?_cons]
      cases (cs.filterMap g).getLast? <;> rfl

theorem last_values {α : Type} {π : JsFile → α} {g : JsFileCall → Option α} (h : ∀ f c, π (JsFile.call f c) = (g c).getD (π f))
    (cs : List JsFileCall) (f : JsFile) : π (cs.foldl JsFile.call f) = (lastSet g cs).getD (π f) := by
  have := last_calls (π := fun f => some (π f)) (g := g) (fun f c => by rw [h]; cases g c <;> rfl) cs f
  cases hl : lastSet g cs with
  | none => rw [hl] at this; exact Option.some.inj this
  | some x => rw [hl] at this; exact Option.some.inj this

theorem all_calls {α : Type} {π : JsFile → List α} {g : JsFileCall → Option α} (h : ∀ f c, π (JsFile.call f c) = π f ++ (g c).toList) :
    ∀ (cs : List JsFileCall) (f : JsFile), π (cs.foldl JsFile.call f) = π f ++ cs.filterMap g
  | [], f => by simp
  | c :: cs, f => by
    rw [List.foldl_cons, all_calls h cs, h]
    cases hg : g c with
    | none => rw [List.filterMap_cons_none hg]; simp
    | some x => rw [List.filterMap_cons_some hg]; simp

theorem any_calls {π : JsFile → Bool} {g : JsFileCall → Bool} (h : ∀ f c, π (JsFile.call f c) = (π f || g c)) :
    ∀ (cs : List JsFileCall) (f : JsFile), π (cs.foldl JsFile.call f) = (π f || cs.any g)
  | [], f => by simp
  | c :: cs, f => by rw [List.foldl_cons, any_calls h cs, h, List.any_cons, Bool.or_assoc]

end Docx.Spec
