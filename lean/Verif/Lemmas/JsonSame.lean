import Verif.Spec.Json
import Verif.Lemmas.Digits

/-!
# Documents with the same JSON form are the same up to what it leaves out
-/

namespace Docx

open Spec

set_option linter.unusedSimpArgs false
set_option linter.unusedVariables false

theorem tagged_inj {t t' : Str} {a b : Json} : tagged t a = tagged t' b ↔ t = t' ∧ a = b := by simp [tagged]

theorem tag_off {t t' : Str} {a b : Json} {Q : Prop} (h : tagged t a = tagged t' b) (hn : t ≠ t') : Q := absurd (tagged_inj.1 h).1 hn

theorem just_off {t t' : Str} {Q : Prop} (h : justType t = justType t') (hn : t ≠ t') : Q := absurd (by simpa [justType] using h) hn

theorem just_tag_off {t t' : Str} {b : Json} {Q : Prop} (h : justType t = tagged t' b) : Q := by simp [justType, tagged] at h

theorem tag_just_off {t t' : Str} {b : Json} {Q : Prop} (h : tagged t' b = justType t) : Q := by simp [justType, tagged] at h

theorem jnat_inj {m n : Nat} (h : jnat m = jnat n) : m = n := by
  unfold jnat at h
  exact dec_inj (Json.num.inj h)

theorem jopt_nat_inj {a b : Option Nat} (h : jopt jnat a = jopt jnat b) : a = b := by
  cases a <;> cases b
  · rfl
  · simp [jopt, jnat] at h
  · simp [jopt, jnat] at h
  · simp only [jopt] at h; rw [jnat_inj h]

theorem jopt_str_inj {a b : Option Str} (h : jopt Json.str a = jopt Json.str b) : a = b := by
  cases a <;> cases b <;> simp_all [jopt]

theorem nats_inj : ∀ {a b : List Nat}, a.map jnat = b.map jnat → a = b
  | [], [], _ => rfl
  | [], _ :: _, h => by simp at h
  | _ :: _, [], h => by simp at h
  | x :: a, y :: b, h => by
    simp only [List.map_cons, List.cons.injEq] at h
    rw [jnat_inj h.1, nats_inj h.2]

theorem brk_inj {a b : BreakType} (h : a.toStr = b.toStr) : a = b := by
  cases a <;> cases b <;> first | rfl | exact absurd h (by decide)

theorem field_inj {a b : FieldCharType} (h : a.toStr = b.toStr) : a = b := by
  cases a <;> cases b <;> first | rfl | exact absurd h (by decide)

theorem optField_split {α : Type} {key : Str} {f : α → Json} {a b : Option α} {r r' : List (Str × Json)} (hr : ∀ x ∈ r, x.1 ≠ key)
    (hr' : ∀ x ∈ r', x.1 ≠ key) (h : optField key f a ++ r = optField key f b ++ r') :
    ((a = none ∧ b = none) ∨ ∃ x y, a = some x ∧ b = some y ∧ f x = f y) ∧ r = r' := by
  cases a <;> cases b
  · exact ⟨.inl ⟨rfl, rfl⟩, h⟩
  · simp only [optField, List.nil_append, List.cons_append] at h
    subst h
    exact absurd rfl (hr _ (List.mem_cons_self ..))
  · simp only [optField, List.nil_append, List.cons_append] at h
    subst h
    exact absurd rfl (hr' _ (List.mem_cons_self ..))
  · simp only [optField, List.nil_append, List.cons_append, List.cons.injEq, Prod.mk.injEq, true_and] at h
    exact ⟨.inr ⟨_, _, rfl, rfl, h.1⟩, h.2⟩

theorem listField_split {key : Str} {a b : List Json} {r r' : List (Str × Json)} (hr : ∀ x ∈ r, x.1 ≠ key)
    (hr' : ∀ x ∈ r', x.1 ≠ key) (h : listField key a ++ r = listField key b ++ r') : a = b ∧ r = r' := by
  cases a <;> cases b
  · exact ⟨rfl, h⟩
  · simp only [listField, List.nil_append, List.cons_append] at h
    subst h
    exact absurd rfl (hr _ (List.mem_cons_self ..))
  · simp only [listField, List.nil_append, List.cons_append] at h
    subst h
    exact absurd rfl (hr' _ (List.mem_cons_self ..))
  · simp only [listField, List.nil_append, List.cons_append, List.cons.injEq, Prod.mk.injEq, true_and, Json.arr.injEq] at h
    exact ⟨by rw [h.1.1, h.1.2], h.2⟩

theorem optField_key {α : Type} {key : Str} {f : α → Json} {a : Option α} {x : Str × Json} (h : x ∈ optField key f a) : x.1 = key := by
  cases a with
  | none => cases h
  | some a => simp only [optField, List.mem_singleton] at h; rw [h]

theorem listField_key {key : Str} {a : List Json} {x : Str × Json} (h : x ∈ listField key a) : x.1 = key := by
  cases a with
  | nil => cases h
  | cons a => simp only [listField, List.mem_singleton] at h; rw [h]

theorem link_inj {a b : HyperlinkData} {x y x' y' : Json} (h : linkFields a ++ [(c!"history", x), (c!"children", y)] = linkFields b ++ [(c!"history", x'), (c!"children", y')]) :
    a = b ∧ x = x' ∧ y = y' := by
  cases a with
  | external r p =>
    cases b with
    | external r' p' =>
      by_cases hp : p = [] <;> by_cases hp' : p' = [] <;> simp [linkFields, hp, hp'] at h ⊢ <;> simp_all
    | anchor a => simp [linkFields] at h
  | anchor a =>
    cases b with
    | external r' p' => simp [linkFields] at h
    | anchor a => simp [linkFields] at h ⊢; exact h

theorem mark_inj {a b : Mark} (h : markJson a = markJson b) : a = b := by
  cases a; cases b; simp_all [markJson]

section

variable {P : Leaves} {B : Blur} (hs : Leaves.Say P B)

include hs

theorem tocItem_inj {a b : TocItem} (h : tocItemJson P a = tocItemJson P b) : blurTocItem B a = blurTocItem B b := by
  cases a; cases b
  simp only [tocItemJson, Json.obj.injEq, List.cons.injEq, Prod.mk.injEq, true_and, and_true, Json.str.injEq, Json.bool.injEq] at h
  obtain ⟨h1, h2, h3, h4, h5, h6⟩ := h
  simp only [blurTocItem, hs.tocInstr _ _ h1, h2, h3, jnat_inj h4, h5, jopt_str_inj h6]

theorem tocItems_inj : ∀ {a b : List TocItem}, a.map (tocItemJson P) = b.map (tocItemJson P) → a.map (blurTocItem B) = b.map (blurTocItem B)
  | [], [], _ => rfl
  | [], _ :: _, h => by simp at h
  | _ :: _, [], h => by simp at h
  | x :: a, y :: b, h => by
    simp only [List.map_cons, List.cons.injEq] at h ⊢
    exact ⟨tocItem_inj hs h.1, tocItems_inj h.2⟩

set_option maxHeartbeats 4000000 in
mutual

theorem runJson_inj : ∀ (a b : Run), runJson P a = runJson P b → blurRun B a = blurRun B b
  | ⟨p, cs⟩, ⟨p', cs'⟩, h => by
    simp only [runJson, Json.obj.injEq, List.cons.injEq, Prod.mk.injEq, true_and, and_true, Json.str.injEq, Json.bool.injEq, Json.arr.injEq] at h
    obtain ⟨h1, h2⟩ := h
    simp only [blurRun, hs.run _ _ h1, runChildrenJson_inj cs cs' h2]

theorem runChildJson_inj : ∀ (a b : RunChild), runChildJson P a = runChildJson P b → blurRunChild B a = blurRunChild B b

  | .text t, b, h => by
    cases b <;> simp only [runChildJson] at h
    case text t' =>
      replace h := (tagged_inj.1 h).2
      simp only [textJson, Json.obj.injEq, List.cons.injEq, Prod.mk.injEq, true_and, and_true, Json.str.injEq, Json.bool.injEq, Json.arr.injEq] at h
      simp only [blurRunChild, h]
    all_goals first
      | exact tag_off h (by decide)
      | exact just_off h (by decide)
      | exact just_tag_off h
      | exact tag_just_off h
      | (have h := (tagged_inj.1 h).2; exact tag_off h (by decide))
      | (have h := (tagged_inj.1 h).2; simp [tagged] at h)

  | .sym f c, b, h => by
    cases b <;> simp only [runChildJson] at h
    case sym f' c' =>
      replace h := (tagged_inj.1 h).2
      simp only [Json.obj.injEq, List.cons.injEq, Prod.mk.injEq, true_and, and_true, Json.str.injEq, Json.bool.injEq, Json.arr.injEq] at h
      simp only [blurRunChild, h.1, h.2]
    all_goals first
      | exact tag_off h (by decide)
      | exact just_off h (by decide)
      | exact just_tag_off h
      | exact tag_just_off h
      | (have h := (tagged_inj.1 h).2; exact tag_off h (by decide))
      | (have h := (tagged_inj.1 h).2; simp [tagged] at h)

  | .deleteText t, b, h => by
    cases b <;> simp only [runChildJson] at h
    case deleteText t' =>
      replace h := (tagged_inj.1 h).2
      simp only [deleteTextJson, Json.obj.injEq, List.cons.injEq, Prod.mk.injEq, true_and, and_true, Json.str.injEq, Json.bool.injEq, Json.arr.injEq] at h
      simp only [blurRunChild, h]
    all_goals first
      | exact tag_off h (by decide)
      | exact just_off h (by decide)
      | exact just_tag_off h
      | exact tag_just_off h
      | (have h := (tagged_inj.1 h).2; exact tag_off h (by decide))
      | (have h := (tagged_inj.1 h).2; simp [tagged] at h)

  | .tab, b, h => by
    cases b <;> simp only [runChildJson] at h
    case tab  =>
      rfl
    all_goals first
      | exact tag_off h (by decide)
      | exact just_off h (by decide)
      | exact just_tag_off h
      | exact tag_just_off h
      | (have h := (tagged_inj.1 h).2; exact tag_off h (by decide))
      | (have h := (tagged_inj.1 h).2; simp [tagged] at h)

  | .ptab t, b, h => by
    cases b <;> simp only [runChildJson] at h
    case ptab t' =>
      replace h := (tagged_inj.1 h).2
      simp only [blurRunChild, hs.ptab _ _ h]
    all_goals first
      | exact tag_off h (by decide)
      | exact just_off h (by decide)
      | exact just_tag_off h
      | exact tag_just_off h
      | (have h := (tagged_inj.1 h).2; exact tag_off h (by decide))
      | (have h := (tagged_inj.1 h).2; simp [tagged] at h)

  | .brk t, b, h => by
    cases b <;> simp only [runChildJson] at h
    case brk t' =>
      replace h := (tagged_inj.1 h).2
      simp only [Json.obj.injEq, List.cons.injEq, Prod.mk.injEq, true_and, and_true, Json.str.injEq, Json.bool.injEq, Json.arr.injEq] at h
      simp only [blurRunChild, brk_inj h]
    all_goals first
      | exact tag_off h (by decide)
      | exact just_off h (by decide)
      | exact just_tag_off h
      | exact tag_just_off h
      | (have h := (tagged_inj.1 h).2; exact tag_off h (by decide))
      | (have h := (tagged_inj.1 h).2; simp [tagged] at h)

  | .carriageReturn, b, h => by
    cases b <;> simp only [runChildJson] at h
    case carriageReturn  =>
      rfl
    all_goals first
      | exact tag_off h (by decide)
      | exact just_off h (by decide)
      | exact just_tag_off h
      | exact tag_just_off h
      | (have h := (tagged_inj.1 h).2; exact tag_off h (by decide))
      | (have h := (tagged_inj.1 h).2; simp [tagged] at h)

  | .picture p, b, h => by
    cases b <;> simp only [runChildJson] at h
    case picture p' =>
      replace h := (tagged_inj.1 h).2
      replace h := (tagged_inj.1 h).2
      simp only [blurRunChild, hs.picture _ _ h]
    all_goals first
      | exact tag_off h (by decide)
      | exact just_off h (by decide)
      | exact just_tag_off h
      | exact tag_just_off h
      | (have h := (tagged_inj.1 h).2; exact tag_off h (by decide))
      | (have h := (tagged_inj.1 h).2; simp [tagged] at h)

  | .textBox bs, b, h => by
    cases b <;> simp only [runChildJson] at h
    case textBox bs' =>
      replace h := (tagged_inj.1 h).2
      replace h := (tagged_inj.1 h).2
      simp only [Json.obj.injEq, List.cons.injEq, Prod.mk.injEq, true_and, and_true, Json.str.injEq, Json.bool.injEq, Json.arr.injEq] at h
      simp only [blurRunChild, blocksJson_inj bs bs' h]
    all_goals first
      | exact tag_off h (by decide)
      | exact just_off h (by decide)
      | exact just_tag_off h
      | exact tag_just_off h
      | (have h := (tagged_inj.1 h).2; exact tag_off h (by decide))
      | (have h := (tagged_inj.1 h).2; simp [tagged] at h)

  | .emptyDrawing, b, h => by
    cases b <;> simp only [runChildJson] at h
    case emptyDrawing  =>
      rfl
    all_goals first
      | exact tag_off h (by decide)
      | exact just_off h (by decide)
      | exact just_tag_off h
      | exact tag_just_off h
      | (have h := (tagged_inj.1 h).2; exact tag_off h (by decide))
      | (have h := (tagged_inj.1 h).2; simp [tagged] at h)

  | .shape s, b, h => by
    cases b <;> simp only [runChildJson] at h
    case shape s' =>
      replace h := (tagged_inj.1 h).2
      simp only [blurRunChild, hs.shape _ _ h]
    all_goals first
      | exact tag_off h (by decide)
      | exact just_off h (by decide)
      | exact just_tag_off h
      | exact tag_just_off h
      | (have h := (tagged_inj.1 h).2; exact tag_off h (by decide))
      | (have h := (tagged_inj.1 h).2; simp [tagged] at h)

  | .commentStart i c, b, h => by
    cases b <;> simp only [runChildJson] at h
    case commentStart i' c' =>
      replace h := (tagged_inj.1 h).2
      simp only [Json.obj.injEq, List.cons.injEq, Prod.mk.injEq, true_and, and_true, Json.str.injEq, Json.bool.injEq, Json.arr.injEq] at h
      simp only [blurRunChild, jnat_inj h.1, commentJson_inj c c' h.2]
    all_goals first
      | exact tag_off h (by decide)
      | exact just_off h (by decide)
      | exact just_tag_off h
      | exact tag_just_off h
      | (have h := (tagged_inj.1 h).2; exact tag_off h (by decide))
      | (have h := (tagged_inj.1 h).2; simp [tagged] at h)

  | .commentEnd i, b, h => by
    cases b <;> simp only [runChildJson] at h
    case commentEnd i' =>
      replace h := (tagged_inj.1 h).2
      simp only [idJson, Json.obj.injEq, List.cons.injEq, Prod.mk.injEq, true_and, and_true] at h
      simp only [blurRunChild, jnat_inj h]
    all_goals first
      | exact tag_off h (by decide)
      | exact just_off h (by decide)
      | exact just_tag_off h
      | exact tag_just_off h
      | (have h := (tagged_inj.1 h).2; exact tag_off h (by decide))
      | (have h := (tagged_inj.1 h).2; simp [tagged] at h)

  | .fieldChar t d, b, h => by
    cases b <;> simp only [runChildJson] at h
    case fieldChar t' d' =>
      replace h := (tagged_inj.1 h).2
      simp only [fieldCharJson, Json.obj.injEq, List.cons.injEq, Prod.mk.injEq, true_and, and_true, Json.str.injEq, Json.bool.injEq, Json.arr.injEq] at h
      simp only [blurRunChild, field_inj h.1, h.2]
    all_goals first
      | exact tag_off h (by decide)
      | exact just_off h (by decide)
      | exact just_tag_off h
      | exact tag_just_off h
      | (have h := (tagged_inj.1 h).2; exact tag_off h (by decide))
      | (have h := (tagged_inj.1 h).2; simp [tagged] at h)

  | .instrText i, b, h => by
    cases b <;> simp only [runChildJson] at h
    case instrText i' =>
      replace h := (tagged_inj.1 h).2
      simp only [blurRunChild, hs.instr _ _ h]
    all_goals first
      | exact tag_off h (by decide)
      | exact just_off h (by decide)
      | exact just_tag_off h
      | exact tag_just_off h
      | (have h := (tagged_inj.1 h).2; exact tag_off h (by decide))
      | (have h := (tagged_inj.1 h).2; simp [tagged] at h)

  | .deleteInstrText i, b, h => by
    cases b <;> simp only [runChildJson] at h
    case deleteInstrText i' =>
      replace h := (tagged_inj.1 h).2
      simp only [blurRunChild, hs.deleteInstr _ _ h]
    all_goals first
      | exact tag_off h (by decide)
      | exact just_off h (by decide)
      | exact just_tag_off h
      | exact tag_just_off h
      | (have h := (tagged_inj.1 h).2; exact tag_off h (by decide))
      | (have h := (tagged_inj.1 h).2; simp [tagged] at h)

  | .instrTextString s, b, h => by
    cases b <;> simp only [runChildJson] at h
    case instrTextString s' =>
      replace h := (tagged_inj.1 h).2
      simp only [Json.obj.injEq, List.cons.injEq, Prod.mk.injEq, true_and, and_true, Json.str.injEq, Json.bool.injEq, Json.arr.injEq] at h
      simp only [blurRunChild, h]
    all_goals first
      | exact tag_off h (by decide)
      | exact just_off h (by decide)
      | exact just_tag_off h
      | exact tag_just_off h
      | (have h := (tagged_inj.1 h).2; exact tag_off h (by decide))
      | (have h := (tagged_inj.1 h).2; simp [tagged] at h)

  | .footnoteReference i s ps, b, h => by
    cases b <;> simp only [runChildJson] at h
    case footnoteReference i' s' ps' =>
      replace h := (tagged_inj.1 h).2
      simp only [idJson, Json.obj.injEq, List.cons.injEq, Prod.mk.injEq, true_and, and_true] at h
      simp only [blurRunChild, jnat_inj h]
    all_goals first
      | exact tag_off h (by decide)
      | exact just_off h (by decide)
      | exact just_tag_off h
      | exact tag_just_off h
      | (have h := (tagged_inj.1 h).2; exact tag_off h (by decide))
      | (have h := (tagged_inj.1 h).2; simp [tagged] at h)

  | .shading s, b, h => by
    cases b <;> simp only [runChildJson] at h
    case shading s' =>
      replace h := (tagged_inj.1 h).2
      simp only [blurRunChild, hs.shading _ _ h]
    all_goals first
      | exact tag_off h (by decide)
      | exact just_off h (by decide)
      | exact just_tag_off h
      | exact tag_just_off h
      | (have h := (tagged_inj.1 h).2; exact tag_off h (by decide))
      | (have h := (tagged_inj.1 h).2; simp [tagged] at h)

theorem runChildrenJson_inj : ∀ (a b : List RunChild), runChildrenJson P a = runChildrenJson P b → blurRunChildren B a = blurRunChildren B b
  | [], [], _ => rfl
  | [], _ :: _, h => by simp [runChildrenJson] at h
  | _ :: _, [], h => by simp [runChildrenJson] at h
  | c :: cs, d :: ds, h => by
    simp only [runChildrenJson, List.cons.injEq] at h
    simp only [blurRunChildren, runChildJson_inj c d h.1, runChildrenJson_inj cs ds h.2]

theorem commentJson_inj : ∀ (a b : Comment), commentJson P a = commentJson P b → blurComment B a = blurComment B b
  | ⟨i, a, d, bs, p⟩, ⟨i', a', d', bs', p'⟩, h => by
    simp only [commentJson, Json.obj.injEq, List.cons.injEq, Prod.mk.injEq, true_and, and_true, Json.str.injEq, Json.bool.injEq, Json.arr.injEq] at h
    obtain ⟨h1, h2, h3, h4, h5⟩ := h
    simp only [blurComment, jnat_inj h1, h2, h3, blocksJson_inj bs bs' h4, jopt_nat_inj h5]

theorem blockJson_inj : ∀ (a b : Block), blockJson P a = blockJson P b → blurBlock B a = blurBlock B b

  | .paragraph p, b, h => by
    cases b <;> simp only [blockJson] at h
    case paragraph p' =>
      replace h := (tagged_inj.1 h).2
      simp only [blurBlock, paragraphJson_inj p p' h]
    all_goals first
      | exact tag_off h (by decide)
      | exact just_off h (by decide)
      | exact just_tag_off h
      | exact tag_just_off h
      | (have h := (tagged_inj.1 h).2; exact tag_off h (by decide))
      | (have h := (tagged_inj.1 h).2; simp [tagged] at h)

  | .table t, b, h => by
    cases b <;> simp only [blockJson] at h
    case table t' =>
      replace h := (tagged_inj.1 h).2
      simp only [blurBlock, tableJson_inj t t' h]
    all_goals first
      | exact tag_off h (by decide)
      | exact just_off h (by decide)
      | exact just_tag_off h
      | exact tag_just_off h
      | (have h := (tagged_inj.1 h).2; exact tag_off h (by decide))
      | (have h := (tagged_inj.1 h).2; simp [tagged] at h)

theorem blocksJson_inj : ∀ (a b : List Block), blocksJson P a = blocksJson P b → blurBlocks B a = blurBlocks B b
  | [], [], _ => rfl
  | [], _ :: _, h => by simp [blocksJson] at h
  | _ :: _, [], h => by simp [blocksJson] at h
  | c :: cs, d :: ds, h => by
    simp only [blocksJson, List.cons.injEq] at h
    simp only [blurBlocks, blockJson_inj c d h.1, blocksJson_inj cs ds h.2]

theorem deleteJson_inj : ∀ (a b : Delete), deleteJson P a = deleteJson P b → blurDelete B a = blurDelete B b
  | ⟨a, d, cs⟩, ⟨a', d', cs'⟩, h => by
    simp only [deleteJson, Json.obj.injEq, List.cons.injEq, Prod.mk.injEq, true_and, and_true, Json.str.injEq, Json.bool.injEq, Json.arr.injEq] at h
    obtain ⟨h1, h2, h3⟩ := h
    simp only [blurDelete, h1, h2, deleteChildrenJson_inj cs cs' h3]

theorem deleteChildJson_inj : ∀ (a b : DeleteChild), deleteChildJson P a = deleteChildJson P b → blurDeleteChild B a = blurDeleteChild B b

  | .run r, b, h => by
    cases b <;> simp only [deleteChildJson] at h
    case run r' =>
      replace h := (tagged_inj.1 h).2
      simp only [blurDeleteChild, runJson_inj r r' h]
    all_goals first
      | exact tag_off h (by decide)
      | exact just_off h (by decide)
      | exact just_tag_off h
      | exact tag_just_off h
      | (have h := (tagged_inj.1 h).2; exact tag_off h (by decide))
      | (have h := (tagged_inj.1 h).2; simp [tagged] at h)

  | .commentStart i c, b, h => by
    cases b <;> simp only [deleteChildJson] at h
    case commentStart i' c' =>
      replace h := (tagged_inj.1 h).2
      simp only [Json.obj.injEq, List.cons.injEq, Prod.mk.injEq, true_and, and_true, Json.str.injEq, Json.bool.injEq, Json.arr.injEq] at h
      simp only [blurDeleteChild, jnat_inj h.1, commentJson_inj c c' h.2]
    all_goals first
      | exact tag_off h (by decide)
      | exact just_off h (by decide)
      | exact just_tag_off h
      | exact tag_just_off h
      | (have h := (tagged_inj.1 h).2; exact tag_off h (by decide))
      | (have h := (tagged_inj.1 h).2; simp [tagged] at h)

  | .commentEnd i, b, h => by
    cases b <;> simp only [deleteChildJson] at h
    case commentEnd i' =>
      replace h := (tagged_inj.1 h).2
      simp only [idJson, Json.obj.injEq, List.cons.injEq, Prod.mk.injEq, true_and, and_true] at h
      simp only [blurDeleteChild, jnat_inj h]
    all_goals first
      | exact tag_off h (by decide)
      | exact just_off h (by decide)
      | exact just_tag_off h
      | exact tag_just_off h
      | (have h := (tagged_inj.1 h).2; exact tag_off h (by decide))
      | (have h := (tagged_inj.1 h).2; simp [tagged] at h)

theorem deleteChildrenJson_inj : ∀ (a b : List DeleteChild), deleteChildrenJson P a = deleteChildrenJson P b → blurDeleteChildren B a = blurDeleteChildren B b
  | [], [], _ => rfl
  | [], _ :: _, h => by simp [deleteChildrenJson] at h
  | _ :: _, [], h => by simp [deleteChildrenJson] at h
  | c :: cs, d :: ds, h => by
    simp only [deleteChildrenJson, List.cons.injEq] at h
    simp only [blurDeleteChildren, deleteChildJson_inj c d h.1, deleteChildrenJson_inj cs ds h.2]

theorem insertJson_inj : ∀ (a b : Insert), insertJson P a = insertJson P b → blurInsert B a = blurInsert B b
  | ⟨a, d, cs⟩, ⟨a', d', cs'⟩, h => by
    simp only [insertJson, Json.obj.injEq, List.cons.injEq, Prod.mk.injEq, true_and, and_true, Json.str.injEq, Json.bool.injEq, Json.arr.injEq] at h
    obtain ⟨h1, h2, h3⟩ := h
    simp only [blurInsert, h2, h3, insertChildrenJson_inj cs cs' h1]

theorem insertChildJson_inj : ∀ (a b : InsertChild), insertChildJson P a = insertChildJson P b → blurInsertChild B a = blurInsertChild B b

  | .run r, b, h => by
    cases b <;> simp only [insertChildJson] at h
    case run r' =>
      replace h := (tagged_inj.1 h).2
      simp only [blurInsertChild, runJson_inj r r' h]
    all_goals first
      | exact tag_off h (by decide)
      | exact just_off h (by decide)
      | exact just_tag_off h
      | exact tag_just_off h
      | (have h := (tagged_inj.1 h).2; exact tag_off h (by decide))
      | (have h := (tagged_inj.1 h).2; simp [tagged] at h)

  | .delete d, b, h => by
    cases b <;> simp only [insertChildJson] at h
    case delete d' =>
      replace h := (tagged_inj.1 h).2
      simp only [blurInsertChild, deleteJson_inj d d' h]
    all_goals first
      | exact tag_off h (by decide)
      | exact just_off h (by decide)
      | exact just_tag_off h
      | exact tag_just_off h
      | (have h := (tagged_inj.1 h).2; exact tag_off h (by decide))
      | (have h := (tagged_inj.1 h).2; simp [tagged] at h)

  | .commentStart i c, b, h => by
    cases b <;> simp only [insertChildJson] at h
    case commentStart i' c' =>
      replace h := (tagged_inj.1 h).2
      simp only [Json.obj.injEq, List.cons.injEq, Prod.mk.injEq, true_and, and_true, Json.str.injEq, Json.bool.injEq, Json.arr.injEq] at h
      simp only [blurInsertChild, jnat_inj h.1, commentJson_inj c c' h.2]
    all_goals first
      | exact tag_off h (by decide)
      | exact just_off h (by decide)
      | exact just_tag_off h
      | exact tag_just_off h
      | (have h := (tagged_inj.1 h).2; exact tag_off h (by decide))
      | (have h := (tagged_inj.1 h).2; simp [tagged] at h)

  | .commentEnd i, b, h => by
    cases b <;> simp only [insertChildJson] at h
    case commentEnd i' =>
      replace h := (tagged_inj.1 h).2
      simp only [idJson, Json.obj.injEq, List.cons.injEq, Prod.mk.injEq, true_and, and_true] at h
      simp only [blurInsertChild, jnat_inj h]
    all_goals first
      | exact tag_off h (by decide)
      | exact just_off h (by decide)
      | exact just_tag_off h
      | exact tag_just_off h
      | (have h := (tagged_inj.1 h).2; exact tag_off h (by decide))
      | (have h := (tagged_inj.1 h).2; simp [tagged] at h)

theorem insertChildrenJson_inj : ∀ (a b : List InsertChild), insertChildrenJson P a = insertChildrenJson P b → blurInsertChildren B a = blurInsertChildren B b
  | [], [], _ => rfl
  | [], _ :: _, h => by simp [insertChildrenJson] at h
  | _ :: _, [], h => by simp [insertChildrenJson] at h
  | c :: cs, d :: ds, h => by
    simp only [insertChildrenJson, List.cons.injEq] at h
    simp only [blurInsertChildren, insertChildJson_inj c d h.1, insertChildrenJson_inj cs ds h.2]

theorem hyperlinkJson_inj : ∀ (a b : Hyperlink), hyperlinkJson P a = hyperlinkJson P b → blurHyperlink B a = blurHyperlink B b
  | ⟨l, h, cs⟩, ⟨l', h', cs'⟩, e => by
    simp only [hyperlinkJson, Json.obj.injEq] at e
    obtain ⟨h1, h2, h3⟩ := link_inj e
    simp only [blurHyperlink, h1, jopt_nat_inj h2, paragraphChildrenJson_inj cs cs' (Json.arr.inj h3)]

theorem paragraphChildJson_inj : ∀ (a b : ParagraphChild), paragraphChildJson P a = paragraphChildJson P b → blurParagraphChild B a = blurParagraphChild B b

  | .run r, b, h => by
    cases b <;> simp only [paragraphChildJson] at h
    case run r' =>
      replace h := (tagged_inj.1 h).2
      simp only [blurParagraphChild, runJson_inj r r' h]
    all_goals first
      | exact tag_off h (by decide)
      | exact just_off h (by decide)
      | exact just_tag_off h
      | exact tag_just_off h
      | (have h := (tagged_inj.1 h).2; exact tag_off h (by decide))
      | (have h := (tagged_inj.1 h).2; simp [tagged] at h)

  | .insert i, b, h => by
    cases b <;> simp only [paragraphChildJson] at h
    case insert i' =>
      replace h := (tagged_inj.1 h).2
      simp only [blurParagraphChild, insertJson_inj i i' h]
    all_goals first
      | exact tag_off h (by decide)
      | exact just_off h (by decide)
      | exact just_tag_off h
      | exact tag_just_off h
      | (have h := (tagged_inj.1 h).2; exact tag_off h (by decide))
      | (have h := (tagged_inj.1 h).2; simp [tagged] at h)

  | .delete d, b, h => by
    cases b <;> simp only [paragraphChildJson] at h
    case delete d' =>
      replace h := (tagged_inj.1 h).2
      simp only [blurParagraphChild, deleteJson_inj d d' h]
    all_goals first
      | exact tag_off h (by decide)
      | exact just_off h (by decide)
      | exact just_tag_off h
      | exact tag_just_off h
      | (have h := (tagged_inj.1 h).2; exact tag_off h (by decide))
      | (have h := (tagged_inj.1 h).2; simp [tagged] at h)

  | .moveFrom d, b, h => by
    cases b <;> simp only [paragraphChildJson] at h
    case moveFrom d' =>
      replace h := (tagged_inj.1 h).2
      simp only [blurParagraphChild, deleteJson_inj d d' h]
    all_goals first
      | exact tag_off h (by decide)
      | exact just_off h (by decide)
      | exact just_tag_off h
      | exact tag_just_off h
      | (have h := (tagged_inj.1 h).2; exact tag_off h (by decide))
      | (have h := (tagged_inj.1 h).2; simp [tagged] at h)

  | .moveTo i, b, h => by
    cases b <;> simp only [paragraphChildJson] at h
    case moveTo i' =>
      replace h := (tagged_inj.1 h).2
      simp only [blurParagraphChild, insertJson_inj i i' h]
    all_goals first
      | exact tag_off h (by decide)
      | exact just_off h (by decide)
      | exact just_tag_off h
      | exact tag_just_off h
      | (have h := (tagged_inj.1 h).2; exact tag_off h (by decide))
      | (have h := (tagged_inj.1 h).2; simp [tagged] at h)

  | .hyperlink l, b, h => by
    cases b <;> simp only [paragraphChildJson] at h
    case hyperlink l' =>
      replace h := (tagged_inj.1 h).2
      simp only [blurParagraphChild, hyperlinkJson_inj l l' h]
    all_goals first
      | exact tag_off h (by decide)
      | exact just_off h (by decide)
      | exact just_tag_off h
      | exact tag_just_off h
      | (have h := (tagged_inj.1 h).2; exact tag_off h (by decide))
      | (have h := (tagged_inj.1 h).2; simp [tagged] at h)

  | .bookmarkStart i n, b, h => by
    cases b <;> simp only [paragraphChildJson] at h
    case bookmarkStart i' n' =>
      replace h := (tagged_inj.1 h).2
      simp only [bookmarkJson, Json.obj.injEq, List.cons.injEq, Prod.mk.injEq, true_and, and_true, Json.str.injEq, Json.bool.injEq, Json.arr.injEq] at h
      simp only [blurParagraphChild, jnat_inj h.1, h.2]
    all_goals first
      | exact tag_off h (by decide)
      | exact just_off h (by decide)
      | exact just_tag_off h
      | exact tag_just_off h
      | (have h := (tagged_inj.1 h).2; exact tag_off h (by decide))
      | (have h := (tagged_inj.1 h).2; simp [tagged] at h)

  | .bookmarkEnd i, b, h => by
    cases b <;> simp only [paragraphChildJson] at h
    case bookmarkEnd i' =>
      replace h := (tagged_inj.1 h).2
      simp only [idJson, Json.obj.injEq, List.cons.injEq, Prod.mk.injEq, true_and, and_true] at h
      simp only [blurParagraphChild, jnat_inj h]
    all_goals first
      | exact tag_off h (by decide)
      | exact just_off h (by decide)
      | exact just_tag_off h
      | exact tag_just_off h
      | (have h := (tagged_inj.1 h).2; exact tag_off h (by decide))
      | (have h := (tagged_inj.1 h).2; simp [tagged] at h)

  | .commentStart i c, b, h => by
    cases b <;> simp only [paragraphChildJson] at h
    case commentStart i' c' =>
      replace h := (tagged_inj.1 h).2
      simp only [Json.obj.injEq, List.cons.injEq, Prod.mk.injEq, true_and, and_true, Json.str.injEq, Json.bool.injEq, Json.arr.injEq] at h
      simp only [blurParagraphChild, jnat_inj h.1, commentJson_inj c c' h.2]
    all_goals first
      | exact tag_off h (by decide)
      | exact just_off h (by decide)
      | exact just_tag_off h
      | exact tag_just_off h
      | (have h := (tagged_inj.1 h).2; exact tag_off h (by decide))
      | (have h := (tagged_inj.1 h).2; simp [tagged] at h)

  | .commentEnd i, b, h => by
    cases b <;> simp only [paragraphChildJson] at h
    case commentEnd i' =>
      replace h := (tagged_inj.1 h).2
      simp only [idJson, Json.obj.injEq, List.cons.injEq, Prod.mk.injEq, true_and, and_true] at h
      simp only [blurParagraphChild, jnat_inj h]
    all_goals first
      | exact tag_off h (by decide)
      | exact just_off h (by decide)
      | exact just_tag_off h
      | exact tag_just_off h
      | (have h := (tagged_inj.1 h).2; exact tag_off h (by decide))
      | (have h := (tagged_inj.1 h).2; simp [tagged] at h)

  | .sdt s, b, h => by
    cases b <;> simp only [paragraphChildJson] at h
    case sdt s' =>
      replace h := (tagged_inj.1 h).2
      simp only [blurParagraphChild, sdtJson_inj s s' h]
    all_goals first
      | exact tag_off h (by decide)
      | exact just_off h (by decide)
      | exact just_tag_off h
      | exact tag_just_off h
      | (have h := (tagged_inj.1 h).2; exact tag_off h (by decide))
      | (have h := (tagged_inj.1 h).2; simp [tagged] at h)

  | .pageNum i, b, h => by
    cases b <;> simp only [paragraphChildJson] at h
    case pageNum i' =>
      rfl
    all_goals first
      | exact tag_off h (by decide)
      | exact just_off h (by decide)
      | exact just_tag_off h
      | exact tag_just_off h
      | (have h := (tagged_inj.1 h).2; exact tag_off h (by decide))
      | (have h := (tagged_inj.1 h).2; simp [tagged] at h)

  | .numPages i, b, h => by
    cases b <;> simp only [paragraphChildJson] at h
    case numPages i' =>
      rfl
    all_goals first
      | exact tag_off h (by decide)
      | exact just_off h (by decide)
      | exact just_tag_off h
      | exact tag_just_off h
      | (have h := (tagged_inj.1 h).2; exact tag_off h (by decide))
      | (have h := (tagged_inj.1 h).2; simp [tagged] at h)

theorem paragraphChildrenJson_inj : ∀ (a b : List ParagraphChild), paragraphChildrenJson P a = paragraphChildrenJson P b → blurParagraphChildren B a = blurParagraphChildren B b
  | [], [], _ => rfl
  | [], _ :: _, h => by simp [paragraphChildrenJson] at h
  | _ :: _, [], h => by simp [paragraphChildrenJson] at h
  | c :: cs, d :: ds, h => by
    simp only [paragraphChildrenJson, List.cons.injEq] at h
    simp only [blurParagraphChildren, paragraphChildJson_inj c d h.1, paragraphChildrenJson_inj cs ds h.2]

theorem paragraphJson_inj : ∀ (a b : Paragraph), paragraphJson P a = paragraphJson P b → blurParagraph B a = blurParagraph B b
  | ⟨i, cs, pr, n⟩, ⟨i', cs', pr', n'⟩, h => by
    simp only [paragraphJson, Json.obj.injEq, List.cons.injEq, Prod.mk.injEq, true_and, and_true, Json.str.injEq, Json.bool.injEq, Json.arr.injEq] at h
    obtain ⟨h1, h2, h3, h4⟩ := h
    simp only [blurParagraph, h1, paragraphChildrenJson_inj cs cs' h2, hs.paragraph _ _ h3, h4]

theorem sdtJson_inj : ∀ (a b : Sdt), sdtJson P a = sdtJson P b → blurSdt B a = blurSdt B b
  | ⟨cs, pr, n⟩, ⟨cs', pr', n'⟩, h => by
    simp only [sdtJson, Json.obj.injEq, List.cons.injEq, Prod.mk.injEq, true_and, and_true, Json.str.injEq, Json.bool.injEq, Json.arr.injEq] at h
    obtain ⟨h1, h2, h3⟩ := h
    simp only [blurSdt, sdtChildrenJson_inj cs cs' h1, hs.sdt _ _ h2, h3]

theorem sdtChildJson_inj : ∀ (a b : SdtChild), sdtChildJson P a = sdtChildJson P b → blurSdtChild B a = blurSdtChild B b

  | .run r, b, h => by
    cases b <;> simp only [sdtChildJson] at h
    case run r' =>
      replace h := (tagged_inj.1 h).2
      simp only [blurSdtChild, runJson_inj r r' h]
    all_goals first
      | exact tag_off h (by decide)
      | exact just_off h (by decide)
      | exact just_tag_off h
      | exact tag_just_off h
      | (have h := (tagged_inj.1 h).2; exact tag_off h (by decide))
      | (have h := (tagged_inj.1 h).2; simp [tagged] at h)

  | .paragraph p, b, h => by
    cases b <;> simp only [sdtChildJson] at h
    case paragraph p' =>
      replace h := (tagged_inj.1 h).2
      simp only [blurSdtChild, paragraphJson_inj p p' h]
    all_goals first
      | exact tag_off h (by decide)
      | exact just_off h (by decide)
      | exact just_tag_off h
      | exact tag_just_off h
      | (have h := (tagged_inj.1 h).2; exact tag_off h (by decide))
      | (have h := (tagged_inj.1 h).2; simp [tagged] at h)

  | .table t, b, h => by
    cases b <;> simp only [sdtChildJson] at h
    case table t' =>
      replace h := (tagged_inj.1 h).2
      simp only [blurSdtChild, tableJson_inj t t' h]
    all_goals first
      | exact tag_off h (by decide)
      | exact just_off h (by decide)
      | exact just_tag_off h
      | exact tag_just_off h
      | (have h := (tagged_inj.1 h).2; exact tag_off h (by decide))
      | (have h := (tagged_inj.1 h).2; simp [tagged] at h)

  | .bookmarkStart i n, b, h => by
    cases b <;> simp only [sdtChildJson] at h
    case bookmarkStart i' n' =>
      replace h := (tagged_inj.1 h).2
      simp only [bookmarkJson, Json.obj.injEq, List.cons.injEq, Prod.mk.injEq, true_and, and_true, Json.str.injEq, Json.bool.injEq, Json.arr.injEq] at h
      simp only [blurSdtChild, jnat_inj h.1, h.2]
    all_goals first
      | exact tag_off h (by decide)
      | exact just_off h (by decide)
      | exact just_tag_off h
      | exact tag_just_off h
      | (have h := (tagged_inj.1 h).2; exact tag_off h (by decide))
      | (have h := (tagged_inj.1 h).2; simp [tagged] at h)

  | .bookmarkEnd i, b, h => by
    cases b <;> simp only [sdtChildJson] at h
    case bookmarkEnd i' =>
      replace h := (tagged_inj.1 h).2
      simp only [idJson, Json.obj.injEq, List.cons.injEq, Prod.mk.injEq, true_and, and_true] at h
      simp only [blurSdtChild, jnat_inj h]
    all_goals first
      | exact tag_off h (by decide)
      | exact just_off h (by decide)
      | exact just_tag_off h
      | exact tag_just_off h
      | (have h := (tagged_inj.1 h).2; exact tag_off h (by decide))
      | (have h := (tagged_inj.1 h).2; simp [tagged] at h)

  | .commentStart i c, b, h => by
    cases b <;> simp only [sdtChildJson] at h
    case commentStart i' c' =>
      replace h := (tagged_inj.1 h).2
      simp only [Json.obj.injEq, List.cons.injEq, Prod.mk.injEq, true_and, and_true, Json.str.injEq, Json.bool.injEq, Json.arr.injEq] at h
      simp only [blurSdtChild, jnat_inj h.1, commentJson_inj c c' h.2]
    all_goals first
      | exact tag_off h (by decide)
      | exact just_off h (by decide)
      | exact just_tag_off h
      | exact tag_just_off h
      | (have h := (tagged_inj.1 h).2; exact tag_off h (by decide))
      | (have h := (tagged_inj.1 h).2; simp [tagged] at h)

  | .commentEnd i, b, h => by
    cases b <;> simp only [sdtChildJson] at h
    case commentEnd i' =>
      replace h := (tagged_inj.1 h).2
      simp only [idJson, Json.obj.injEq, List.cons.injEq, Prod.mk.injEq, true_and, and_true] at h
      simp only [blurSdtChild, jnat_inj h]
    all_goals first
      | exact tag_off h (by decide)
      | exact just_off h (by decide)
      | exact just_tag_off h
      | exact tag_just_off h
      | (have h := (tagged_inj.1 h).2; exact tag_off h (by decide))
      | (have h := (tagged_inj.1 h).2; simp [tagged] at h)

  | .sdt s, b, h => by
    cases b <;> simp only [sdtChildJson] at h
    case sdt s' =>
      replace h := (tagged_inj.1 h).2
      simp only [blurSdtChild, sdtJson_inj s s' h]
    all_goals first
      | exact tag_off h (by decide)
      | exact just_off h (by decide)
      | exact just_tag_off h
      | exact tag_just_off h
      | (have h := (tagged_inj.1 h).2; exact tag_off h (by decide))
      | (have h := (tagged_inj.1 h).2; simp [tagged] at h)

theorem sdtChildrenJson_inj : ∀ (a b : List SdtChild), sdtChildrenJson P a = sdtChildrenJson P b → blurSdtChildren B a = blurSdtChildren B b
  | [], [], _ => rfl
  | [], _ :: _, h => by simp [sdtChildrenJson] at h
  | _ :: _, [], h => by simp [sdtChildrenJson] at h
  | c :: cs, d :: ds, h => by
    simp only [sdtChildrenJson, List.cons.injEq] at h
    simp only [blurSdtChildren, sdtChildJson_inj c d h.1, sdtChildrenJson_inj cs ds h.2]

theorem tableJson_inj : ∀ (a b : Table), tableJson P a = tableJson P b → blurTable B a = blurTable B b
  | ⟨rs, g, n, pr⟩, ⟨rs', g', n', pr'⟩, h => by
    simp only [tableJson, Json.obj.injEq, List.cons.injEq, Prod.mk.injEq, true_and, and_true, Json.str.injEq, Json.bool.injEq, Json.arr.injEq] at h
    obtain ⟨h1, h2, h3, h4⟩ := h
    simp only [blurTable, rowsJson_inj rs rs' h1, nats_inj h2, h3, hs.table _ _ h4]

theorem rowJson_inj : ∀ (a b : Row), rowJson P a = rowJson P b → blurRow B a = blurRow B b
  | ⟨cs, n, pr⟩, ⟨cs', n', pr'⟩, h => by
    simp only [rowJson, Json.obj.injEq, List.cons.injEq, Prod.mk.injEq, true_and, and_true, Json.str.injEq, Json.bool.injEq, Json.arr.injEq] at h
    obtain ⟨h1, h2, h3⟩ := h
    simp only [blurRow, cellsJson_inj cs cs' h1, h2, hs.row _ _ h3]

theorem rowsJson_inj : ∀ (a b : List Row), rowsJson P a = rowsJson P b → blurRows B a = blurRows B b
  | [], [], _ => rfl
  | [], _ :: _, h => by simp [rowsJson] at h
  | _ :: _, [], h => by simp [rowsJson] at h
  | c :: cs, d :: ds, h => by
    simp only [rowsJson, List.cons.injEq] at h
    simp only [blurRows, rowJson_inj c d (tagged_inj.1 h.1).2, rowsJson_inj cs ds h.2]

theorem cellJson_inj : ∀ (a b : Cell), cellJson P a = cellJson P b → blurCell B a = blurCell B b
  | ⟨cs, pr, n⟩, ⟨cs', pr', n'⟩, h => by
    simp only [cellJson, Json.obj.injEq, List.cons.injEq, Prod.mk.injEq, true_and, and_true, Json.str.injEq, Json.bool.injEq, Json.arr.injEq] at h
    obtain ⟨h1, h2, h3⟩ := h
    simp only [blurCell, cellContentsJson_inj cs cs' h1, hs.cell _ _ h2, h3]

theorem cellsJson_inj : ∀ (a b : List Cell), cellsJson P a = cellsJson P b → blurCells B a = blurCells B b
  | [], [], _ => rfl
  | [], _ :: _, h => by simp [cellsJson] at h
  | _ :: _, [], h => by simp [cellsJson] at h
  | c :: cs, d :: ds, h => by
    simp only [cellsJson, List.cons.injEq] at h
    simp only [blurCells, cellJson_inj c d (tagged_inj.1 h.1).2, cellsJson_inj cs ds h.2]

theorem cellContentJson_inj : ∀ (a b : CellContent), cellContentJson P a = cellContentJson P b → blurCellContent B a = blurCellContent B b

  | .paragraph p, b, h => by
    cases b <;> simp only [cellContentJson] at h
    case paragraph p' =>
      replace h := (tagged_inj.1 h).2
      simp only [blurCellContent, paragraphJson_inj p p' h]
    all_goals first
      | exact tag_off h (by decide)
      | exact just_off h (by decide)
      | exact just_tag_off h
      | exact tag_just_off h
      | (have h := (tagged_inj.1 h).2; exact tag_off h (by decide))
      | (have h := (tagged_inj.1 h).2; simp [tagged] at h)

  | .table t, b, h => by
    cases b <;> simp only [cellContentJson] at h
    case table t' =>
      replace h := (tagged_inj.1 h).2
      simp only [blurCellContent, tableJson_inj t t' h]
    all_goals first
      | exact tag_off h (by decide)
      | exact just_off h (by decide)
      | exact just_tag_off h
      | exact tag_just_off h
      | (have h := (tagged_inj.1 h).2; exact tag_off h (by decide))
      | (have h := (tagged_inj.1 h).2; simp [tagged] at h)

  | .sdt s, b, h => by
    cases b <;> simp only [cellContentJson] at h
    case sdt s' =>
      replace h := (tagged_inj.1 h).2
      simp only [blurCellContent, sdtJson_inj s s' h]
    all_goals first
      | exact tag_off h (by decide)
      | exact just_off h (by decide)
      | exact just_tag_off h
      | exact tag_just_off h
      | (have h := (tagged_inj.1 h).2; exact tag_off h (by decide))
      | (have h := (tagged_inj.1 h).2; simp [tagged] at h)

  | .toc t, b, h => by
    cases b <;> simp only [cellContentJson] at h
    case toc t' =>
      replace h := (tagged_inj.1 h).2
      simp only [blurCellContent, tocJson_inj t t' h]
    all_goals first
      | exact tag_off h (by decide)
      | exact just_off h (by decide)
      | exact just_tag_off h
      | exact tag_just_off h
      | (have h := (tagged_inj.1 h).2; exact tag_off h (by decide))
      | (have h := (tagged_inj.1 h).2; simp [tagged] at h)

theorem cellContentsJson_inj : ∀ (a b : List CellContent), cellContentsJson P a = cellContentsJson P b → blurCellContents B a = blurCellContents B b
  | [], [], _ => rfl
  | [], _ :: _, h => by simp [cellContentsJson] at h
  | _ :: _, [], h => by simp [cellContentsJson] at h
  | c :: cs, d :: ds, h => by
    simp only [cellContentsJson, List.cons.injEq] at h
    simp only [blurCellContents, cellContentJson_inj c d h.1, cellContentsJson_inj cs ds h.2]

theorem tocJson_inj : ∀ (a b : Toc), tocJson P a = tocJson P b → blurToc B a = blurToc B b
  | ⟨a, b, c, d, e, f, g, bs, as, j, k⟩, ⟨a', b', c', d', e', f', g', bs', as', j', k'⟩, h => by
    simp only [tocJson, List.cons_append, List.nil_append, List.append_assoc, Json.obj.injEq, List.cons.injEq, Prod.mk.injEq, true_and, Json.str.injEq, Json.bool.injEq, Json.arr.injEq] at h
    obtain ⟨h1, h2, h3, h4, h5, h6, h7, h8⟩ := h
    have k1 : ∀ (u : List Json) (v : Option Mark) (x : Option ParagraphProperty), ∀ y ∈ listField c!"after_contents" u ++ (optField c!"delete" markJson v ++ optField c!"paragraph_property" P.paragraph x), y.1 ≠ c!"before_contents" := by
      intro u v x y hy
      simp only [List.mem_append] at hy
      rcases hy with hy | hy | hy
      · rw [listField_key hy]; decide
      · rw [optField_key hy]; decide
      · rw [optField_key hy]; decide
    have k2 : ∀ (v : Option Mark) (x : Option ParagraphProperty), ∀ y ∈ optField c!"delete" markJson v ++ optField c!"paragraph_property" P.paragraph x, y.1 ≠ c!"after_contents" := by
      intro v x y hy
      simp only [List.mem_append] at hy
      rcases hy with hy | hy
      · rw [optField_key hy]; decide
      · rw [optField_key hy]; decide
    have k3 : ∀ (x : Option ParagraphProperty), ∀ y ∈ optField c!"paragraph_property" P.paragraph x, y.1 ≠ c!"delete" := by
      intro x y hy
      rw [optField_key hy]; decide
    obtain ⟨h8, h9⟩ := listField_split (k1 _ _ _) (k1 _ _ _) h8
    obtain ⟨h9, h10⟩ := listField_split (k2 _ _) (k2 _ _) h9
    obtain ⟨h10, h11⟩ := optField_split (k3 _) (k3 _) h10
    have e1 : j = j' := by
      rcases h10 with ⟨rfl, rfl⟩ | ⟨x, y, rfl, rfl, h⟩
      · rfl
      · rw [mark_inj h]
    have e2 : k.map B.paragraph = k'.map B.paragraph := by
      cases k <;> cases k' <;> simp only [optField, List.cons.injEq, Prod.mk.injEq, true_and, and_true, reduceCtorEq] at h11
      · rfl
      · simp only [Option.map_some, hs.paragraph _ _ h11]
    simp only [blurToc, hs.tocInstr _ _ h1, tocItems_inj hs h2, h3, h4, h5, jopt_str_inj h6, jopt_str_inj h7, blocksJson_inj bs bs' h8, blocksJson_inj as as' h9, e1, e2]

end

omit hs in
theorem list_inj {α β : Type} {f : α → Json} {g : α → β} (hfg : ∀ a b, f a = f b → g a = g b) : ∀ {a b : List α}, a.map f = b.map f → a.map g = b.map g
  | [], [], _ => rfl
  | [], _ :: _, h => by simp at h
  | _ :: _, [], h => by simp at h
  | x :: a, y :: b, h => by
    simp only [List.map_cons, List.cons.injEq] at h ⊢
    exact ⟨hfg _ _ h.1, list_inj hfg h.2⟩

theorem headerChildJson_inj : ∀ (a b : HeaderChild), headerChildJson P a = headerChildJson P b → blurHeaderChild B a = blurHeaderChild B b

  | .paragraph p, b, h => by
    cases b <;> simp only [headerChildJson] at h
    case paragraph p' =>
      replace h := (tagged_inj.1 h).2
      simp only [blurHeaderChild, paragraphJson_inj hs p p' h]
    all_goals first
      | exact tag_off h (by decide)
      | exact just_off h (by decide)
      | exact just_tag_off h
      | exact tag_just_off h
      | (have h := (tagged_inj.1 h).2; exact tag_off h (by decide))
      | (have h := (tagged_inj.1 h).2; simp [tagged] at h)

  | .table t, b, h => by
    cases b <;> simp only [headerChildJson] at h
    case table t' =>
      replace h := (tagged_inj.1 h).2
      simp only [blurHeaderChild, tableJson_inj hs t t' h]
    all_goals first
      | exact tag_off h (by decide)
      | exact just_off h (by decide)
      | exact just_tag_off h
      | exact tag_just_off h
      | (have h := (tagged_inj.1 h).2; exact tag_off h (by decide))
      | (have h := (tagged_inj.1 h).2; simp [tagged] at h)

  | .sdt s, b, h => by
    cases b <;> simp only [headerChildJson] at h
    case sdt s' =>
      replace h := (tagged_inj.1 h).2
      simp only [blurHeaderChild, sdtJson_inj hs s s' h]
    all_goals first
      | exact tag_off h (by decide)
      | exact just_off h (by decide)
      | exact just_tag_off h
      | exact tag_just_off h
      | (have h := (tagged_inj.1 h).2; exact tag_off h (by decide))
      | (have h := (tagged_inj.1 h).2; simp [tagged] at h)

theorem headerJson_inj (a b : Header) (h : headerJson P a = headerJson P b) : blurHeader B a = blurHeader B b := by
  simp only [headerJson, Json.obj.injEq, List.cons.injEq, Prod.mk.injEq, true_and, and_true, Json.bool.injEq, Json.arr.injEq] at h
  simp only [blurHeader, h.1, list_inj (headerChildJson_inj hs) h.2]

theorem partJson_inj (a b : Str × Header) (h : partJson P a = partJson P b) : blurPart B a = blurPart B b := by
  simp only [partJson, Json.arr.injEq, List.cons.injEq, and_true, Json.str.injEq] at h
  simp only [blurPart, h.1, headerJson_inj hs _ _ h.2]

theorem parts_inj {a b : Option (Str × Header)} (h : (a = none ∧ b = none) ∨ ∃ x y, a = some x ∧ b = some y ∧ partJson P x = partJson P y) :
    a.map (blurPart B) = b.map (blurPart B) := by
  rcases h with ⟨rfl, rfl⟩ | ⟨x, y, rfl, rfl, h⟩
  · rfl
  · simp only [Option.map_some, partJson_inj hs _ _ h]

theorem headers_inj {a b : Option Header} (h : jopt (headerJson P) a = jopt (headerJson P) b) : a.map (blurHeader B) = b.map (blurHeader B) := by
  cases a <;> cases b
  · rfl
  · simp [jopt, headerJson] at h
  · simp [jopt, headerJson] at h
  · simp only [jopt] at h; simp only [Option.map_some, headerJson_inj hs _ _ h]

theorem sectionPropertyJson_inj (ha : Leaves.Apart P) (a b : SectionProperty) (h : sectionPropertyJson P a = sectionPropertyJson P b) :
    blurSectionProperty B a = blurSectionProperty B b := by
  have keys : ∀ (q : SectionProperty) (k : Str), k ∈ [c!"header", c!"firstHeader", c!"evenHeader", c!"footer", c!"firstFooter", c!"evenFooter"] →
      ∀ y ∈ P.section' q.base, y.1 ≠ k := fun q k hk y hy e => ha _ y hy (e ▸ hk)
  simp only [sectionPropertyJson, Json.obj.injEq, List.append_assoc] at h
  obtain ⟨h1, h⟩ := optField_split (by
    intro y hy; simp only [List.mem_append] at hy
    rcases hy with hy | hy | hy | hy | hy | hy
    iterate 5 (rw [optField_key hy]; decide)
    exact keys _ _ (by decide) y hy) (by
    intro y hy; simp only [List.mem_append] at hy
    rcases hy with hy | hy | hy | hy | hy | hy
    iterate 5 (rw [optField_key hy]; decide)
    exact keys _ _ (by decide) y hy) h
  obtain ⟨h2, h⟩ := optField_split (by
    intro y hy; simp only [List.mem_append] at hy
    rcases hy with hy | hy | hy | hy | hy
    iterate 4 (rw [optField_key hy]; decide)
    exact keys _ _ (by decide) y hy) (by
    intro y hy; simp only [List.mem_append] at hy
    rcases hy with hy | hy | hy | hy | hy
    iterate 4 (rw [optField_key hy]; decide)
    exact keys _ _ (by decide) y hy) h
  obtain ⟨h3, h⟩ := optField_split (by
    intro y hy; simp only [List.mem_append] at hy
    rcases hy with hy | hy | hy | hy
    iterate 3 (rw [optField_key hy]; decide)
    exact keys _ _ (by decide) y hy) (by
    intro y hy; simp only [List.mem_append] at hy
    rcases hy with hy | hy | hy | hy
    iterate 3 (rw [optField_key hy]; decide)
    exact keys _ _ (by decide) y hy) h
  obtain ⟨h4, h⟩ := optField_split (by
    intro y hy; simp only [List.mem_append] at hy
    rcases hy with hy | hy | hy
    iterate 2 (rw [optField_key hy]; decide)
    exact keys _ _ (by decide) y hy) (by
    intro y hy; simp only [List.mem_append] at hy
    rcases hy with hy | hy | hy
    iterate 2 (rw [optField_key hy]; decide)
    exact keys _ _ (by decide) y hy) h
  obtain ⟨h5, h⟩ := optField_split (by
    intro y hy; simp only [List.mem_append] at hy
    rcases hy with hy | hy
    · rw [optField_key hy]; decide
    exact keys _ _ (by decide) y hy) (by
    intro y hy; simp only [List.mem_append] at hy
    rcases hy with hy | hy
    · rw [optField_key hy]; decide
    exact keys _ _ (by decide) y hy) h
  obtain ⟨h6, h⟩ := optField_split (fun y hy => keys _ _ (by decide) y hy) (fun y hy => keys _ _ (by decide) y hy) h
  simp only [blurSectionProperty, hs.base _ _ h, parts_inj hs h1, parts_inj hs h2, parts_inj hs h3, parts_inj hs h4, parts_inj hs h5, parts_inj hs h6]

theorem sectionChildJson_inj : ∀ (a b : SectionChild), sectionChildJson P a = sectionChildJson P b → blurSectionChild B a = blurSectionChild B b

  | .paragraph p, b, h => by
    cases b <;> simp only [sectionChildJson] at h
    case paragraph p' =>
      replace h := (tagged_inj.1 h).2
      simp only [blurSectionChild, paragraphJson_inj hs p p' h]
    all_goals first
      | exact tag_off h (by decide)
      | exact just_off h (by decide)
      | exact just_tag_off h
      | exact tag_just_off h
      | (have h := (tagged_inj.1 h).2; exact tag_off h (by decide))
      | (have h := (tagged_inj.1 h).2; simp [tagged] at h)

  | .table t, b, h => by
    cases b <;> simp only [sectionChildJson] at h
    case table t' =>
      replace h := (tagged_inj.1 h).2
      simp only [blurSectionChild, tableJson_inj hs t t' h]
    all_goals first
      | exact tag_off h (by decide)
      | exact just_off h (by decide)
      | exact just_tag_off h
      | exact tag_just_off h
      | (have h := (tagged_inj.1 h).2; exact tag_off h (by decide))
      | (have h := (tagged_inj.1 h).2; simp [tagged] at h)

  | .bookmarkStart i n, b, h => by
    cases b <;> simp only [sectionChildJson] at h
    case bookmarkStart i' n' =>
      replace h := (tagged_inj.1 h).2
      simp only [bookmarkJson, Json.obj.injEq, List.cons.injEq, Prod.mk.injEq, true_and, and_true, Json.str.injEq, Json.bool.injEq, Json.arr.injEq] at h
      simp only [blurSectionChild, jnat_inj h.1, h.2]
    all_goals first
      | exact tag_off h (by decide)
      | exact just_off h (by decide)
      | exact just_tag_off h
      | exact tag_just_off h
      | (have h := (tagged_inj.1 h).2; exact tag_off h (by decide))
      | (have h := (tagged_inj.1 h).2; simp [tagged] at h)

  | .bookmarkEnd i, b, h => by
    cases b <;> simp only [sectionChildJson] at h
    case bookmarkEnd i' =>
      replace h := (tagged_inj.1 h).2
      simp only [idJson, Json.obj.injEq, List.cons.injEq, Prod.mk.injEq, true_and, and_true] at h
      simp only [blurSectionChild, jnat_inj h]
    all_goals first
      | exact tag_off h (by decide)
      | exact just_off h (by decide)
      | exact just_tag_off h
      | exact tag_just_off h
      | (have h := (tagged_inj.1 h).2; exact tag_off h (by decide))
      | (have h := (tagged_inj.1 h).2; simp [tagged] at h)

  | .commentStart i c, b, h => by
    cases b <;> simp only [sectionChildJson] at h
    case commentStart i' c' =>
      replace h := (tagged_inj.1 h).2
      simp only [Json.obj.injEq, List.cons.injEq, Prod.mk.injEq, true_and, and_true, Json.str.injEq, Json.bool.injEq, Json.arr.injEq] at h
      simp only [blurSectionChild, jnat_inj h.1, commentJson_inj hs c c' h.2]
    all_goals first
      | exact tag_off h (by decide)
      | exact just_off h (by decide)
      | exact just_tag_off h
      | exact tag_just_off h
      | (have h := (tagged_inj.1 h).2; exact tag_off h (by decide))
      | (have h := (tagged_inj.1 h).2; simp [tagged] at h)

  | .commentEnd i, b, h => by
    cases b <;> simp only [sectionChildJson] at h
    case commentEnd i' =>
      replace h := (tagged_inj.1 h).2
      simp only [idJson, Json.obj.injEq, List.cons.injEq, Prod.mk.injEq, true_and, and_true] at h
      simp only [blurSectionChild, jnat_inj h]
    all_goals first
      | exact tag_off h (by decide)
      | exact just_off h (by decide)
      | exact just_tag_off h
      | exact tag_just_off h
      | (have h := (tagged_inj.1 h).2; exact tag_off h (by decide))
      | (have h := (tagged_inj.1 h).2; simp [tagged] at h)

  | .sdt s, b, h => by
    cases b <;> simp only [sectionChildJson] at h
    case sdt s' =>
      replace h := (tagged_inj.1 h).2
      simp only [blurSectionChild, sdtJson_inj hs s s' h]
    all_goals first
      | exact tag_off h (by decide)
      | exact just_off h (by decide)
      | exact just_tag_off h
      | exact tag_just_off h
      | (have h := (tagged_inj.1 h).2; exact tag_off h (by decide))
      | (have h := (tagged_inj.1 h).2; simp [tagged] at h)

  | .toc t, b, h => by
    cases b <;> simp only [sectionChildJson] at h
    case toc t' =>
      replace h := (tagged_inj.1 h).2
      simp only [blurSectionChild, tocJson_inj hs t t' h]
    all_goals first
      | exact tag_off h (by decide)
      | exact just_off h (by decide)
      | exact just_tag_off h
      | exact tag_just_off h
      | (have h := (tagged_inj.1 h).2; exact tag_off h (by decide))
      | (have h := (tagged_inj.1 h).2; simp [tagged] at h)

theorem sectionJson_inj (ha : Leaves.Apart P) (a b : Section) (h : sectionJson P a = sectionJson P b) : blurSection B a = blurSection B b := by
  simp only [sectionJson, Json.obj.injEq, List.cons.injEq, Prod.mk.injEq, true_and, and_true, Json.bool.injEq, Json.arr.injEq] at h
  obtain ⟨h1, h2, h3, h4, h5, h6, h7, h8, h9⟩ := h
  simp only [blurSection, sectionPropertyJson_inj hs ha _ _ h1, list_inj (sectionChildJson_inj hs) h2, h3, headers_inj hs h4, headers_inj hs h5, headers_inj hs h6, headers_inj hs h7, headers_inj hs h8, headers_inj hs h9]

theorem documentChildJson_inj (ha : Leaves.Apart P) : ∀ (a b : DocumentChild), documentChildJson P a = documentChildJson P b → blurDocumentChild B a = blurDocumentChild B b

  | .paragraph p, b, h => by
    cases b <;> simp only [documentChildJson] at h
    case paragraph p' =>
      replace h := (tagged_inj.1 h).2
      simp only [blurDocumentChild, paragraphJson_inj hs p p' h]
    all_goals first
      | exact tag_off h (by decide)
      | exact just_off h (by decide)
      | exact just_tag_off h
      | exact tag_just_off h
      | (have h := (tagged_inj.1 h).2; exact tag_off h (by decide))
      | (have h := (tagged_inj.1 h).2; simp [tagged] at h)

  | .table t, b, h => by
    cases b <;> simp only [documentChildJson] at h
    case table t' =>
      replace h := (tagged_inj.1 h).2
      simp only [blurDocumentChild, tableJson_inj hs t t' h]
    all_goals first
      | exact tag_off h (by decide)
      | exact just_off h (by decide)
      | exact just_tag_off h
      | exact tag_just_off h
      | (have h := (tagged_inj.1 h).2; exact tag_off h (by decide))
      | (have h := (tagged_inj.1 h).2; simp [tagged] at h)

  | .bookmarkStart i n, b, h => by
    cases b <;> simp only [documentChildJson] at h
    case bookmarkStart i' n' =>
      replace h := (tagged_inj.1 h).2
      simp only [bookmarkJson, Json.obj.injEq, List.cons.injEq, Prod.mk.injEq, true_and, and_true, Json.str.injEq, Json.bool.injEq, Json.arr.injEq] at h
      simp only [blurDocumentChild, jnat_inj h.1, h.2]
    all_goals first
      | exact tag_off h (by decide)
      | exact just_off h (by decide)
      | exact just_tag_off h
      | exact tag_just_off h
      | (have h := (tagged_inj.1 h).2; exact tag_off h (by decide))
      | (have h := (tagged_inj.1 h).2; simp [tagged] at h)

  | .bookmarkEnd i, b, h => by
    cases b <;> simp only [documentChildJson] at h
    case bookmarkEnd i' =>
      replace h := (tagged_inj.1 h).2
      simp only [idJson, Json.obj.injEq, List.cons.injEq, Prod.mk.injEq, true_and, and_true] at h
      simp only [blurDocumentChild, jnat_inj h]
    all_goals first
      | exact tag_off h (by decide)
      | exact just_off h (by decide)
      | exact just_tag_off h
      | exact tag_just_off h
      | (have h := (tagged_inj.1 h).2; exact tag_off h (by decide))
      | (have h := (tagged_inj.1 h).2; simp [tagged] at h)

  | .commentStart i c, b, h => by
    cases b <;> simp only [documentChildJson] at h
    case commentStart i' c' =>
      replace h := (tagged_inj.1 h).2
      simp only [Json.obj.injEq, List.cons.injEq, Prod.mk.injEq, true_and, and_true, Json.str.injEq, Json.bool.injEq, Json.arr.injEq] at h
      simp only [blurDocumentChild, jnat_inj h.1, commentJson_inj hs c c' h.2]
    all_goals first
      | exact tag_off h (by decide)
      | exact just_off h (by decide)
      | exact just_tag_off h
      | exact tag_just_off h
      | (have h := (tagged_inj.1 h).2; exact tag_off h (by decide))
      | (have h := (tagged_inj.1 h).2; simp [tagged] at h)

  | .commentEnd i, b, h => by
    cases b <;> simp only [documentChildJson] at h
    case commentEnd i' =>
      replace h := (tagged_inj.1 h).2
      simp only [idJson, Json.obj.injEq, List.cons.injEq, Prod.mk.injEq, true_and, and_true] at h
      simp only [blurDocumentChild, jnat_inj h]
    all_goals first
      | exact tag_off h (by decide)
      | exact just_off h (by decide)
      | exact just_tag_off h
      | exact tag_just_off h
      | (have h := (tagged_inj.1 h).2; exact tag_off h (by decide))
      | (have h := (tagged_inj.1 h).2; simp [tagged] at h)

  | .sdt s, b, h => by
    cases b <;> simp only [documentChildJson] at h
    case sdt s' =>
      replace h := (tagged_inj.1 h).2
      simp only [blurDocumentChild, sdtJson_inj hs s s' h]
    all_goals first
      | exact tag_off h (by decide)
      | exact just_off h (by decide)
      | exact just_tag_off h
      | exact tag_just_off h
      | (have h := (tagged_inj.1 h).2; exact tag_off h (by decide))
      | (have h := (tagged_inj.1 h).2; simp [tagged] at h)

  | .toc t, b, h => by
    cases b <;> simp only [documentChildJson] at h
    case toc t' =>
      replace h := (tagged_inj.1 h).2
      simp only [blurDocumentChild, tocJson_inj hs t t' h]
    all_goals first
      | exact tag_off h (by decide)
      | exact just_off h (by decide)
      | exact just_tag_off h
      | exact tag_just_off h
      | (have h := (tagged_inj.1 h).2; exact tag_off h (by decide))
      | (have h := (tagged_inj.1 h).2; simp [tagged] at h)

  | .«section» s, b, h => by
    cases b <;> simp only [documentChildJson] at h
    case «section» s' =>
      replace h := (tagged_inj.1 h).2
      simp only [blurDocumentChild, sectionJson_inj hs ha s s' h]
    all_goals first
      | exact tag_off h (by decide)
      | exact just_off h (by decide)
      | exact just_tag_off h
      | exact tag_just_off h
      | (have h := (tagged_inj.1 h).2; exact tag_off h (by decide))
      | (have h := (tagged_inj.1 h).2; simp [tagged] at h)

theorem documentJson_inj (ha : Leaves.Apart P) (a b : Document) (h : documentJson P a = documentJson P b) : blurDocument B a = blurDocument B b := by
  simp only [documentJson, Json.obj.injEq, List.cons.injEq, Prod.mk.injEq, true_and, and_true, Json.bool.injEq, Json.arr.injEq] at h
  obtain ⟨h1, h2, h3⟩ := h
  simp only [blurDocument, list_inj (documentChildJson_inj hs ha) h1, sectionPropertyJson_inj hs ha _ _ h2, h3]

end

end Docx
