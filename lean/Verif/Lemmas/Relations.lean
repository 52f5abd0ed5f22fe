import Verif.Spec.Relations
import Verif.Lemmas.Prepared

/-!
# The relationships and content types a reader finds
-/

namespace Docx

set_option linter.unusedSimpArgs false

open Docx.Spec Docx.Xml

/-- The node for a relationship. -/
def relationN (r : Relation) : List Node :=
  leafN c!"Relationship" ([(c!"Id", r.id), (c!"Type", r.type), (c!"Target", r.target)] ++ optAttr c!"TargetMode" r.mode)

/-- A relationship as it is read. -/
def decodeRelation (r : Relation) : Option Relation :=
  match decodeAttr r.id, decodeAttr r.type, decodeAttr r.target, r.mode with
  | some i, some t, some g, none => some ⟨i, t, g, none⟩
  | some i, some t, some g, some m => some ⟨i, t, g, decodeAttr m⟩
  | _, _, _, _ => none

theorem constText_reads (sa : Option Bool) {f : List Node} (h : OkF f) :
    readEvents (constText sa f) = expect [] none (tagsForest f) := by
  obtain ⟨out, h1, h2⟩ := Props.C06_read_write_declared c!"1.0" (some c!"UTF-8") sa f noGt.1 noGt.2 h
  rw [Props.C05_declaration] at h1
  cases h1
  exact h2

theorem collectForest_flatMap {α β : Type} (own : Str → List (Str × Str) → List Node → List α) (l : List β) (f : β → List Node) :
    collectForest own (l.flatMap f) = l.flatMap fun x => collectForest own (f x) := by
  induction l with
  | nil => rfl
  | cons x l ih => rw [List.flatMap_cons, collectForest_append, ih, List.flatMap_cons]

theorem filterMap_flatMap' {α β γ : Type} (p : β → Option γ) (l : List α) (f : α → List β) :
    (l.flatMap f).filterMap p = l.flatMap fun x => (f x).filterMap p := by
  induction l with
  | nil => rfl
  | cons x l ih => rw [List.flatMap_cons, List.filterMap_append, ih, List.flatMap_cons]

theorem flatMap_toList {α β : Type} (p : α → Option β) (l : List α) : (l.flatMap fun x => (p x).toList) = l.filterMap p := by
  induction l with
  | nil => rfl
  | cons x l ih =>
    rw [List.flatMap_cons, ih, List.filterMap_cons]
    cases p x <;> rfl

theorem relationOf_relationN (r : Relation) : (collectForest startOf (relationN r)).filterMap relationOf = (decodeRelation r).toList := by
  obtain ⟨i, t, g, m⟩ := r
  have e0 : splitQName c!"Relationship" = ⟨none, c!"Relationship"⟩ := by decide
  have e1 : splitQName c!"Id" = ⟨none, c!"Id"⟩ := by decide
  have e2 : splitQName c!"Type" = ⟨none, c!"Type"⟩ := by decide
  have e3 : splitQName c!"Target" = ⟨none, c!"Target"⟩ := by decide
  have e4 : splitQName c!"TargetMode" = ⟨none, c!"TargetMode"⟩ := by decide
  have n1 : (⟨none, c!"Id"⟩ : QName) ≠ ⟨none, c!"Type"⟩ := by decide
  have n2 : (⟨none, c!"Id"⟩ : QName) ≠ ⟨none, c!"Target"⟩ := by decide
  have n3 : (⟨none, c!"Id"⟩ : QName) ≠ ⟨none, c!"TargetMode"⟩ := by decide
  have n4 : (⟨none, c!"Type"⟩ : QName) ≠ ⟨none, c!"Target"⟩ := by decide
  have n5 : (⟨none, c!"Type"⟩ : QName) ≠ ⟨none, c!"TargetMode"⟩ := by decide
  have n6 : (⟨none, c!"Target"⟩ : QName) ≠ ⟨none, c!"TargetMode"⟩ := by decide
  simp only [relationN, leafN, collectForest, Node.collect, startOf, e0, List.append_nil, List.filterMap_cons, List.filterMap_nil,
    relationOf, if_true]
  unfold decodeRelation
  cases m with
  | none =>
    simp only [optAttr, List.append_nil]
    cases h1 : decodeAttr i <;> cases h2 : decodeAttr t <;> cases h3 : decodeAttr g <;>
      simp [-String.reduceToList, expectAttrs, h1, h2, h3, e1, e2, e3, attrOf, n1, n2, n3, n4, n5, n6]
  | some m =>
    simp only [optAttr, List.cons_append, List.nil_append]
    cases h1 : decodeAttr i <;> cases h2 : decodeAttr t <;> cases h3 : decodeAttr g <;> cases h4 : decodeAttr m <;>
      simp [-String.reduceToList, expectAttrs, h1, h2, h3, h4, e1, e2, e3, e4, attrOf, n1, n2, n3, n4, n5, n6]

theorem relations_read (sa : Option Bool) (l : List Relation) (h : OkF (relationshipsN (l.flatMap relationN))) :
    relationsIn (readEvents (constText sa (relationshipsN (l.flatMap relationN)))) = l.filterMap decodeRelation := by
  rw [relationsIn, constText_reads sa h, eventStarts_tags _ h]
  have e0 : splitQName c!"Relationships" ≠ ⟨none, c!"Relationship"⟩ := by decide
  simp only [relationshipsN, collectForest, Node.collect, List.append_nil, startOf, List.filterMap_append, List.filterMap_cons,
    List.filterMap_nil]
  rw [relationOf, if_neg e0, List.nil_append, collectForest_flatMap, filterMap_flatMap']
  rw [← flatMap_toList]
  congr 1
  funext r
  exact relationOf_relationN r

end Docx
