import Verif.Spec.Reading
import Verif.Props.C06_RoundTrip
import Verif.Lemmas.BuildOk

/-!
# What the reader finds is what is in the element tree
-/

namespace Docx

open Docx.Spec Docx.Xml

theorem splitQName_inj {a b : Str} (h : splitQName a = splitQName b) : a = b := by
  rcases Props.C06_splitQName a with ⟨_, h1⟩ | ⟨p, l, rfl, _, h1⟩ <;>
    rcases Props.C06_splitQName b with ⟨_, h2⟩ | ⟨p', l', rfl, _, h2⟩ <;>
    rw [h1, h2] at h <;> simp_all

theorem eventTexts_expectText (q : QName) (acc : Option Str) (l : List REvent) :
    eventTexts q (expectText acc ++ l) = eventTexts q l := by
  unfold expectText
  split
  · rfl
  · split <;> rfl

theorem eventAttrs_expectText (q a : QName) (acc : Option Str) (l : List REvent) :
    eventAttrs q a (expectText acc ++ l) = eventAttrs q a l := by
  unfold expectText
  split
  · rfl
  · split <;> rfl

theorem closedText_expectText (acc : Option Str) (l : List REvent) :
    closedText (expectText acc ++ l) = (closedText l).map ((acc.getD []) ++ ·) := by
  cases acc with
  | none => simp [expectText]
  | some t =>
    simp only [expectText]
    split <;> simp [closedText]

/-- Character data and a closing tag. -/
theorem closedText_expect (n : Str) (open_ : List Str) (r : List Tag) (cs : List Node) (h : OkF cs) :
    ∀ acc, closedText (expect (n :: open_) acc (tagsForest cs ++ .cls :: r)) =
      (plainText cs).map ((acc.getD []) ++ ·) := by
  induction cs with
  | nil => intro acc; simp [tagsForest, expect, closedText_expectText, closedText, plainText]
  | cons x cs ih =>
    intro acc
    have h2 : OkF cs := fun t ht => h t (by simp [tagsForest, ht])
    cases x with
    | text s =>
      have h1 : TagOk (.txt s) := h _ (by simp [tagsForest, Node.tags])
      obtain ⟨d, hd⟩ := Option.isSome_iff_exists.1 h1.1
      simp only [tagsForest, Node.tags, List.cons_append, List.nil_append, plainText, hd]
      cases d with
      | nil =>
        simp only [expect, hd, ih h2]
        cases plainText cs <;> simp
      | cons c d =>
        simp only [expect, hd, ih h2]
        cases plainText cs <;> simp
    | elem m as ds =>
      simp [tagsForest, Node.tags, expect, closedText_expectText, closedText, plainText]

mutual
theorem eventTexts_node (name : Str) : (x : Node) → OkF [x] → ∀ open_ acc r, ∃ acc',
    eventTexts (splitQName name) (expect open_ acc (x.tags ++ r)) =
      x.collect (textIn name) ++ eventTexts (splitQName name) (expect open_ acc' r)
  | .text s, h, open_, acc, r => by
    have h1 : TagOk (.txt s) := h _ (by simp [tagsForest, Node.tags])
    obtain ⟨d, hd⟩ := Option.isSome_iff_exists.1 h1.1
    cases d with
    | nil => exact ⟨acc, by simp [Node.tags, expect, hd, Node.collect]⟩
    | cons c d => exact ⟨some (acc.getD [] ++ c :: d), by simp [Node.tags, expect, hd, Node.collect]⟩
  | .elem n as cs, h, open_, acc, r => by
    have h2 : OkF cs := fun t ht => h t (by simp [tagsForest, Node.tags, ht])
    obtain ⟨acc', h3⟩ := eventTexts_forest name cs h2 (n :: open_) none (.cls :: r)
    refine ⟨none, ?_⟩
    simp only [Node.tags, List.cons_append, List.append_assoc, List.nil_append, expect,
      eventTexts_expectText, eventTexts, closedText_expect n open_ r cs h2, h3, Node.collect, textIn]
    by_cases e : n = name
    · subst e; simp
    · have : splitQName n ≠ splitQName name := fun e' => e (splitQName_inj e')
      simp [e, this]
theorem eventTexts_forest (name : Str) : (f : List Node) → OkF f → ∀ open_ acc r, ∃ acc',
    eventTexts (splitQName name) (expect open_ acc (tagsForest f ++ r)) =
      collectForest (textIn name) f ++ eventTexts (splitQName name) (expect open_ acc' r)
  | [], _, open_, acc, r => ⟨acc, by simp [tagsForest, collectForest]⟩
  | x :: f, h, open_, acc, r => by
    have h1 : OkF [x] := fun t ht => h t (by
      simp only [tagsForest, List.append_nil] at ht; simp [tagsForest, ht])
    have h2 : OkF f := fun t ht => h t (by simp [tagsForest, ht])
    obtain ⟨acc1, e1⟩ := eventTexts_node name x h1 open_ acc (tagsForest f ++ r)
    obtain ⟨acc2, e2⟩ := eventTexts_forest name f h2 open_ acc1 r
    refine ⟨acc2, ?_⟩
    simp only [tagsForest, List.append_assoc, collectForest, e1, e2]
end

theorem filter_expectAttrs (attr : Str) (as : List (Str × Str)) (h : AttrsOk as) :
    ((expectAttrs as).filter fun x => decide (x.1 = splitQName attr)).map Prod.snd =
      (as.filter fun a => decide (a.1 = attr)).filterMap fun a => decodeAttr a.2 := by
  induction as with
  | nil => rfl
  | cons a as ih =>
    obtain ⟨k, v⟩ := a
    have h2 := ih fun a ha => h a (by simp [ha])
    obtain ⟨d, hd⟩ := Option.isSome_iff_exists.1 (h (k, v) (by simp)).2
    simp only [expectAttrs, hd]
    by_cases e : k = attr
    · subst e; simp [hd, h2]
    · have : splitQName k ≠ splitQName attr := fun e' => e (splitQName_inj e')
      simp [e, this, h2]

mutual
theorem eventAttrs_node (name attr : Str) : (x : Node) → OkF [x] → ∀ open_ acc r, ∃ acc',
    eventAttrs (splitQName name) (splitQName attr) (expect open_ acc (x.tags ++ r)) =
      x.collect (attrIn name attr) ++ eventAttrs (splitQName name) (splitQName attr) (expect open_ acc' r)
  | .text s, h, open_, acc, r => by
    have h1 : TagOk (.txt s) := h _ (by simp [tagsForest, Node.tags])
    obtain ⟨d, hd⟩ := Option.isSome_iff_exists.1 h1.1
    cases d with
    | nil => exact ⟨acc, by simp [Node.tags, expect, hd, Node.collect]⟩
    | cons c d => exact ⟨some (acc.getD [] ++ c :: d), by simp [Node.tags, expect, hd, Node.collect]⟩
  | .elem n as cs, h, open_, acc, r => by
    have h1 : TagOk (.opn n as) := h _ (by simp [tagsForest, Node.tags])
    have h2 : OkF cs := fun t ht => h t (by simp [tagsForest, Node.tags, ht])
    obtain ⟨acc', h3⟩ := eventAttrs_forest name attr cs h2 (n :: open_) none (.cls :: r)
    refine ⟨none, ?_⟩
    simp only [Node.tags, List.cons_append, List.append_assoc, List.nil_append, expect,
      eventAttrs_expectText, eventAttrs, h3, Node.collect, attrIn, filter_expectAttrs attr as h1.2]
    by_cases e : n = name
    · subst e; simp
    · have : splitQName n ≠ splitQName name := fun e' => e (splitQName_inj e')
      simp [e, this]
theorem eventAttrs_forest (name attr : Str) : (f : List Node) → OkF f → ∀ open_ acc r, ∃ acc',
    eventAttrs (splitQName name) (splitQName attr) (expect open_ acc (tagsForest f ++ r)) =
      collectForest (attrIn name attr) f ++ eventAttrs (splitQName name) (splitQName attr) (expect open_ acc' r)
  | [], _, open_, acc, r => ⟨acc, by simp [tagsForest, collectForest]⟩
  | x :: f, h, open_, acc, r => by
    have h1 : OkF [x] := fun t ht => h t (by
      simp only [tagsForest, List.append_nil] at ht; simp [tagsForest, ht])
    have h2 : OkF f := fun t ht => h t (by simp [tagsForest, ht])
    obtain ⟨acc1, e1⟩ := eventAttrs_node name attr x h1 open_ acc (tagsForest f ++ r)
    obtain ⟨acc2, e2⟩ := eventAttrs_forest name attr f h2 open_ acc1 r
    refine ⟨acc2, ?_⟩
    simp only [tagsForest, List.append_assoc, collectForest, e1, e2]
end

theorem eventTexts_tags (name : Str) (f : List Node) (h : OkF f) :
    eventTexts (splitQName name) (expect [] none (tagsForest f)) = collectForest (textIn name) f := by
  obtain ⟨acc, e⟩ := eventTexts_forest name f h [] none []
  have e2 : eventTexts (splitQName name) (expectText acc ++ [REvent.endDocument]) = [] := by
    rw [eventTexts_expectText]; rfl
  simpa [expect, e2] using e

theorem eventAttrs_tags (name attr : Str) (f : List Node) (h : OkF f) :
    eventAttrs (splitQName name) (splitQName attr) (expect [] none (tagsForest f)) =
      collectForest (attrIn name attr) f := by
  obtain ⟨acc, e⟩ := eventAttrs_forest name attr f h [] none []
  have e2 : eventAttrs (splitQName name) (splitQName attr) (expectText acc ++ [REvent.endDocument]) = [] := by
    rw [eventAttrs_expectText]; rfl
  simpa [expect, e2] using e

theorem childNames_expectText (d : Nat) (acc : Option Str) (l : List REvent) :
    childNames d (expectText acc ++ l) = childNames d l := by
  unfold expectText
  split
  · rfl
  · split <;> rfl

theorem eventChildren_expectText (q : QName) (acc : Option Str) (l : List REvent) :
    eventChildren q (expectText acc ++ l) = eventChildren q l := by
  unfold expectText
  split
  · rfl
  · split <;> rfl

mutual
theorem childNames_node : (x : Node) → OkF [x] → ∀ d open_ acc r, ∃ acc',
    childNames d (expect open_ acc (x.tags ++ r)) =
      (if d = 0 then (topNames [x]).map splitQName else []) ++ childNames d (expect open_ acc' r)
  | .text s, h, d, open_, acc, r => by
    have h1 : TagOk (.txt s) := h _ (by simp [tagsForest, Node.tags])
    obtain ⟨t, hd⟩ := Option.isSome_iff_exists.1 h1.1
    cases t with
    | nil => exact ⟨acc, by simp [Node.tags, expect, hd, topNames]⟩
    | cons c t => exact ⟨some (acc.getD [] ++ c :: t), by simp [Node.tags, expect, hd, topNames]⟩
  | .elem n as cs, h, d, open_, acc, r => by
    have h2 : OkF cs := fun t ht => h t (by simp [tagsForest, Node.tags, ht])
    obtain ⟨acc', h3⟩ := childNames_forest cs h2 (d + 1) (n :: open_) none (.cls :: r)
    refine ⟨none, ?_⟩
    simp only [Node.tags, List.cons_append, List.append_assoc, List.nil_append, expect,
      childNames_expectText, childNames, h3]
    simp [topNames]
theorem childNames_forest : (f : List Node) → OkF f → ∀ d open_ acc r, ∃ acc',
    childNames d (expect open_ acc (tagsForest f ++ r)) =
      (if d = 0 then (topNames f).map splitQName else []) ++ childNames d (expect open_ acc' r)
  | [], _, d, open_, acc, r => ⟨acc, by simp [tagsForest, topNames]⟩
  | x :: f, h, d, open_, acc, r => by
    have h1 : OkF [x] := fun t ht => h t (by
      simp only [tagsForest, List.append_nil] at ht; simp [tagsForest, ht])
    have h2 : OkF f := fun t ht => h t (by simp [tagsForest, ht])
    obtain ⟨acc1, e1⟩ := childNames_node x h1 d open_ acc (tagsForest f ++ r)
    obtain ⟨acc2, e2⟩ := childNames_forest f h2 d open_ acc1 r
    refine ⟨acc2, ?_⟩
    rw [tagsForest, List.append_assoc, e1, e2, ← List.append_assoc]
    congr 1
    split
    · cases x <;> simp [topNames]
    · rfl
end

mutual
theorem eventChildren_node (name : Str) : (x : Node) → OkF [x] → ∀ open_ acc r, ∃ acc',
    eventChildren (splitQName name) (expect open_ acc (x.tags ++ r)) =
      (x.collect (childrenIn name)).map (List.map splitQName) ++
        eventChildren (splitQName name) (expect open_ acc' r)
  | .text s, h, open_, acc, r => by
    have h1 : TagOk (.txt s) := h _ (by simp [tagsForest, Node.tags])
    obtain ⟨d, hd⟩ := Option.isSome_iff_exists.1 h1.1
    cases d with
    | nil => exact ⟨acc, by simp [Node.tags, expect, hd, Node.collect]⟩
    | cons c d => exact ⟨some (acc.getD [] ++ c :: d), by simp [Node.tags, expect, hd, Node.collect]⟩
  | .elem n as cs, h, open_, acc, r => by
    have h2 : OkF cs := fun t ht => h t (by simp [tagsForest, Node.tags, ht])
    obtain ⟨acc', h3⟩ := eventChildren_forest name cs h2 (n :: open_) none (.cls :: r)
    obtain ⟨acc2, h4⟩ := childNames_forest cs h2 0 (n :: open_) none (.cls :: r)
    refine ⟨none, ?_⟩
    simp only [Node.tags, List.cons_append, List.append_assoc, List.nil_append, expect,
      eventChildren_expectText, eventChildren, h3, h4, Node.collect, childrenIn, childNames_expectText, childNames]
    by_cases e : n = name
    · subst e; simp
    · have : splitQName n ≠ splitQName name := fun e' => e (splitQName_inj e')
      simp [e, this]
theorem eventChildren_forest (name : Str) : (f : List Node) → OkF f → ∀ open_ acc r, ∃ acc',
    eventChildren (splitQName name) (expect open_ acc (tagsForest f ++ r)) =
      (collectForest (childrenIn name) f).map (List.map splitQName) ++
        eventChildren (splitQName name) (expect open_ acc' r)
  | [], _, open_, acc, r => ⟨acc, by simp [tagsForest, collectForest]⟩
  | x :: f, h, open_, acc, r => by
    have h1 : OkF [x] := fun t ht => h t (by
      simp only [tagsForest, List.append_nil] at ht; simp [tagsForest, ht])
    have h2 : OkF f := fun t ht => h t (by simp [tagsForest, ht])
    obtain ⟨acc1, e1⟩ := eventChildren_node name x h1 open_ acc (tagsForest f ++ r)
    obtain ⟨acc2, e2⟩ := eventChildren_forest name f h2 open_ acc1 r
    refine ⟨acc2, ?_⟩
    simp only [tagsForest, List.append_assoc, collectForest, List.map_append, e1, e2]
end

theorem eventChildren_tags (name : Str) (f : List Node) (h : OkF f) :
    eventChildren (splitQName name) (expect [] none (tagsForest f)) =
      (collectForest (childrenIn name) f).map (List.map splitQName) := by
  obtain ⟨acc, e⟩ := eventChildren_forest name f h [] none []
  have e2 : eventChildren (splitQName name) (expectText acc ++ [REvent.endDocument]) = [] := by
    rw [eventChildren_expectText]; rfl
  simpa [expect, e2] using e

theorem eventStarts_expectText (acc : Option Str) (l : List REvent) :
    eventStarts (expectText acc ++ l) = eventStarts l := by
  unfold expectText
  split
  · rfl
  · split <;> rfl

/-- Name and attributes of every element. -/
def startOf : Str → List (Str × Str) → List Node → List (QName × List (QName × Str)) :=
  fun n as _ => [(splitQName n, expectAttrs as)]

mutual
theorem eventStarts_node : (x : Node) → OkF [x] → ∀ open_ acc r, ∃ acc',
    eventStarts (expect open_ acc (x.tags ++ r)) = x.collect startOf ++ eventStarts (expect open_ acc' r)
  | .text s, h, open_, acc, r => by
    have h1 : TagOk (.txt s) := h _ (by simp [tagsForest, Node.tags])
    obtain ⟨d, hd⟩ := Option.isSome_iff_exists.1 h1.1
    cases d with
    | nil => exact ⟨acc, by simp [Node.tags, expect, hd, Node.collect]⟩
    | cons c d => exact ⟨some (acc.getD [] ++ c :: d), by simp [Node.tags, expect, hd, Node.collect]⟩
  | .elem n as cs, h, open_, acc, r => by
    have h2 : OkF cs := fun t ht => h t (by simp [tagsForest, Node.tags, ht])
    obtain ⟨acc', h3⟩ := eventStarts_forest cs h2 (n :: open_) none (.cls :: r)
    refine ⟨none, ?_⟩
    simp [Node.tags, expect, eventStarts_expectText, eventStarts, h3, Node.collect, startOf]
theorem eventStarts_forest : (f : List Node) → OkF f → ∀ open_ acc r, ∃ acc',
    eventStarts (expect open_ acc (tagsForest f ++ r)) =
      collectForest startOf f ++ eventStarts (expect open_ acc' r)
  | [], _, open_, acc, r => ⟨acc, by simp [tagsForest, collectForest]⟩
  | x :: f, h, open_, acc, r => by
    have h1 : OkF [x] := fun t ht => h t (by
      simp only [tagsForest, List.append_nil] at ht; simp [tagsForest, ht])
    have h2 : OkF f := fun t ht => h t (by simp [tagsForest, ht])
    obtain ⟨acc1, e1⟩ := eventStarts_node x h1 open_ acc (tagsForest f ++ r)
    obtain ⟨acc2, e2⟩ := eventStarts_forest f h2 open_ acc1 r
    refine ⟨acc2, ?_⟩
    simp only [tagsForest, List.append_assoc, collectForest, e1, e2]
end

theorem eventStarts_tags (f : List Node) (h : OkF f) :
    eventStarts (expect [] none (tagsForest f)) = collectForest startOf f := by
  obtain ⟨acc, e⟩ := eventStarts_forest f h [] none []
  have e2 : eventStarts (expectText acc ++ [REvent.endDocument]) = [] := by
    rw [eventStarts_expectText]; rfl
  simpa [expect, e2] using e

end Docx
