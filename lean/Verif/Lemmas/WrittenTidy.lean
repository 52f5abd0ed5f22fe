import Verif.Lemmas.ReadEnds
import Verif.Lemmas.PackedFile
import Verif.Lemmas.FileRead
import Verif.Props.C42_PartRels
import Verif.Props.C24_C25_Comments

/-!
# Written packages are tidy
-/

namespace Docx

open Docx.Spec Docx.Xml

/-! ## Written forests are nested -/

theorem nested_text (st : List Str) (acc : Option Str) (r : List REvent) : Nested st (expectText acc ++ r) = Nested st r := by
  cases acc with
  | none => rfl
  | some t =>
    simp only [expectText]
    split <;> rfl

/-- The local names of open elements. -/
def openNames (st : List Str) : List Str := st.map fun n => (splitQName n).loc

mutual
theorem nested_node : (x : Node) → OkF [x] → ∀ (st : List Str) (r : List Tag), (∀ acc, Nested (openNames st) (expect st acc r)) →
    ∀ acc, Nested (openNames st) (expect st acc (x.tags ++ r))
  | .text s, h, st, r, hr, acc => by
    have h1 := (h (.txt s) (by simp [tagsForest, Node.tags])).1
    obtain ⟨d, hd⟩ := Option.isSome_iff_exists.1 h1
    simp only [Node.tags, List.cons_append, List.nil_append]
    unfold expect
    rw [hd]
    cases d with
    | nil => exact hr _
    | cons c d => exact hr _
  | .elem n as cs, h, st, r, hr, acc => by
    have h1 : OkF cs := fun t ht => h t (by simp [tagsForest, Node.tags, ht])
    have h2 := nested_forest cs h1 (n :: st) (.cls :: r) (fun acc => by
      unfold expect
      rw [nested_text]
      exact ⟨rfl, hr none⟩) none
    simp only [Node.tags, List.cons_append, List.append_assoc, List.nil_append]
    unfold expect
    rw [nested_text]
    exact h2
theorem nested_forest : (f : List Node) → OkF f → ∀ (st : List Str) (r : List Tag), (∀ acc, Nested (openNames st) (expect st acc r)) →
    ∀ acc, Nested (openNames st) (expect st acc (tagsForest f ++ r))
  | [], _, st, r, hr, acc => hr acc
  | x :: f, h, st, r, hr, acc => by
    have h1 : OkF [x] := fun t ht => h t (by
      simp only [tagsForest, List.append_nil] at ht
      simp [tagsForest, ht])
    have h2 : OkF f := fun t ht => h t (by simp [tagsForest, ht])
    simp only [tagsForest, List.append_assoc]
    exact nested_node x h1 st _ (nested_forest f h2 st r hr) acc
end

/-- What is read of an acceptable forest is well-formed. -/
theorem wellFormed_of {s : Str} {f : List Node} (h : OkF f) (hs : readEvents s = expect [] none (tagsForest f)) : WellFormed s := by
  unfold WellFormed
  rw [hs]
  have := nested_forest f h [] [] (fun acc => by
    unfold expect
    rw [nested_text]
    exact ⟨rfl, rfl⟩) none
  rwa [List.append_nil] at this

theorem rootIs_of {s name : Str} {as : List (Str × Str)} {f : List Node} (hs : readEvents s = expect [] none (tagsForest [.elem name as f])) :
    RootIs (splitQName name).loc s :=
  ⟨[], splitQName name, expectAttrs as, expect [name] none (tagsForest f ++ [.cls]), by
    rw [hs]
    simp [tagsForest, Node.tags, expect, expectText], by simp, rfl⟩

theorem dropBom_opens {s : Str} (h : s.head? = some '<') : dropBom s = s := by
  cases s with
  | nil => rfl
  | cons c s =>
    cases h
    rfl

/-! ## The steps -/

/-- A text made of a tree with the property `G`, with the root its name promises, or one with the property `C`. -/
def FromTree (G : List Node → Prop) (C : Str → Prop) (n s : Str) : Prop :=
  (∃ name as body, G [.elem name as body] ∧ readEvents s = expect [] none (tagsForest [.elem name as body]) ∧ s.head? = some '<' ∧
    (n.getLast? = some 'l' ∨ (splitQName name).loc = c!"Relationships") ∧ (n = c!"word/styles.xml" → (splitQName name).loc = c!"styles")) ∨
  (n.getLast? = some 'l' ∧ n ≠ c!"word/styles.xml" ∧ C s)

/-- All texts of these steps are. -/
def FromTrees (G : List Node → Prop) (C : Str → Prop) (ss : List ZipStep) : Prop :=
  ∀ n p, .write n p ∈ ss → ∀ s g g', p g = some (.ok s, g') → FromTree G C n s

/-- The trees of the parts have the property `G`, the custom items `C`. -/
structure TreesHave (G : List Node → Prop) (C : Str → Prop) (env : Env) (q : DocxFile) : Prop where
  types : G q.contentType.nodes
  rels : G q.rels.nodes
  app : G appPropsN
  core : G q.core.nodes
  custom : G (customPropsN (env.props q.custom))
  documentRels : G q.documentRels.nodes
  document : ∀ g f g', q.document.nodes g = some (f, g') → G f
  styles : ∀ g f g', q.styles.nodes g = some (f, g') → G f
  settings : G q.settings.nodes
  fontTable : G fontTableN
  comments : ∀ g f g', commentsN q.comments g = some (f, g') → G f
  numbering : ∀ g f g', q.numberings.nodes g = some (f, g') → G f
  commentsExtended : G (commentsExtendedN q.commentsExtended)
  footnotes : ∀ g f g', footnotesN q.footnotes g = some (f, g') → G f
  headers : ∀ h ∈ q.document.headers, ∀ g f g', h.nodes c!"w:hdr" g = some (f, g') → G f
  footers : ∀ h ∈ q.document.footers, ∀ g f g', h.nodes c!"w:ftr" g = some (f, g') → G f
  taskpanes : G taskpanesN
  taskpanesRels : G (taskpanesRelsN q.taskpanesRels)
  webExtensions : ∀ e ∈ q.webExtensions, G e.nodes
  itemRels : ∀ n ∈ q.customItemRels, G (customItemRelsN n)
  itemProps : ∀ i ∈ q.customItemProps, G (customItemPropertyN i)
  items : ∀ x ∈ q.customItems, C (formatAll x)

section

variable {G : List Node → Prop} {C : Str → Prop} {env : Env} {q : DocxFile}

theorem fromTree_text {n s name : Str} {as : List (Str × Str)} {body : List Node} (hG : G [.elem name as body])
    (ho : OkF [.elem name as body]) {sa : Option Bool} (hs : s = constText sa [.elem name as body])
    (h1 : n.getLast? = some 'l' ∨ (splitQName name).loc = c!"Relationships") (h2 : n = c!"word/styles.xml" → (splitQName name).loc = c!"styles") :
    FromTree G C n s := by
  subst hs
  exact .inl ⟨name, as, body, hG, constText_reads sa ho, rfl, h1, h2⟩

/-- A part that is always the same. -/
theorem fromTree_const {n : Str} {p : Part} {sa : Option Bool} {f : List Node} {name : Str} {as : List (Str × Str)} {body : List Node}
    (hc : p.Const (constText sa f)) (hf : f = [.elem name as body]) (hG : G f) (ho : G f → OkF f)
    (h1 : n.getLast? = some 'l' ∨ (splitQName name).loc = c!"Relationships") (h2 : n ≠ c!"word/styles.xml") :
    ∀ s g g', p g = some (.ok s, g') → FromTree G C n s := by
  intro s g g' e
  rw [hc g] at e
  simp only [Option.some.injEq, Prod.mk.injEq, Except.ok.injEq] at e
  have ho := ho hG
  subst hf
  exact fromTree_text hG ho e.1.symm h1 (fun h => absurd h h2)

/-- A part with generated ids. -/
theorem fromTree_part {n : Str} {p : Part} {sa : Option Bool} {m : N} {name : Str} {as : List (Str × Str)} {body : N}
    (hp : p = writePart sa (flat m)) (hm : m = elemN name as body) (hG : ∀ g f g', m g = some (f, g') → G f) (ho : ∀ f, G f → OkF f)
    (h1 : n.getLast? = some 'l') (h2 : n ≠ c!"word/styles.xml") :
    ∀ s g g', p g = some (.ok s, g') → FromTree G C n s := by
  intro s g g' e
  have hs := writePart_opens sa (flat m) s g g' (by rw [← hp]; exact e)
  rw [hp] at e
  obtain ⟨f, hf, hk, hr⟩ := writePart_reads (n := m) (fun g f g' h => ho f (hG g f g' h)) e
  have hg := hG _ _ _ hf
  rw [hm] at hf
  obtain ⟨f1, _, rfl⟩ := elemN_eq hf
  exact .inl ⟨name, as, f1, hg, hr, hs, .inl h1, fun h => absurd h h2⟩

theorem last_append {a : Str} (b : Str) {c : Char} (h : b.getLast? = some c) : (a ++ b).getLast? = some c := by
  rw [List.getLast?_append, h]
  rfl

theorem FromTrees.nil : FromTrees G C [] := nofun
theorem FromTrees.append {a b : List ZipStep} (h1 : FromTrees G C a) (h2 : FromTrees G C b) : FromTrees G C (a ++ b) := fun n p h =>
  (List.mem_append.1 h).elim (h1 n p) (h2 n p)
theorem FromTrees.write {n : Str} {p : Part} {b : List ZipStep} (h1 : ∀ s g g', p g = some (.ok s, g') → FromTree G C n s) (h2 : FromTrees G C b) :
    FromTrees G C (.write n p :: b) := by
  intro m q h
  rcases List.mem_cons.1 h with h | h
  · cases h
    exact h1
  · exact h2 m q h
theorem FromTrees.directory {n : Str} {b : List ZipStep} (h2 : FromTrees G C b) : FromTrees G C (.directory n :: b) := by
  intro m q h
  rcases List.mem_cons.1 h with h | h
  · cases h
  · exact h2 m q h

theorem not_styles {a b : Str} (h : a.take 6 ≠ c!"word/styles.xml".take 6) (hl : 6 ≤ a.length) : a ++ b ≠ c!"word/styles.xml" := by
  intro e
  apply h
  rw [← e, List.take_append_of_le_length hl]

theorem fromTrees_parts (ho : ∀ f, G f → OkF f) (side : Side) (write : Header → Part) (name : Str)
    (hw : ∀ h : Header, write h = writePart (some true) (flat (h.nodes name))) :
    ∀ (hs : List Header) (i : Nat) (rs : List (Nat × List (Str × Str))), (∀ h ∈ hs, ∀ g f g', h.nodes name g = some (f, g') → G f) →
    (∀ n r, .write n (imageRelsPart r) ∈ partSteps (Side.kind side) write i hs rs → ∀ k, n = side.relsEntry k → FromTree G C n (relText r)) →
    FromTrees G C (partSteps (Side.kind side) write i hs rs)
  | [], i, rs, _, _ => by simp only [partSteps]; exact .nil
  | h :: hs, i, rs, hh, hr => by
    have h0 : ∀ n p, (n, p) = (partName (Side.kind side) (i + 1), write h) → ∀ s g g', p g = some (.ok s, g') → FromTree G C n s := by
      intro n p e
      cases e
      refine fromTree_part (hw h) rfl (hh h (.head _)) ho (last_append c!".xml" rfl) ?_
      unfold partName
      rw [List.append_assoc (c!"word/" ++ Side.kind side)]
      cases side <;> exact not_styles (by decide) (by decide)
    have hk : ∀ k, partRelsName (Side.kind side) k = side.relsEntry k := by
      intro k
      have h1 : c!"word/_rels/" ++ c!"header" = c!"word/_rels/header" := by decide
      have h2 : c!"word/_rels/" ++ c!"footer" = c!"word/_rels/footer" := by decide
      cases side
      · exact congrArg (fun p => p ++ dec k ++ c!".xml.rels") h1
      · exact congrArg (fun p => p ++ dec k ++ c!".xml.rels") h2
    match rs with
    | [] =>
      simp only [partSteps] at hr ⊢
      exact .write (h0 _ _ rfl) (fromTrees_parts ho side write name hw hs _ _ (fun h hm => hh h (.tail _ hm)) fun n r hm => hr n r (.tail _ hm))
    | (j, r) :: rs =>
      simp only [partSteps] at hr ⊢
      refine .write (h0 _ _ rfl) ?_
      split
      · rename_i hj
        rw [if_pos hj] at hr
        refine .write (fun s g g' e => ?_)
          (fromTrees_parts ho side write name hw hs _ _ (fun h hm => hh h (.tail _ hm)) fun n r hm => hr n r (.tail _ (.tail _ hm)))
        rw [imageRels_const r g] at e
        simp only [Option.some.injEq, Prod.mk.injEq, Except.ok.injEq] at e
        rw [← e.1]
        exact hr _ r (.tail _ (.head _)) _ (hk _)
      · rename_i hj
        rw [if_neg hj] at hr
        exact fromTrees_parts ho side write name hw hs _ _ (fun h hm => hh h (.tail _ hm)) fun n r hm => hr n r (.tail _ hm)

theorem fromTrees_items (ho : ∀ f, G f → OkF f) (hq : TreesHave G C env q) : ∀ (xs : List (List XmlData)) (i : Nat), (∀ x ∈ xs, x ∈ q.customItems) →
    FromTrees G C (customItemSteps q i xs)
  | [], i, _ => .nil
  | x :: xs, i, hx => by
    simp only [customItemSteps]
    refine .append (.write ?_ (.write ?_ (.write ?_ .nil))) (fromTrees_items ho hq xs _ fun y hy => hx y (.tail _ hy))
    · intro s g g' e
      unfold indexed at e
      cases h : q.customItemRels[i]? with
      | none => rw [h] at e; cases e
      | some n =>
        rw [h] at e
        refine fromTree_const (customItemRels_const n) rfl (hq.itemRels n (List.mem_of_getElem? h)) (ho _) (.inr (by decide)) ?_ s g g' e
        unfold itemRelsName
        rw [List.append_assoc]
        exact not_styles (by decide) (by decide)
    · intro s g g' e
      simp only [customItemPart, Option.some.injEq, Prod.mk.injEq, Except.ok.injEq] at e
      refine .inr ⟨last_append c!".xml" rfl, ?_, ?_⟩
      · unfold itemName
        rw [List.append_assoc]
        exact not_styles (by decide) (by decide)
      · rw [← e.1]
        exact hq.items x (hx x (.head _))
    · intro s g g' e
      unfold indexed at e
      cases h : q.customItemProps[i]? with
      | none => rw [h] at e; cases e
      | some n =>
        rw [h] at e
        refine fromTree_const (customItemProps_const n) rfl (hq.itemProps n (List.mem_of_getElem? h)) (ho _)
          (.inl (last_append c!".xml" rfl)) ?_ s g g' e
        rw [List.append_assoc]
        exact not_styles (by decide) (by decide)

theorem fromTrees_web (ho : ∀ f, G f → OkF f) : ∀ (es : List WebExtension) (i : Nat), (∀ e ∈ es, G e.nodes) →
    FromTrees G C (webExtensionSteps i es)
  | [], i, _ => .nil
  | e :: es, i, h => by
    refine .write (fromTree_const (webExtension_const e) rfl (h e (.head _)) (ho _) (.inl (last_append c!".xml" rfl)) ?_)
      (fromTrees_web ho es _ fun e he => h e (.tail _ he))
    unfold webExtensionName
    intro h
    have h1 := congrArg (List.take 7) h
    rw [List.append_assoc, List.take_append_of_le_length (by decide)] at h1
    exact absurd h1 (by decide)

/-- All texts of a package come from trees with the property. -/
theorem fromTrees_zip (ho : ∀ f, G f → OkF f) (hq : TreesHave G C env q) (p : PackageMetadata)
    (hr : ∀ side : Side, ∀ n r, .write n (imageRelsPart r) ∈ zipDocxSteps env q p → ∀ k, n = side.relsEntry k → FromTree G C n (relText r)) :
    FromTrees G C (zipDocxSteps env q p) := by
  have hr' := hr
  unfold zipDocxSteps at hr' ⊢
  refine .append (.append (.append (.append (.append (.append ?_ ?_) ?_) ?_) ?_) ?_) (fromTrees_items ho hq _ _ fun x h => h)
  · refine .directory (.directory (.directory (.directory ?_)))
    refine .write (fromTree_const (contentTypes_const q) rfl hq.types (ho _) (.inl (by decide)) (by decide)) ?_
    refine .write (fromTree_const (rels_const q) rfl hq.rels (ho _) (.inr (by decide)) (by decide)) ?_
    refine .write (fromTree_const app_const rfl hq.app (ho _) (.inl (by decide)) (by decide)) ?_
    refine .write (fromTree_const (core_const q) rfl hq.core (ho _) (.inl (by decide)) (by decide)) ?_
    refine .write (fromTree_const (custom_const env q) rfl hq.custom (ho _) (.inl (by decide)) (by decide)) ?_
    refine .write (fromTree_const (documentRels_const q) rfl hq.documentRels (ho _) (.inr (by decide)) (by decide)) ?_
    refine .write (fromTree_part (m := q.document.nodes) (by rw [Document_build_flat]; rfl) rfl hq.document ho (by decide) (by decide)) ?_
    refine .write (fun s g g' e => ?_) ?_
    · have hs := styles_opens q.styles s g g' e
      unfold DocxFile.stylesPart at e
      rw [← Styles_build_flat] at e
      obtain ⟨f, hf, hk, hrd⟩ := buildElement_reads (fun g f g' h => ho f (hq.styles g f g' h)) e
      have hg := hq.styles _ _ _ hf
      unfold Styles.nodes at hf
      obtain ⟨f1, _, rfl⟩ := elemN_eq hf
      exact .inl ⟨_, _, f1, hg, hrd, hs, .inl (by decide), fun _ => by decide⟩
    refine .write (fromTree_const (settings_const q) rfl hq.settings (ho _) (.inl (by decide)) (by decide)) ?_
    refine .write (fromTree_const fontTable_const rfl hq.fontTable (ho _) (.inl (by decide)) (by decide)) ?_
    refine .write (fromTree_part (m := commentsN q.comments) (by rw [commentsB_flat]; rfl) rfl hq.comments ho (by decide) (by decide)) ?_
    refine .write (fromTree_part (m := q.numberings.nodes) (by rw [Numberings_build_flat]; rfl) rfl hq.numbering ho (by decide) (by decide)) ?_
    refine .write (fun s g g' e => ?_) ?_
    · have hg := hq.commentsExtended
      rw [commentsExtended_const q g] at e
      simp only [Option.some.injEq, Prod.mk.injEq, Except.ok.injEq] at e
      rw [← e.1]
      exact .inl ⟨_, _, _, hg, Props.C06_read_print _ (ho _ hg), elem_opens _ _ _, .inl (by decide), fun h => absurd h (by decide)⟩
    exact .write (fromTree_part (m := footnotesN q.footnotes) (by rw [footnotesB_flat]; rfl) rfl hq.footnotes ho (by decide) (by decide)) .nil
  · refine fromTrees_parts ho .header _ c!"w:hdr" (fun h => by rw [Header_build_flat]; rfl) _ _ _ hq.headers fun n r hm => hr' .header n r ?_
    simp only [List.mem_append]
    exact .inl (.inl (.inl (.inl (.inl (.inr hm)))))
  · refine fromTrees_parts ho .footer _ c!"w:ftr" (fun h => by rw [Header_build_flat]; rfl) _ _ _ hq.footers fun n r hm => hr' .footer n r ?_
    simp only [List.mem_append]
    exact .inl (.inl (.inl (.inl (.inr hm))))
  · split
    · exact .nil
    · refine .directory ?_
      intro n q h
      simp at h
  · split
    · refine .append ?_ (fromTrees_web ho _ _ hq.webExtensions)
      refine .directory (.write (fromTree_const taskpanes_const rfl hq.taskpanes (ho _) (.inl (by decide)) (by decide)) (.directory (.write ?_ .nil)))
      exact fromTree_const (taskpanesRels_const q) rfl hq.taskpanesRels (ho _) (.inr (by decide)) (by decide)
    · exact .nil
  · split
    · exact .nil
    · exact .directory .nil

end

end Docx
