import Verif.Lemmas.WrittenCalm
import Verif.Lemmas.WrittenEnds

/-!
# No reader panics at a written package
-/

namespace Docx

open Docx.Spec Docx.Xml

/-- Two properties of the same trees. -/
theorem TreesHave.and {G H : List Node → Prop} {C D : Str → Prop} {env : Env} {q : DocxFile} (a : TreesHave G C env q)
    (b : TreesHave H D env q) : TreesHave (fun f => G f ∧ H f) (fun s => C s ∧ D s) env q where
  types := ⟨a.types, b.types⟩
  rels := ⟨a.rels, b.rels⟩
  app := ⟨a.app, b.app⟩
  core := ⟨a.core, b.core⟩
  custom := ⟨a.custom, b.custom⟩
  documentRels := ⟨a.documentRels, b.documentRels⟩
  document := fun g f g' h => ⟨a.document g f g' h, b.document g f g' h⟩
  styles := fun g f g' h => ⟨a.styles g f g' h, b.styles g f g' h⟩
  settings := ⟨a.settings, b.settings⟩
  fontTable := ⟨a.fontTable, b.fontTable⟩
  comments := fun g f g' h => ⟨a.comments g f g' h, b.comments g f g' h⟩
  numbering := fun g f g' h => ⟨a.numbering g f g' h, b.numbering g f g' h⟩
  commentsExtended := ⟨a.commentsExtended, b.commentsExtended⟩
  footnotes := fun g f g' h => ⟨a.footnotes g f g' h, b.footnotes g f g' h⟩
  headers := fun x hx g f g' h => ⟨a.headers x hx g f g' h, b.headers x hx g f g' h⟩
  footers := fun x hx g f g' h => ⟨a.footers x hx g f g' h, b.footers x hx g f g' h⟩
  taskpanes := ⟨a.taskpanes, b.taskpanes⟩
  taskpanesRels := ⟨a.taskpanesRels, b.taskpanesRels⟩
  webExtensions := fun e he => ⟨a.webExtensions e he, b.webExtensions e he⟩
  itemRels := fun n hn => ⟨a.itemRels n hn, b.itemRels n hn⟩
  itemProps := fun i hi => ⟨a.itemProps i hi, b.itemProps i hi⟩
  items := fun x hx => ⟨a.items x hx, b.items x hx⟩

/-- No reader panics at any of the trees. -/
theorem trees_calm {C : Str → Prop} (env : Env) (q : DocxFile) (h : ∀ x ∈ q.customItems, C (formatAll x)) : TreesHave CalmF C env q where
  types := q.contentType.calm
  rels := q.rels.calm
  app := appProps_calm
  core := q.core.calm
  custom := customProps_calm _
  documentRels := q.documentRels.calm
  document := q.document.calm
  styles := q.styles.calm
  settings := q.settings.calm
  fontTable := fontTable_calm
  comments := commentsN_calm _
  numbering := q.numberings.calm
  commentsExtended := commentsExtended_calm _
  footnotes := footnotesN_calm _
  headers := fun h _ => Header.calm (by decide +kernel) h
  footers := fun h _ => Header.calm (by decide +kernel) h
  taskpanes := taskpanes_calm
  taskpanesRels := taskpanesRels_calm _
  webExtensions := fun e _ => e.calm
  itemRels := fun n _ => customItemRels_calm n
  itemProps := fun i _ => customItemProperty_calm i
  items := h

/-! ## Content types -/

/-- The starts that are read are those of the written tags. -/
theorem expect_starts : ∀ (ts : List Tag) (st : List Str) (acc : Option Str) (q : QName) (as : List (QName × Str)), .start q as ∈ expect st acc ts →
    ∃ n as', .opn n as' ∈ ts ∧ q = splitQName n ∧ as = expectAttrs as'
  | [], _, acc, q, as, h => by
    unfold expect at h
    rcases List.mem_append.1 h with h | h
    · exact absurd h (no_start acc)
    · cases List.mem_singleton.1 h
  | .txt s :: r, o, acc, q, as, h => by
    have ih := fun acc h => expect_starts r o acc q as h
    have up : (∃ n as', .opn n as' ∈ r ∧ q = splitQName n ∧ as = expectAttrs as') →
        ∃ n as', .opn n as' ∈ Tag.txt s :: r ∧ q = splitQName n ∧ as = expectAttrs as' := fun ⟨n, a, h, e⟩ => ⟨n, a, .tail _ h, e⟩
    unfold expect at h
    split at h
    · exact up (ih _ h)
    · exact up (ih _ h)
    · cases List.mem_singleton.1 h
  | .opn n a :: r, o, acc, q, as, h => by
    unfold expect at h
    rcases List.mem_append.1 h with h | h
    · exact absurd h (no_start acc)
    · rcases List.mem_cons.1 h with h | h
      · cases h
        exact ⟨n, a, .head _, rfl, rfl⟩
      · obtain ⟨n', a', h', e⟩ := expect_starts r _ _ q as h
        exact ⟨n', a', .tail _ h', e⟩
  | .cls :: r, [], acc, q, as, h => by
    unfold expect at h
    cases List.mem_singleton.1 h
  | .cls :: r, n :: o, acc, q, as, h => by
    unfold expect at h
    rcases List.mem_append.1 h with h | h
    · exact absurd h (no_start acc)
    · rcases List.mem_cons.1 h with h | h
      · cases h
      · obtain ⟨n', a', h', e⟩ := expect_starts r _ _ q as h
        exact ⟨n', a', .tail _ h', e⟩
where
  no_start {q : QName} {as : List (QName × Str)} (acc : Option Str) : .start q as ∉ expectText acc := by
    intro h
    unfold expectText at h
    split at h
    · cases h
    · split at h <;> cases List.mem_singleton.1 h

theorem typesFull_of {s name : Str} {as : List (Str × Str)} {body : List Node} (ho : OkF [.elem name as body])
    (hs : readEvents s = expect [] none (tagsForest [.elem name as body]))
    (hb : ∀ n as, .opn n as ∈ tagsForest body → 2 ≤ as.length) : TypesFull s := by
  intro before q as' rest he hd
  rw [hs] at he
  simp only [tagsForest, Node.tags, List.append_nil, expect, expectText, List.nil_append, List.cons_append] at he
  cases before with
  | nil => cases hd
  | cons e before =>
    rw [List.cons_append, List.cons.injEq] at he
    have hm : REvent.start q as' ∈ expect [name] none (tagsForest body ++ [.cls]) := by
      rw [he.2]
      exact List.mem_append_right _ (.head _)
    obtain ⟨n, a, h1, _, rfl⟩ := expect_starts _ _ _ _ _ hm
    rcases List.mem_append.1 h1 with h1 | h1
    · rw [expectAttrs_length (ho (.opn n a) (by simp [tagsForest, Node.tags, h1])).2]
      exact hb n a h1
    · cases List.mem_singleton.1 h1

theorem types_two (c : ContentTypes) : ∃ name as body, c.nodes = [.elem name as body] ∧ ∀ n as, .opn n as ∈ tagsForest body → 2 ≤ as.length := by
  refine ⟨_, _, _, rfl, ?_⟩
  have ap : ∀ {a b : List Node}, (∀ n as, .opn n as ∈ tagsForest a → 2 ≤ as.length) → (∀ n as, .opn n as ∈ tagsForest b → 2 ≤ as.length) →
      ∀ n as, .opn n as ∈ tagsForest (a ++ b) → 2 ≤ as.length := by
    intro a b ha hb n as h
    rw [tagsForest_append] at h
    rcases List.mem_append.1 h with h | h
    · exact ha n as h
    · exact hb n as h
  have one : ∀ (m : Str) (x y : Str × Str) (n : Str) (as : List (Str × Str)), .opn n as ∈ tagsForest [.elem m [x, y] []] → 2 ≤ as.length := by
    intro m x y n as h
    simp only [Node.tags, tagsForest, List.mem_cons, List.not_mem_nil, or_false, List.nil_append, List.append_nil] at h
    rcases h with h | h
    · cases h; exact Nat.le_refl _
    · cases h
  refine ap (ap (ap (ap (ap (ap (ap ?_ ?_) ?_) ?_) ?_) ?_) ?_) ?_
  iterate 7 exact one _ _ _
  induction c.types with
  | nil => intro n as h; cases h
  | cons t l ih => exact ap (one _ _ _) ih

/-! ## The package -/

/-- No reader panics at a written package, if none does at its custom items. -/
theorem packed_harmless {cs : List Call} {d : DocxFile} {env : Env} {w : World} {es : List Entry} {x : ReadEnv} (hc : DocxFile.new.calls cs = some d)
    (hl : ∀ l, (env.links l).Perm l) (hp : ∀ l, (env.props l).Perm l) (hm : Made d.document) (hm' : MadePictures d.document)
    (hs : AllCopied d) (hi : ∀ i ∈ d.customItems, Calm x (readEvents (formatAll i))) (h : Packed env d w es) : Harmless x es := by
  have ht := trees_ok hc hl hp hm hs h
  have hcalm : TreesHave CalmF (fun s => Calm x (readEvents s)) env (d.preparePackage env w).1 := trees_calm env _ (by
    rw [(preparePackage_books env d w).2.2.2.1]
    exact hi)
  have hf := packed_fromTree hm' h (fun _ h => h.1) (ht.and hcalm) (fun o ho => ⟨imageRels_accept o ho, imageRels_calm o⟩)
  refine ⟨?_, ?_⟩
  · intro e he s hs
    obtain ⟨t, ht, rfl⟩ := withoutBom_text hs
    rcases hf e he t ht with ⟨name, as, body, hg, hr, hh, _⟩ | ⟨_, _, hc⟩
    · rw [dropBom_opens hh, hr]
      exact calm_expect _ _ _ hg.1 hg.2
    · rw [hc.1.2]
      exact hc.2
  · intro s hr
    have hz := fits_const (packed_fits h) (step_contentTypes _ _ _) (contentTypes_const _)
    have ho := ht.types
    generalize (d.preparePackage env w).1.contentType = c at hz ho
    have hr' := readText_const (Docx.packed_nodup h) hz ⟨by decide, by decide⟩
    rw [hr'] at hr
    cases hr
    obtain ⟨name, as, body, e, hb⟩ := types_two c
    rw [e] at ho ⊢
    exact typesFull_of ho (constText_reads none ho) hb

end Docx
