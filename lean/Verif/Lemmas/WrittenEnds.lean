import Mathlib.Data.List.TakeWhile
import Verif.Lemmas.WrittenFit
import Verif.Lemmas.FileRead

/-!
# A written package is tidy
-/

namespace Docx

open Docx.Spec Docx.Xml

theorem stem_name {p b : Str} (h : fileStem p = some b) : b ≠ [] ∧ '/' ∉ b := by
  unfold fileStem at h
  cases hn : fileName p with
  | none => rw [hn] at h; cases h
  | some n =>
    rw [hn] at h
    simp only [Option.map_some, Option.some.injEq] at h
    subst h
    unfold fileName at hn
    dsimp only at hn
    split at hn
    · cases hn
    · next hx =>
      simp only [not_or] at hx
      simp only [Option.some.injEq] at hn
      have h1 : '/' ∉ n := by
        rw [← hn]
        unfold splitLast
        intro hm
        exact absurd (List.mem_takeWhile_imp (List.mem_reverse.1 hm)) (by simp)
      have h2 : n ≠ [] := by rw [← hn]; exact hx.1
      unfold stemOf
      dsimp only
      split
      · exact ⟨h2, h1⟩
      · next hr =>
        refine ⟨hr, fun hm => h1 ?_⟩
        have := List.mem_reverse.1 (List.dropLast_subset _ hm)
        exact List.mem_reverse.1 ((List.dropWhile_sublist _).subset this)

theorem getLast_join {x b : Str} (h : b ≠ []) (hs : '/' ∉ b) : ∃ y, pathJoin x b = y ++ b ∧ (y = [] ∨ y.getLast? = some '/') := by
  unfold pathJoin
  rw [if_neg]
  · split
    · next h => exact ⟨x, rfl, h⟩
    · exact ⟨x ++ ['/'], by simp, .inr (by simp)⟩
  · intro e
    apply hs
    cases b with
    | nil => cases e
    | cons c b => cases e; exact .head _

theorem fileName_behind {y b : Str} (hy : y = [] ∨ y.getLast? = some '/') (h : b ≠ []) (hs : '/' ∉ b) :
    fileName (y ++ b) = if b = c!".." then none else some b := by
  have h1 : trimSlashes (y ++ b) = y ++ b := by
    unfold trimSlashes
    rw [List.reverse_append]
    cases hb : b.reverse with
    | nil => exact absurd (List.reverse_eq_nil_iff.1 hb) h
    | cons c r =>
      have : c ≠ '/' := fun e => hs (List.mem_reverse.1 (by rw [hb, e]; exact .head _))
      rw [List.cons_append, List.dropWhile_cons_of_neg (by simpa using this), ← List.cons_append, ← hb, ← List.reverse_append, List.reverse_reverse]
  have h2 : (splitLast (y ++ b)).2 = b := by
    unfold splitLast
    dsimp only
    rw [List.reverse_append, List.takeWhile_append_of_pos (fun c hc => by
      simp only [ne_eq, decide_not, Bool.not_eq_eq_eq_not, Bool.not_true, decide_eq_false_iff_not]
      rintro rfl
      exact hs (List.mem_reverse.1 hc))]
    have : y.reverse.takeWhile (fun x => decide (x ≠ '/')) = [] := by
      rcases hy with rfl | hy
      · rfl
      · rw [List.getLast?_eq_head?_reverse] at hy
        cases hr : y.reverse with
        | nil => rfl
        | cons c r =>
          rw [hr] at hy
          cases hy
          rw [List.takeWhile_cons_of_neg (by simp)]
    rw [this, List.append_nil, List.reverse_reverse]
  unfold fileName
  dsimp only
  rw [h1, h2]
  by_cases hd : b = c!".."
  · rw [if_pos (.inr hd), if_pos hd]
  · rw [if_neg (by rintro (e | e); exact h e; exact hd e), if_neg hd]

/-- The name of a part for relationships does not end as the names of other parts do. -/
theorem relsFileName_last {part path : Str} (h : relsFileName part = some path) : path.getLast? = some '.' ∨ path.getLast? = some 's' := by
  unfold relsFileName at h
  cases hd : pathParent part with
  | none => rw [hd] at h; cases h
  | some dir =>
    cases hb : fileStem part with
    | none => rw [hd, hb] at h; cases h
    | some base =>
      rw [hd, hb] at h
      simp only [Option.bind_eq_bind, Option.bind_some, Option.some.injEq] at h
      subst h
      obtain ⟨b1, b2⟩ := stem_name hb
      obtain ⟨y, e, hy⟩ := getLast_join (x := pathJoin dir c!"_rels") b1 b2
      rw [e]
      unfold withExtension
      rw [fileName_behind hy b1 b2]
      split
      · next he =>
        split at he
        · next hd => left; rw [hd]; simp
        · cases he
      · right
        rw [List.getLast?_append_of_ne_nil _ (by simp)]
        decide

theorem entryName_last {p : Str} {c : Char} (h : p.getLast? = some c) (h1 : c ≠ '\\') (h2 : c ≠ '/') : (entryName p).getLast? = some c := by
  obtain ⟨x, rfl⟩ := List.getLast?_eq_some_iff.1 h
  unfold entryName
  rw [List.map_append]
  have : List.map (fun c => if c = '\\' then '/' else c) [c] = [c] := by simp [h1]
  rw [this]
  generalize x.map _ = z
  induction z with
  | nil => simp [h2]
  | cons a z ih =>
    rw [List.cons_append, List.dropWhile_cons]
    split
    · exact ih
    · rw [← List.cons_append, List.getLast?_append_of_ne_nil _ (by simp)]
      rfl

theorem readText_named {es : List Entry} {name s : Str} (h : readText es name = some s) :
    ∃ e ∈ es, e.name = entryName name ∧ e.content.withoutBom = .text s := by
  unfold readText readZip at h
  cases hf : (es.filter fun e => decide (e.name = entryName name)).getLast? with
  | none => simp [hf] at h
  | some e =>
    have hm := List.mem_filter.1 (List.mem_of_getLast? hf)
    refine ⟨e, hm.1, by simpa using hm.2, ?_⟩
    rw [hf] at h
    simp only [Option.map_some] at h
    split at h <;> simp_all

theorem withoutBom_text {c : Content} {s : Str} (h : c.withoutBom = .text s) : ∃ t, c = .text t ∧ dropBom t = s := by
  cases c with
  | text t => exact ⟨t, rfl, Content.text.inj h⟩
  | directory => cases h
  | bytes b => cases h

/-- A package all of whose texts come from trees, and in which the styles are found at their place, is tidy. -/
theorem tidy_of {G : List Node → Prop} {es : List Entry} (ho : ∀ f, G f → OkF f)
    (h : ∀ e ∈ es, ∀ s, e.content = .text s → FromTree G (fun s => WellFormed s ∧ dropBom s = s) e.name s)
    (hs : ∃ k, ∀ n, k ≤ n → ∀ text rels m t, readText es c!"_rels/.rels" = some text → (readPackageRels n text).got = .ok rels →
      readPartRels n es (documentPath rels) = .ok m → firstTarget m (officeType c!"styles") = some t → entryName t.path = c!"word/styles.xml") :
    Tidy es := by
  refine ⟨?_, ?_, ?_⟩
  · intro e he s hs
    obtain ⟨t, ht, rfl⟩ := withoutBom_text hs
    rcases h e he t ht with ⟨name, as, body, hg, hr, hh, _⟩ | ⟨_, _, hc⟩
    · rw [dropBom_opens hh]
      exact wellFormed_of (ho _ hg) hr
    · rw [hc.2]
      exact hc.1
  · intro part path s hp hr
    obtain ⟨e, he, hn, hw⟩ := readText_named hr
    obtain ⟨t, ht, rfl⟩ := withoutBom_text hw
    have hl : e.name.getLast? ≠ some 'l' := by
      rw [hn]
      rcases relsFileName_last hp with h | h
      · rw [entryName_last h (by decide) (by decide)]; decide
      · rw [entryName_last h (by decide) (by decide)]; decide
    rcases h e he t ht with ⟨name, as, body, hg, hr, hh, h1, _⟩ | ⟨h1, _⟩
    · rw [dropBom_opens hh]
      rcases h1 with h1 | h1
      · exact absurd h1 hl
      · rw [← h1]
        exact rootIs_of hr
    · exact absurd h1 hl
  · obtain ⟨k, hk⟩ := hs
    refine ⟨k, fun n hn text rels m t s h1 h2 h3 h4 h5 => ?_⟩
    have hp := hk n hn text rels m t h1 h2 h3 h4
    obtain ⟨e, he, hn, hw⟩ := readText_named h5
    obtain ⟨u, hu, rfl⟩ := withoutBom_text hw
    rw [hp] at hn
    rcases h e he u hu with ⟨name, as, body, hg, hr, hh, _, h2⟩ | ⟨_, h2, _⟩
    · rw [dropBom_opens hh, ← h2 hn]
      exact rootIs_of hr
    · exact absurd hn h2

theorem styles_place {cs : List Call} {d : DocxFile} {env : Env} {w : World} {es : List Entry} (hc : DocxFile.new.calls cs = some d)
    (hl : ∀ l, (env.links l).Perm l) (hm : Made d.document) (h : Packed env d w es) :
    ∃ k, ∀ n, k ≤ n → ∀ text rels m t, readText es c!"_rels/.rels" = some text → (readPackageRels n text).got = .ok rels →
      readPartRels n es (documentPath rels) = .ok m → firstTarget m (officeType c!"styles") = some t → entryName t.path = c!"word/styles.xml" := by
  obtain ⟨s, rels, k1, p1, p2, p3, _⟩ := package_rels_found hc h
  obtain ⟨m, k2, m1, r, imgs, ls, hf, _, _, _, _, _, _, hpl⟩ := document_rels_found hc hl hm h
  refine ⟨max k1 k2, fun n hn text rels' m' t h1 h2 h3 h4 => ?_⟩
  rw [p1] at h1
  cases h1
  rw [p2 n (by omega)] at h2
  cases h2
  rw [p3, m1 n (by omega)] at h3
  cases h3
  have hq := (fixed_mem r).1
  have t1 := (fixed_found hf (officeType c!"styles") (by decide)).1 _ hq rfl fun q' hq' ht => fixed_unique r hq' hq (ht.trans (by rfl))
  rw [(hpl _ (List.mem_append_left _ hq) (by decide)).1, h4] at t1
  cases t1
  decide

theorem imageRels_accept (o : List (Str × Str)) (ho : ∀ r ∈ o, Plain r.1 ∧ Plain r.2) : OkF (imageRelsN o) :=
  imageRels_ok o (by
    intro s hs
    obtain ⟨r, hr, hs⟩ := List.mem_flatMap.1 hs
    simp only [List.mem_cons, List.not_mem_nil, or_false] at hs
    rcases hs with rfl | rfl
    · exact (ho r hr).1.stored
    · exact (ho r hr).2.stored)

/-- A written package is tidy. -/
theorem packed_tidy {cs : List Call} {d : DocxFile} {env : Env} {w : World} {es : List Entry} (hc : DocxFile.new.calls cs = some d)
    (hl : ∀ l, (env.links l).Perm l) (hp : ∀ l, (env.props l).Perm l) (hm : Made d.document) (hm' : MadePictures d.document)
    (hs : AllCopied d) (h : Packed env d w es) : Tidy es :=
  tidy_of (fun _ h => h) (packed_fromTree hm' h (fun _ h => h) (trees_ok hc hl hp hm hs h) imageRels_accept) (styles_place hc hl hm h)

end Docx
