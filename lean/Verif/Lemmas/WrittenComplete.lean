import Verif.Lemmas.WrittenSure
import Verif.Lemmas.WrittenHarmless
import Verif.Lemmas.FileRead

/-!
# No reader gives up at a written package
-/

namespace Docx

open Docx.Spec Docx.Xml

/-- What is written for a number is read as one, if it is not too large. -/
theorem met_of {x : ReadEnv} {k : Need} {v v' : Str} (h : Need.written k v) (hd : decodeAttr v = some v') (hr : k.inRange v') : k.met x v' := by
  cases k with
  | number =>
    obtain ⟨i, rfl⟩ := h
    rw [(decInt_plainAttr i).1, Option.some.injEq] at hd
    subst hd
    exact ⟨_, parseFloat_decInt x i⟩
  | measure =>
    obtain ⟨i, rfl⟩ := h
    rw [(decInt_plainAttr i).1, Option.some.injEq] at hd
    subst hd
    exact ⟨_, valueToDax_decInt x i⟩
  | whole =>
    obtain ⟨n, rfl⟩ := h
    rw [decodeAttr_dec, Option.some.injEq] at hd
    subst hd
    exact ⟨_, usizeFromStr_dec (hr n rfl)⟩
  | small =>
    obtain ⟨n, rfl⟩ := h
    rw [decodeAttr_dec, Option.some.injEq] at hd
    subst hd
    exact ⟨_, u32FromStr_dec (hr n rfl)⟩

theorem taken_of {x : ReadEnv} {n : Str} {as : List (Str × Str)} (ha : AttrsOk as) (h : TakenEl n as)
    (hr : InRange (.start (splitQName n) (expectAttrs as))) : Taken x (.start (splitQName n) (expectAttrs as)) := by
  obtain ⟨h1, h2, h3, h4⟩ := h
  have id : ∀ {k : Str}, (∃ a ∈ as, (splitQName a.1).loc = k) → ∃ a ∈ expectAttrs as, a.1.loc = k := by
    rintro k ⟨a, ha', e⟩
    obtain ⟨b, hb, e'⟩ := expectAttrs_to ha ha'
    exact ⟨b, hb, by rw [e', e]⟩
  refine ⟨fun b hb k hk => ?_, fun b hb k hk => ?_, fun e => ⟨id (h3 e).1, id (h3 e).2⟩, fun e => id (h4 e)⟩
  · obtain ⟨a, ha', e1, e2⟩ := expectAttrs_from hb
    exact met_of (h1 a ha' k (by rw [← e1]; exact hk)) e2 (hr.1 b hb k hk)
  · cases as with
    | nil => cases hb
    | cons a as =>
      obtain ⟨v', hv⟩ := Option.isSome_iff_exists.1 (ha a (.head _)).2
      have hb' := hb
      unfold expectAttrs at hb'
      rw [hv] at hb'
      cases hb'
      exact met_of (h2 a rfl k hk) hv (hr.2 _ hb k hk)

theorem sure_expect {x : ReadEnv} {ts : List Tag} {st : List Str} {acc : Option Str} (h1 : ∀ t ∈ ts, TagOk t) (h2 : ∀ t ∈ ts, TakenTag t)
    (hr : ∀ e ∈ expect st acc ts, InRange e) : Sure x (expect st acc ts) := by
  intro e he
  cases e with
  | start q as =>
    obtain ⟨n, as', h, rfl, rfl⟩ := expect_starts _ _ _ _ _ he
    exact taken_of (h1 _ h).2 (h2 _ h) (hr _ he)
  | _ => trivial

/-- No reader gives up at any of the trees. -/
theorem trees_sure {C : Str → Prop} (env : Env) (q : DocxFile) (h : ∀ x ∈ q.customItems, C (formatAll x)) : TreesHave SureF C env q where
  types := q.contentType.sure
  rels := q.rels.sure
  app := appProps_sure
  core := q.core.sure
  custom := customProps_sure _
  documentRels := q.documentRels.sure
  document := q.document.sure
  styles := q.styles.sure
  settings := q.settings.sure
  fontTable := fontTable_sure
  comments := commentsN_sure _
  numbering := q.numberings.sure
  commentsExtended := commentsExtended_sure _
  footnotes := footnotesN_sure _
  headers := fun h _ => Header.sure (by decide +kernel) h
  footers := fun h _ => Header.sure (by decide +kernel) h
  taskpanes := taskpanes_sure
  taskpanesRels := taskpanesRels_sure _
  webExtensions := fun e _ => e.sure
  itemRels := fun n _ => customItemRels_sure n
  itemProps := fun i _ => customItemProperty_sure i
  items := h

/-- A part that is written is found. -/
theorem part_found {env : Env} {d : DocxFile} {w : World} {es : List Entry} (h : Packed env d w es) {name : Str} {p : Part}
    (hs : .write name p ∈ zipDocxSteps env (d.preparePackage env w).1 (d.preparePackage env w).2.1) (ho : p.Opens) (hl : LookedUp name) :
    ∃ s, readText es name = some s := by
  obtain ⟨s, _, _, _, hm⟩ := fits_write (packed_fits h) hs
  exact ⟨s, packed_readText h hs ho hl hm⟩

/-- A written package is complete, if its numbers are not too large and no reader would give up at its custom items. -/
theorem packed_complete {cs : List Call} {d : DocxFile} {env : Env} {w : World} {es : List Entry} {x : ReadEnv} (hc : DocxFile.new.calls cs = some d)
    (hl : ∀ l, (env.links l).Perm l) (hp : ∀ l, (env.props l).Perm l) (hm : Made d.document) (hm' : MadePictures d.document)
    (hs : AllCopied d) (hi : ∀ i ∈ d.customItems, Sure x (readEvents (formatAll i))) (h : Packed env d w es) (hr : NumbersFit es) : Complete x es := by
  obtain ⟨ps, rels, k1, p1, p2, p3, _⟩ := package_rels_found hc h
  obtain ⟨m, k2, m1, r, imgs, ls, hf, _, _, _, _, _, _, hplace⟩ := document_rels_found hc hl hm h
  refine ⟨?_, part_found h (step_contentTypes _ _ _) ((contentTypes_const _).opens (constText_opens _ _)) ⟨by decide, by decide⟩, ⟨ps, p1⟩, ?_⟩
  · have ht := trees_ok hc hl hp hm hs h
    have hsure : TreesHave SureF (fun s => Sure x (readEvents s)) env (d.preparePackage env w).1 := trees_sure env _ (by
      rw [(preparePackage_books env d w).2.2.2.1]
      exact hi)
    have hf := packed_fromTree hm' h (fun _ h => h.1) (ht.and hsure) (fun o ho => ⟨imageRels_accept o ho, imageRels_sure o⟩)
    intro e he s hs
    have hr := hr e he s hs
    obtain ⟨t, ht, rfl⟩ := withoutBom_text hs
    rcases hf e he t ht with ⟨name, as, body, hg, hd, hh, _⟩ | ⟨_, _, hc⟩
    · rw [dropBom_opens hh, hd] at hr ⊢
      exact sure_expect hg.1 hg.2 hr
    · rw [hc.1.2]
      exact hc.2
  · refine ⟨k1 + k2, fun n hn text rels' ht hr => ?_⟩
    rw [p1] at ht
    cases ht
    rw [p2 n (by omega)] at hr
    cases hr
    rw [p3]
    have hm1 := m1 n (by omega)
    refine ⟨part_found h (step_document _ _ _) (writePart_opens _ _) ⟨by decide, by decide⟩, ?_, ?_⟩
    · have q1 : pathParent c!"word/document.xml" = some c!"word" := by decide +kernel
      have q2 : relsFileName c!"word/document.xml" = some c!"word/_rels/document.xml.rels" := by decide +kernel
      refine ⟨c!"word", c!"word/_rels/document.xml.rels", ?_⟩
      unfold readPartRels at hm1
      rw [q1, q2] at hm1
      simp only [Got.ofSome, Got.ok_bind] at hm1
      cases ht : readText es c!"word/_rels/document.xml.rels" with
      | none => rw [ht] at hm1; cases hm1
      | some s => exact ⟨s, q1, q2, rfl⟩
    · intro m' hm' kind hkind t ht
      rw [hm1] at hm'
      cases hm'
      have found : ∀ q ∈ r.fixedRelations, q.type = officeType kind → ¬ c!"../" <+: q.target → (∃ s, readText es (c!"word/" ++ q.target) = some s) →
          (officeType kind ≠ officeRel c!"header" ∧ officeType kind ≠ officeRel c!"footer" ∧ officeType kind ≠ officeRel c!"customXml" ∧
            officeType kind ≠ officeRel c!"image" ∧ officeType kind ≠ officeRel c!"hyperlink") → ∃ s, readText es t.path = some s := by
        intro q hq hqt hd hs hty
        rw [((fixed_found hf _ hty).1 q hq hqt fun q' hq' hqt' => fixed_unique r hq' hq (hqt'.trans hqt.symm)),
          (hplace q (List.mem_append_left _ hq) hd).1, Option.some.injEq] at ht
        subst ht
        exact hs
      have none' : (∀ q ∈ r.fixedRelations, q.type ≠ officeType kind) →
          (officeType kind ≠ officeRel c!"header" ∧ officeType kind ≠ officeRel c!"footer" ∧ officeType kind ≠ officeRel c!"customXml" ∧
            officeType kind ≠ officeRel c!"image" ∧ officeType kind ≠ officeRel c!"hyperlink") → ∃ s, readText es t.path = some s := by
        intro hq hty
        rw [((fixed_found hf _ hty).2 hq).1] at ht
        cases ht
      simp only [List.mem_cons, List.not_mem_nil, or_false] at hkind
      rcases hkind with rfl | rfl | rfl | rfl
      · exact found _ (fixed_mem r).1 rfl (by decide) (part_found h (step_styles _ _ _) (styles_opens _) (by constructor <;> decide)) (by decide)
      · cases hn : r.hasNumberings with
        | true => exact found _ ((fixed_mem r).2.2.2.2 hn) rfl (by decide) (part_found h (step_numbering _ _ _) (writePart_opens _ _) (by constructor <;> decide)) (by decide)
        | false => exact none' ((fixed_without r).2.1 hn) (by decide)
      · exact found _ (fixed_mem r).2.1 rfl (by decide) (part_found h (step_settings _ _ _) ((settings_const _).opens (constText_opens _ _)) (by constructor <;> decide)) (by decide)
      · exact none' (fixed_without r).2.2.2 (by decide)

end Docx
