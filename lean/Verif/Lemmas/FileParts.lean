import Verif.Lemmas.PackedFile

/-! # The headers and footers of a packed file, as the reader of files finds them -/

namespace Docx

open Docx.Xml Docx.Spec Docx.Props

theorem eventually_and {P Q : Nat → Prop} (h1 : ∃ k, ∀ n, k ≤ n → P n) (h2 : ∃ k, ∀ n, k ≤ n → Q n) : ∃ k, ∀ n, k ≤ n → P n ∧ Q n := by
  obtain ⟨a, ha⟩ := h1
  obtain ⟨b, hb⟩ := h2
  exact ⟨max a b, fun n hn => ⟨ha n (by omega), hb n (by omega)⟩⟩

theorem eventually_all {α : Type} {P : α → Nat → Prop} : ∀ (l : List α), (∀ t ∈ l, ∃ k, ∀ n, k ≤ n → P t n) →
    ∃ k, ∀ n, k ≤ n → ∀ t ∈ l, P t n
  | [], _ => ⟨0, fun _ _ _ h => (by cases h)⟩
  | t :: l, h => by
    obtain ⟨k, hk⟩ := eventually_and (h t (.head _)) (eventually_all l fun t ht => h t (.tail _ ht))
    refine ⟨k, fun n hn t' ht' => ?_⟩
    rcases List.mem_cons.1 ht' with rfl | ht'
    · exact (hk n hn).1
    · exact (hk n hn).2 t' ht'

theorem partWith_of {l : List (Str × Header × ReadRels)} (h : (l.map Prod.fst).Nodup) {id : Str} {x : Header × ReadRels} (hm : (id, x) ∈ l) :
    partWith l id = some x := by
  have : l.filter (fun e => e.1 = id) = [(id, x)] := by
    induction l with
    | nil => cases hm
    | cons e l ih =>
      rw [List.map_cons, List.nodup_cons] at h
      rcases List.mem_cons.1 hm with rfl | hm
      · rw [List.filter_cons_of_pos (by simp)]
        rw [List.filter_eq_nil_iff.2 fun y hy => ?_]
        intro he
        have he : y.1 = id := by simpa using he
        exact h.1 (List.mem_map.2 ⟨y, hy, he⟩)
      · rw [List.filter_cons_of_neg ?_, ih h.2 hm]
        intro he
        have he : e.1 = id := by simpa using he
        exact h.1 (List.mem_map.2 ⟨_, hm, he.symm⟩)
  unfold partWith
  rw [this]
  rfl

/-- Parts that can all be read. -/
theorem readPartsFrom_ok {x : ReadEnv} {n : Nat} {es : List Entry} {good : Target → Header → Prop} : ∀ (ts : List Target),
    (∀ t ∈ ts, ∃ s h rels, readText es t.path = some s ∧ (readHeader x n s).got = .ok h ∧ (readPartRels n es t.path).orElse [] = .ok rels ∧
      good t h) →
    ∃ l, readPartsFrom x n es ts = .ok l ∧ l.map Prod.fst = ts.map (·.rid) ∧ ∀ t ∈ ts, ∃ h rels, (t.rid, h, rels) ∈ l ∧ good t h
  | [], _ => ⟨[], rfl, rfl, fun _ h => (by cases h)⟩
  | t :: ts, hh => by
    obtain ⟨l, e, hm, hl⟩ := readPartsFrom_ok ts fun t ht => hh t (.tail _ ht)
    obtain ⟨s, h, rels, h1, h2, h3, h4⟩ := hh t (.head _)
    refine ⟨(t.rid, h, rels) :: l, ?_, by rw [List.map_cons, List.map_cons, hm], fun t' ht' => ?_⟩
    · unfold readPartsFrom
      rw [h1]
      dsimp only
      rw [h2]
      dsimp only
      rw [h3, e]
      rfl
    · rcases List.mem_cons.1 ht' with rfl | ht'
      · exact ⟨h, rels, .head _, h4⟩
      · obtain ⟨h', rels', h5, h6⟩ := hl t' ht'
        exact ⟨h', rels', .tail _ h5, h6⟩

/-- What is read for a header or footer given. -/
def KeptPart (given read : Header) : Prop :=
  ∀ items, given = headerOf items → KeptItems items → (seenHeader read).map dropIds = some (dropIds (afterItems items))

theorem entry_lookedUp (side : Side) (n : Nat) : LookedUp (side.entry n) := by
  have hd : ∀ c ∈ c!"0123456789", c ≠ '\\' := by decide
  refine ⟨by cases side <;> (show some 'w' ≠ _; decide), ?_⟩
  cases side <;>
  · intro hm
    rcases List.mem_append.1 hm with hm | hm
    · rcases List.mem_append.1 hm with hm | hm
      · revert hm; decide
      · exact hd _ (dec_digits n _ hm) rfl
    · revert hm; decide

/-- How many parts are counted. -/
def Side.countIn : Side → DocumentRels → Nat
  | .header, r => r.headerCount
  | .footer, r => r.footerCount

theorem step_opens {side : Side} {env : Env} {d : DocxFile} {w : World} {j : Nat} {g : Header} (hg : (side.ofDocument d.document)[j]? = some g) :
    ∃ p, .write (side.entry (j + 1)) p ∈ zipDocxSteps env (d.preparePackage env w).1 (d.preparePackage env w).2.1 ∧ Part.Opens p := by
  have hall : side.ofDocument d.document = (Side.all side d.document).map Prod.snd := by rw [heads_all]; cases side <;> rfl
  have hbare := prepared_parts side env d w
  generalize d.preparePackage env w = q at hbare ⊢
  have hlen : j < (Side.all side q.1.document).length := by
    have h1 := congrArg List.length hbare
    rw [List.length_map, List.length_map] at h1
    rw [h1]
    rw [hall] at hg
    have := (List.getElem?_eq_some_iff.1 hg).1
    rwa [List.length_map] at this
  have := step_part side env q.1 q.2.1 j (Side.all side q.1.document)[j].2 (by rw [List.getElem?_map, List.getElem?_eq_getElem hlen]; rfl)
  rw [side_name] at this
  refine ⟨_, this, ?_⟩
  cases side
  · exact writePart_opens _ _
  · exact writePart_opens _ _

theorem sideRel_mem {r : DocumentRels} {imgs ls : List (Str × Str)} (side : Side) {q : Relation}
    (hq : q ∈ r.fixedRelations ++ r.partRelations ++ imgs.map imageRelation ++ ls.map linkRelation) (ht : q.type = side.type) :
    ∃ j, j < Side.countIn side r ∧
      q = ⟨side.rid (j + 1), side.type, Side.kind side ++ dec (j + 1) ++ c!".xml", none⟩ := by
  simp only [List.mem_append] at hq
  rcases hq with ((hq | hq) | hq) | hq
  · have h1 := ((fixed_relations r).2 q hq).1
    have h' : ∀ t ∈ fixedTypes, ∀ side : Side, t ≠ side.type := by
      intro t ht side
      cases side <;> (revert t ht; decide)
    exact absurd ht (h' _ h1 side)
  · unfold DocumentRels.partRelations at hq
    simp only [List.mem_append, List.mem_map, List.mem_range] at hq
    rcases hq with (⟨j, hj, rfl⟩ | ⟨j, hj, rfl⟩) | ⟨j, hj, rfl⟩
    · cases side with
      | header => exact ⟨j, hj, rfl⟩
      | footer => exact absurd (show officeRel c!"header" = officeRel c!"footer" from ht) (by decide)
    · cases side with
      | header => exact absurd (show officeRel c!"footer" = officeRel c!"header" from ht) (by decide)
      | footer => exact ⟨j, hj, rfl⟩
    · cases side with
      | header => exact absurd (show officeRel c!"customXml" = officeRel c!"header" from ht) (by decide)
      | footer => exact absurd (show officeRel c!"customXml" = officeRel c!"footer" from ht) (by decide)
  · obtain ⟨y, _, rfl⟩ := List.mem_map.1 hq
    cases side with
    | header => exact absurd (show officeRel c!"image" = officeRel c!"header" from ht) (by decide)
    | footer => exact absurd (show officeRel c!"image" = officeRel c!"footer" from ht) (by decide)
  · obtain ⟨y, _, rfl⟩ := List.mem_map.1 hq
    cases side with
    | header => exact absurd (show officeRel c!"hyperlink" = officeRel c!"header" from ht) (by decide)
    | footer => exact absurd (show officeRel c!"hyperlink" = officeRel c!"footer" from ht) (by decide)

theorem sideRel_in (side : Side) (r : DocumentRels) (imgs ls : List (Str × Str)) {j : Nat}
    (hj : j < Side.countIn side r) :
    ⟨side.rid (j + 1), side.type, Side.kind side ++ dec (j + 1) ++ c!".xml", none⟩ ∈
      r.fixedRelations ++ r.partRelations ++ imgs.map imageRelation ++ ls.map linkRelation := by
  simp only [List.mem_append]
  refine .inl (.inl (.inr ?_))
  unfold DocumentRels.partRelations
  simp only [List.mem_append, List.mem_map, List.mem_range]
  cases side with
  | header => exact .inl (.inl ⟨j, hj, rfl⟩)
  | footer => exact .inl (.inr ⟨j, hj, rfl⟩)

/-- All the headers, or all the footers, of a file are read, each under the id of its relationship. -/
theorem parts_found {x : ReadEnv} {cs : List Call} {d : DocxFile} {env : Env} {w : World} {es : List Entry}
    (hc : DocxFile.new.calls cs = some d) (hm : MadePictures d.document) (hpl : Plainly cs) (side : Side) (ho : InOrder side cs)
    (h : Packed env d w es) (hi : ∀ i ∈ bodyIds (walkStory ⟨d.document, d.comments, d.footnotes⟩), PlainValue i)
    (hk : ∀ h ∈ side.ofDocument d.document, ∃ items, h = headerOf items ∧ KeptItems items)
    {m : ReadRels} {r : DocumentRels} {imgs ls : List (Str × Str)}
    (hf : Finds m c!"word" (r.fixedRelations ++ r.partRelations ++ imgs.map imageRelation ++ ls.map linkRelation))
    (h1 : r.headerCount = d.documentRels.headerCount) (h2 : r.footerCount = d.documentRels.footerCount)
    (hpl2 : ∀ q ∈ r.fixedRelations ++ r.partRelations, ¬ c!"../" <+: q.target → placeOf c!"word" q = c!"word/" ++ q.target ∧
      LookedUp (c!"word/" ++ q.target)) :
    ∃ k, ∀ n, k ≤ n → ∃ l, readPartsOf x n es m (Side.kind side) = .ok l ∧
      ∀ j h, (side.ofDocument d.document)[j]? = some h → ∃ q rels, partWith l (side.rid (j + 1)) = some (q, rels) ∧ KeptPart h q := by
  have hty : officeType (Side.kind side) = side.type := by cases side <;> rfl
  have hcount : Side.countIn side r = Side.count side d := by
    cases side
    · exact h1
    · exact h2
  have hall : side.ofDocument d.document = (Side.all side d.document).map Prod.snd := by rw [heads_all]; cases side <;> rfl
  have hlen : (side.ofDocument d.document).length = Side.count side d := by
    rw [hall, List.length_map, all_length hpl (inOrder_once ho) hc]
  have hplace : ∀ j, j < Side.count side d →
      placeOf c!"word" ⟨side.rid (j + 1), side.type, Side.kind side ++ dec (j + 1) ++ c!".xml", none⟩ = side.entry (j + 1) := by
    intro j hj
    have hin := sideRel_in side r [] [] (j := j) (by rw [hcount]; exact hj)
    simp only [List.map_nil, List.append_nil] at hin
    refine ((hpl2 _ hin ?_).1).trans ?_
    · cases side with
      | header => rintro ⟨t, ht⟩; exact absurd (List.cons.inj ht).1 (show ¬ '.' = 'h' by decide)
      | footer => rintro ⟨t, ht⟩; exact absurd (List.cons.inj ht).1 (show ¬ '.' = 'f' by decide)
    · rw [← side_name]
      simp only [partName, List.append_assoc]
  have key : ∃ k, ∀ n, k ≤ n → ∀ t ∈ (m.targets (officeType (Side.kind side))).getD [], ∃ s h rels, readText es t.path = some s ∧
      (readHeader x n s).got = .ok h ∧ (readPartRels n es t.path).orElse [] = .ok rels ∧
      ∃ j g, t.rid = side.rid (j + 1) ∧ (side.ofDocument d.document)[j]? = some g ∧ KeptPart g h := by
    refine eventually_all _ fun t ht => ?_
    obtain ⟨q, hq, hqt, rfl⟩ := (hf.mem_targets _ t).1 ht
    rw [hty] at hqt
    obtain ⟨j, hj, rfl⟩ := sideRel_mem side hq hqt
    rw [hcount] at hj
    rw [hplace j hj]
    obtain ⟨g, hg⟩ : ∃ g, (side.ofDocument d.document)[j]? = some g := by
      rw [← hlen] at hj
      exact ⟨_, List.getElem?_eq_getElem hj⟩
    obtain ⟨items, rfl, hkept⟩ := hk g (List.mem_of_getElem? hg)
    obtain ⟨text, ht1, k, hk1⟩ := C59_parts x d env w es h hi side j items hg hkept
    have hrt : readText es (side.entry (j + 1)) = some text := by
      obtain ⟨p, hp, hop⟩ := step_opens (env := env) (w := w) hg
      exact packed_readText h hp hop (entry_lookedUp side _) ht1
    obtain ⟨r1, r2⟩ := C56_headers side d env w es hm h j _ hg
    have hrels : ∃ k rels, ∀ n, k ≤ n → (readPartRels n es (side.entry (j + 1))).orElse [] = .ok rels := by
      by_cases hp : partPictures (walkHeader [] (headerOf items)) = []
      · exact ⟨0, [], fun n _ => r2 hp n⟩
      · obtain ⟨_, _, mm, kk, hkk, _⟩ := r1 hp
        exact ⟨kk, mm, fun n hn => by rw [hkk n hn]; rfl⟩
    obtain ⟨k2, rels, hk2⟩ := hrels
    refine ⟨max k k2, fun n hn => ?_⟩
    obtain ⟨q, hq1, hq2⟩ := hk1 n (by omega)
    refine ⟨text, q, rels, hrt, by rw [hq1]; rfl, hk2 n (by omega), j, _, rfl, hg, ?_⟩
    intro items' he hk'
    obtain ⟨text', ht', k', hk'⟩ := C59_parts x d env w es h hi side j items' (he ▸ hg) hk'
    have := Docx.entry_unique (Docx.packed_nodup h) ht1 ht'
    cases this
    obtain ⟨q', e1, e2⟩ := hk' (max n k') (by omega)
    obtain ⟨q'', e3, e4⟩ := hk1 (max n k') (by omega)
    rw [e1] at e3
    cases e3
    rw [hq2, ← e4, e2]
  obtain ⟨k, hk⟩ := key
  refine ⟨k, fun n hn => ?_⟩
  obtain ⟨l, e, hids, hl⟩ := readPartsFrom_ok _ (hk n hn)
  refine ⟨l, e, fun j g hg => ?_⟩
  have hj : j < Side.count side d := by
    rw [← hlen]
    exact (List.getElem?_eq_some_iff.1 hg).1
  have hmem : (⟨side.rid (j + 1), side.entry (j + 1), none⟩ : Target) ∈ (m.targets (officeType (Side.kind side))).getD [] := by
    rw [hf.mem_targets]
    exact ⟨_, sideRel_in side r imgs ls (by rw [hcount]; exact hj), hty.symm, by rw [hplace j hj]⟩
  obtain ⟨q, rels, hq, j', g', e1, e2, e3⟩ := hl _ hmem
  have : j' = j := by
    have := rid_injective side e1
    omega
  subst this
  rw [hg] at e2
  cases e2
  have hnd := hf.ids_nodup (officeType (Side.kind side))
  rw [← hids] at hnd
  exact ⟨q, rels, partWith_of hnd hq, e3⟩

end Docx
