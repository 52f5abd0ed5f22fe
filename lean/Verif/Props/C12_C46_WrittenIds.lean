import Verif.Lemmas.Draws
import Verif.Props.C09_C10_ParaIds
import Verif.Props.C11_Ids
import Verif.Props.C13_C26_Written

/-!
# C12, C46: ids in the written parts

Paragraph ids and revision ids as an XML reader finds them in the text of a part.
-/

namespace Docx.Props

open Docx Docx.Spec Docx.Xml

/-- The paragraph ids in a part. -/
abbrev writtenParaIds (l : List REvent) : List Str := eventAttrs (w c!"p") ⟨some c!"w14", c!"paraId"⟩ l

/-- The ids of the tracked insertions, deletions and moves in a part. -/
def writtenRevisionIds (l : List REvent) : List Str :=
  (eventStarts l).flatMap fun x =>
    if x.1 ∈ [w c!"ins", w c!"del", w c!"moveFrom", w c!"moveTo"]
    then (x.2.filter fun a => decide (a.1 = w c!"id")).map Prod.snd else []

/-- The ids of the tracked paragraph property changes in a part. -/
abbrev writtenChangeIds (l : List REvent) : List Str := idsOf c!"pPrChange" l

theorem decodeAttr_paraId (n : Nat) : decodeAttr (paraIdText n) = some (paraIdText n) := by
  apply decodeAttr_plain
  have h' : ∀ c ∈ '0' :: c!"0123456789abcdef", c ≠ '&' ∧ c ≠ '<' ∧ c ≠ '"' ∧ c ≠ '\r' ∧ c ≠ '\t' ∧ c ≠ '\n' := by
    decide
  intro c hc
  apply h'
  simp only [paraIdText, pad0, List.mem_append, List.mem_replicate] at hc
  rcases hc with hc | hc
  · simp [hc.2]
  · exact List.mem_cons_of_mem _ (hexDigits_digits _ _ _ (by simp) c hc)

/-- `used` numbers between the generator states, each once. -/
def FreshParaIds (g g' : Gen) (l out : List Str) : Prop :=
  g.para ≤ g'.para ∧ ∃ used : List Nat, used.Nodup ∧ (∀ k ∈ used, g.para ≤ k ∧ k < g'.para) ∧
    out.Perm (l ++ used.map paraIdText)

theorem paraAttr (id : Str) (cs : List Node) :
    attrIn c!"w:p" c!"w14:paraId" c!"w:p" [(c!"w14:paraId", id)] cs = (decodeAttr id).toList := by
  rw [attrIn_raw, ← filterMap_decode]
  rfl

theorem FreshParaIds.one (g : Gen) : FreshParaIds g g.drawPara [] [paraIdText g.para] := by
  refine ⟨by simp [Gen.drawPara], [g.para], by simp, ?_, by simp⟩
  intro k hk
  rw [List.mem_singleton] at hk
  subst hk
  simp [Gen.drawPara]

theorem draws_paraIds : Draws (attrIn c!"w:p" c!"w14:paraId") (fun p => (decodeAttr p.id).toList) FreshParaIds where
  nil := fun g => ⟨Nat.le_refl _, [], by simp, by simp, by simp⟩
  append := by
    rintro g1 g2 g3 a b c d ⟨h1, u, hu1, hu2, hu3⟩ ⟨h1', v, hv1, hv2, hv3⟩
    refine ⟨Nat.le_trans h1 h1', u ++ v, ?_, ?_, ?_⟩
    · rw [List.nodup_append]
      refine ⟨hu1, hv1, fun x hx y hy e => ?_⟩
      have := hu2 x hx
      have := hv2 y hy
      omega
    · intro k hk
      rcases List.mem_append.1 hk with hk | hk
      · have := hu2 k hk; omega
      · have := hv2 k hk; omega
    · refine (hu3.append hv3).trans ?_
      rw [List.map_append, List.append_assoc, List.append_assoc]
      refine List.Perm.append_left a ?_
      rw [← List.append_assoc, ← List.append_assoc]
      exact List.perm_append_comm.append_right _
  silent := fun n as cs _ hp => by simp only [attrIn, if_neg hp]
  history := fun g n hn a d cs => by
    have : n ≠ c!"w:p" := by rintro rfl; revert hn; decide
    simp only [attrIn, if_neg this]
    exact ⟨Nat.le_refl _, [], by simp, by simp, by simp⟩
  change := fun g a d cs => by
    have : (c!"w:pPrChange" : Str) ≠ c!"w:p" := by decide
    simp only [attrIn, if_neg this]
    exact ⟨Nat.le_refl _, [], by simp, by simp, by simp⟩
  paraUnused := fun g => ⟨by simp [Gen.drawPara], [], by simp, by simp, by simp⟩
  para := fun g cs => by
    rw [paraAttr, decodeAttr_paraId]
    exact .one g
  paraLate := by
    rintro g g' l out cs ⟨h1, u, hu1, hu2, hu3⟩
    rw [paraAttr, decodeAttr_paraId]
    refine ⟨by simp only [Gen.drawPara] at h1; omega, g.para :: u, ?_, ?_, ?_⟩
    · refine List.nodup_cons.2 ⟨fun h => ?_, hu1⟩
      have := (hu2 _ h).1
      simp only [Gen.drawPara] at this
      omega
    · intro k hk
      simp only [Gen.drawPara] at h1 hu2
      rcases List.mem_cons.1 hk with rfl | hk
      · omega
      · have := hu2 k hk; omega
    · refine (hu3.append_right _).trans ?_
      simp only [Option.toList, List.map_cons]
      rw [List.append_assoc]
      refine List.Perm.append_left l ?_
      exact List.perm_append_comm
  paragraph := fun g p cs => by
    rw [paraAttr]
    exact ⟨Nat.le_refl _, [], by simp, by simp, by simp⟩

theorem flatMap_ofParagraph (l : List Item) :
    l.flatMap (Item.ofParagraph fun p => (decodeAttr p.id).toList) = l.flatMap Item.paragraphId := by
  congr 2

theorem writtenParaIds_eq (l : List REvent) :
    writtenParaIds l = eventAttrs (splitQName c!"w:p") (splitQName c!"w14:paraId") l := by
  have e1 : (w c!"p" : QName) = splitQName c!"w:p" := by decide
  have e2 : (⟨some c!"w14", c!"paraId"⟩ : QName) = splitQName c!"w14:paraId" := by decide
  rw [writtenParaIds, e1, e2]

/-- **C12.** The paragraph ids in `word/document.xml` are the ids of the body's paragraphs, and besides them
each used once, ids the generator makes while writing. -/
theorem C12_document_ids (d : Document) (hs : ∀ s ∈ d.strings, Stored s) (g g' : Gen) (out : Str)
    (h : d.write g = some (.ok out, g')) :
    ∃ used : List Nat, used.Nodup ∧ (∀ k ∈ used, g.para ≤ k ∧ k < g'.para) ∧
      (writtenParaIds (readEvents out)).Perm ((bodyItems d).flatMap Item.paragraphId ++ used.map paraIdText) := by
  rw [Document.write, ← Document_build_flat] at h
  obtain ⟨f, h1, h2, h3⟩ := writePart_reads (d.ok hs) h
  have := draws_paraIds.document d _ _ _ h1
  rw [here_inPart, flatMap_ofParagraph] at this
  rw [writtenParaIds_eq, h3, eventAttrs_tags _ _ _ h2]
  exact this.2

theorem paragraphId_eq (l : List Item) (h : ∀ i ∈ l.filterMap Item.paraId?, decodeAttr i = some i) :
    l.flatMap Item.paragraphId = l.filterMap Item.paraId? := by
  induction l with
  | nil => rfl
  | cons x l ih =>
    cases x with
    | paragraph p =>
      simp only [List.filterMap_cons, Item.paraId?, List.mem_cons, forall_eq_or_imp] at h
      simp only [List.flatMap_cons, Item.paragraphId, h.1, ih h.2, List.filterMap_cons, Item.paraId?]
      rfl
    | _ => simpa [List.filterMap_cons, Item.paraId?, Item.paragraphId] using ih (by simpa [List.filterMap_cons, Item.paraId?] using h)

theorem body_sublist (x : Story) :
    ((bodyItems x.document).filterMap Item.paraId?).Sublist (bodyIds (walkStory x)) := by
  refine List.Sublist.filterMap _ ?_
  simp only [walkStory, Walk.within, List.filter_append, List.map_append, List.append_assoc]
  refine List.Sublist.trans ?_ (List.sublist_append_left _ _)
  refine List.Sublist.map _ ?_
  refine List.monotone_filter_right _ fun y hy => ?_
  revert hy
  generalize y.1 = w
  intro hy
  simp only [inBody, inPart, Bool.and_eq_true, decide_eq_true_eq] at hy ⊢
  exact ⟨hy.1.1.1.2, hy.1.1.2⟩

/-- **C12, in part.** In a package whose paragraph ids have been made unique, the paragraph ids written to
`word/document.xml` are pairwise distinct, provided that no paragraph of the body has an id of the form the
generator is going to use next. Full statement: the same without the last hypothesis; it is false, see
`C12_fails`. -/
theorem C12_unique_partial (x y : Story) (next : Nat) (hy : refreshDuplicateParaIds x 1 = (y, next))
    (hs : ∀ s ∈ y.document.strings, Stored s)
    (hp : ∀ i ∈ bodyIds (walkStory y), decodeAttr i = some i)
    (hfree : ∀ k, next ≤ k → paraIdText k ∉ bodyIds (walkStory y))
    (history change : Nat) (g' : Gen) (out : Str)
    (h : y.document.write { history, change, para := next } = some (.ok out, g')) :
    (writtenParaIds (readEvents out)).Nodup := by
  obtain ⟨used, h1, h2, h3⟩ := C12_document_ids y.document hs _ _ _ h
  have hb := body_sublist y
  rw [paragraphId_eq _ fun i hi => hp i (hb.subset hi)] at h3
  have hn := (C09_ids_unique_nonempty x 1).1
  rw [hy] at hn
  refine h3.nodup_iff.2 (List.nodup_append.2 ⟨hb.nodup hn, ?_, ?_⟩)
  · rw [List.nodup_iff_pairwise_ne, List.pairwise_map]
    exact h1.imp fun hne e => hne (paraIdText_inj e)
  · intro a ha b hb' e
    obtain ⟨k, hk, rfl⟩ := List.mem_map.1 hb'
    subst e
    exact hfree k (h2 k hk).1 (hb.subset ha)

/-- A paragraph whose id looks like the first one the generator makes, and a table with an empty cell. -/
private def clashing : Story :=
  { document := { children := [.paragraph { id := c!"00000001" }, .table { rows := [{ cells := [{}] }] }] } }

/-- **C12 fails**: two paragraphs of one `word/document.xml` get the same id. -/
theorem C12_fails : ∃ (x : Story) (g' : Gen) (out : Str),
    ((refreshDuplicateParaIds x 1).1.document.write { para := (refreshDuplicateParaIds x 1).2 }) = some (.ok out, g') ∧
    ¬ (writtenParaIds (readEvents out)).Nodup := by
  have h1 := C45_document (refreshDuplicateParaIds clashing 1).1.document { para := (refreshDuplicateParaIds clashing 1).2 }
  rw [WritesElement, if_pos (by decide)] at h1
  obtain ⟨_, _, g1, e1, _⟩ := h1
  refine ⟨clashing, _, _, e1, ?_⟩
  have hs : ∀ s ∈ (refreshDuplicateParaIds clashing 1).1.document.strings, Stored s := by decide +kernel
  rw [Document.write, ← Document_build_flat] at e1
  obtain ⟨f, h1, h2, h3⟩ := writePart_reads (Document.ok _ hs) e1
  rw [writtenParaIds_eq, h3, eventAttrs_tags _ _ _ h2]
  have key : ((refreshDuplicateParaIds clashing 1).1.document.nodes { para := (refreshDuplicateParaIds clashing 1).2 }).map
      (fun r => collectForest (attrIn c!"w:p" c!"w14:paraId") r.1) = some [c!"00000001", c!"00000001"] := by
    decide +kernel
  rw [h1] at key
  simp only [Option.map_some, Option.some.injEq] at key
  rw [key]
  decide

/-! A document with two paragraphs with equal ids, a section break and an empty cell meets the hypotheses of
`C12_unique_partial`. -/

private def fineStory : Story :=
  { document := { children := [.paragraph { id := c!"a0" }, .paragraph { id := c!"a0" },
      .section { children := [.paragraph { id := c!"a1" }] }, .table { rows := [{ cells := [{}] }] }] } }

example : ∃ y next g' out, refreshDuplicateParaIds fineStory 1 = (y, next) ∧
    y.document.write { para := next } = some (.ok out, g') ∧
    (writtenParaIds (readEvents out)).Nodup ∧ (writtenParaIds (readEvents out)).length = 5 := by
  have hy : refreshDuplicateParaIds fineStory 1 = ((refreshDuplicateParaIds fineStory 1).1, 2) :=
    Prod.ext rfl (by decide +kernel)
  have hs : ∀ s ∈ (refreshDuplicateParaIds fineStory 1).1.document.strings, Stored s := by decide +kernel
  have h1 := C45_document (refreshDuplicateParaIds fineStory 1).1.document { para := 2 }
  rw [WritesElement, if_pos (by decide +kernel)] at h1
  obtain ⟨_, _, g1, e1, _⟩ := h1
  have hb : bodyIds (walkStory (refreshDuplicateParaIds fineStory 1).1) = [c!"a0", c!"00000001", c!"a1"] := by
    decide +kernel
  refine ⟨_, _, _, _, hy, e1, C12_unique_partial _ _ _ hy hs (by rw [hb]; decide) ?_ _ _ _ _ e1, ?_⟩
  · intro k hk
    rw [hb]
    intro h
    have e : c!"00000001" = paraIdText 1 := by decide
    simp only [List.mem_cons, List.not_mem_nil, or_false] at h
    have len : ∀ s : Str, paraIdText k = s → 8 ≤ s.length := by
      intro s hs
      rw [← hs, paraIdText, pad0, List.length_append, List.length_replicate]
      omega
    rcases h with h | h | h
    · exact absurd (len _ h) (by decide)
    · rw [e] at h
      have := paraIdText_inj h
      omega
    · exact absurd (len _ h) (by decide)
  · rw [Document.write, ← Document_build_flat] at e1
    obtain ⟨f, h1, h2, h3⟩ := writePart_reads (Document.ok _ hs) e1
    rw [writtenParaIds_eq, h3, eventAttrs_tags _ _ _ h2]
    have key : ((refreshDuplicateParaIds fineStory 1).1.document.nodes { para := 2 }).map
        (fun r => (collectForest (attrIn c!"w:p" c!"w14:paraId") r.1).length) = some 5 := by
      decide +kernel
    rw [h1] at key
    simpa using key

/-! ## C46: revision ids -/

/-- The collector of revision ids. -/
def revisionIn (names : List Str) : Str → List (Str × Str) → List Node → List Str :=
  fun n as _ => if n ∈ names then (as.filter fun a => decide (a.1 = c!"w:id")).filterMap fun a => decodeAttr a.2 else []

theorem revisionIn_attrs {names : List Str} {n : Str} (hn : n ∈ names) (k : Nat) (a d : Str) (cs : List Node) :
    revisionIn names n (revisionAttrs (dec k) a d) cs = [dec k] := by
  simp only [revisionIn, if_pos hn]
  have : (revisionAttrs (dec k) a d).filter (fun a => decide (a.1 = c!"w:id")) = [(c!"w:id", dec k)] := rfl
  rw [this]
  simp only [List.filterMap_cons, List.filterMap_nil, decodeAttr_dec]

/-- The ids are what the generator returns in a row. -/
def InARow (sel : Gen → Nat) (g g' : Gen) (_ out : List Str) : Prop :=
  ∃ k, out = (generateIds k (sel g)).1.map dec ∧ sel g' = (generateIds k (sel g)).2

theorem generateIds_add : ∀ (k j c : Nat), generateIds (k + j) c =
    ((generateIds k c).1 ++ (generateIds j (generateIds k c).2).1, (generateIds j (generateIds k c).2).2)
  | 0, j, c => by simp [generateIds]
  | k + 1, j, c => by
    rw [Nat.add_right_comm]
    simp only [generateIds, generateIds_add k j, List.cons_append]

theorem draws_history : Draws (revisionIn [c!"w:ins", c!"w:del", c!"w:moveFrom", c!"w:moveTo"]) (fun _ => [])
    (InARow Gen.history) where
  nil := fun g => ⟨0, rfl, rfl⟩
  append := by
    rintro g1 g2 g3 a b c d ⟨k, rfl, h1⟩ ⟨j, rfl, h2⟩
    exact ⟨k + j, by rw [generateIds_add, h1, List.map_append], by rw [generateIds_add, h2, h1]⟩
  silent := fun n as cs hn _ => by
    simp only [revisionIn]
    rw [if_neg (fun h => hn (by revert h; simp only [revisionNames, List.mem_cons]; tauto))]
  history := fun g n hn a d cs => by
    rw [revisionIn_attrs hn]
    exact ⟨1, rfl, rfl⟩
  change := fun g a d cs => ⟨0, by
    simp only [revisionIn]
    rw [if_neg (by decide)]
    rfl, rfl⟩
  paraUnused := fun g => ⟨0, rfl, rfl⟩
  para := fun g cs => ⟨0, rfl, rfl⟩
  paraLate := by
    rintro g g' l out cs ⟨k, rfl, h⟩
    refine ⟨k, ?_, h⟩
    simp only [revisionIn]
    rw [if_neg (by decide), List.append_nil]
    rfl
  paragraph := fun g p cs => ⟨0, rfl, rfl⟩

theorem draws_change : Draws (revisionIn [c!"w:pPrChange"]) (fun _ => []) (InARow Gen.change) where
  nil := fun g => ⟨0, rfl, rfl⟩
  append := by
    rintro g1 g2 g3 a b c d ⟨k, rfl, h1⟩ ⟨j, rfl, h2⟩
    exact ⟨k + j, by rw [generateIds_add, h1, List.map_append], by rw [generateIds_add, h2, h1]⟩
  silent := fun n as cs hn _ => by
    simp only [revisionIn]
    rw [if_neg (fun h => hn (by revert h; simp only [revisionNames, List.mem_cons]; tauto))]
  history := fun g n hn a d cs => ⟨0, by
    simp only [revisionIn]
    rw [if_neg (fun h => by
      simp only [List.mem_singleton] at h
      subst h
      revert hn
      decide)]
    rfl, rfl⟩
  change := fun g a d cs => by
    rw [revisionIn_attrs (by simp)]
    exact ⟨1, rfl, rfl⟩
  paraUnused := fun g => ⟨0, rfl, rfl⟩
  para := fun g cs => ⟨0, rfl, rfl⟩
  paraLate := by
    rintro g g' l out cs ⟨k, rfl, h⟩
    refine ⟨k, ?_, h⟩
    simp only [revisionIn]
    rw [if_neg (by decide), List.append_nil]
    rfl
  paragraph := fun g p cs => ⟨0, rfl, rfl⟩

mutual
theorem Node.collect_starts (names : List Str) : (x : Node) → OkF [x] →
    (x.collect startOf).flatMap (fun x => if x.1 ∈ names.map splitQName
      then (x.2.filter fun a => decide (a.1 = splitQName c!"w:id")).map Prod.snd else []) =
    x.collect (revisionIn names)
  | .text s, _ => rfl
  | .elem n as cs, h => by
    have h1 : TagOk (.opn n as) := h _ (by simp [tagsForest, Node.tags])
    have h2 : OkF cs := fun t ht => h t (by simp [tagsForest, Node.tags, ht])
    simp only [Node.collect, startOf, List.cons_append, List.nil_append, List.flatMap_cons,
      collectForest_starts names cs h2, revisionIn, filter_expectAttrs _ as h1.2]
    congr 1
    by_cases e : n ∈ names
    · rw [if_pos e, if_pos (List.mem_map_of_mem e)]
    · rw [if_neg e, if_neg]
      intro h
      obtain ⟨m, hm, e2⟩ := List.mem_map.1 h
      exact e (splitQName_inj e2 ▸ hm)
theorem collectForest_starts (names : List Str) : (f : List Node) → OkF f →
    (collectForest startOf f).flatMap (fun x => if x.1 ∈ names.map splitQName
      then (x.2.filter fun a => decide (a.1 = splitQName c!"w:id")).map Prod.snd else []) =
    collectForest (revisionIn names) f
  | [], _ => rfl
  | x :: f, h => by
    have h1 : OkF [x] := fun t ht => h t (by
      simp only [tagsForest, List.append_nil] at ht; simp [tagsForest, ht])
    have h2 : OkF f := fun t ht => h t (by simp [tagsForest, ht])
    simp only [collectForest, List.flatMap_append, Node.collect_starts names x h1, collectForest_starts names f h2]
end

theorem writtenRevisionIds_eq (l : List REvent) :
    writtenRevisionIds l = (eventStarts l).flatMap fun x =>
      if x.1 ∈ [c!"w:ins", c!"w:del", c!"w:moveFrom", c!"w:moveTo"].map splitQName
      then (x.2.filter fun a => decide (a.1 = splitQName c!"w:id")).map Prod.snd else [] := by
  have e1 : [w c!"ins", w c!"del", w c!"moveFrom", w c!"moveTo"] =
    [c!"w:ins", c!"w:del", c!"w:moveFrom", c!"w:moveTo"].map splitQName := by decide
  have e2 : (w c!"id" : QName) = splitQName c!"w:id" := by decide
  rw [writtenRevisionIds, e1, e2]

/-- A part that satisfies `Drw` for the revision ids. -/
theorem revisions_of {n : N} {l : List Str} {sa : Option Bool} {g g' : Gen} {out : Str} (hok : OkN n)
    (hd : Drw (revisionIn [c!"w:ins", c!"w:del", c!"w:moveFrom", c!"w:moveTo"]) (InARow Gen.history) n l)
    (h : writePart sa (flat n) g = some (.ok out, g')) :
    ∃ k, writtenRevisionIds (readEvents out) = (generateIds k g.history).1.map dec ∧
      g'.history = (generateIds k g.history).2 := by
  obtain ⟨f, h1, h2, h3⟩ := writePart_reads hok h
  rw [writtenRevisionIds_eq, h3, eventStarts_tags _ h2, collectForest_starts _ _ h2]
  exact hd _ _ _ h1

theorem eventAttrs_revision (f : List Node) (h : OkF f) :
    writtenChangeIds (expect [] none (tagsForest f)) = collectForest (revisionIn [c!"w:pPrChange"]) f := by
  rw [writtenChangeIds, idsOf_eq (by decide)]
  have := eventAttrs_tags c!"w:pPrChange" c!"w:id" f h
  rw [show splitQName (c!"w:" ++ c!"pPrChange") = splitQName c!"w:pPrChange" from rfl, this]
  congr 1
  funext n as cs
  simp only [attrIn, revisionIn, List.mem_singleton]

/-- As `revisions_of`, for property changes. -/
theorem changes_of {n : N} {l : List Str} {sa : Option Bool} {g g' : Gen} {out : Str} (hok : OkN n)
    (hd : Drw (revisionIn [c!"w:pPrChange"]) (InARow Gen.change) n l)
    (h : writePart sa (flat n) g = some (.ok out, g')) :
    ∃ k, writtenChangeIds (readEvents out) = (generateIds k g.change).1.map dec ∧
      g'.change = (generateIds k g.change).2 := by
  obtain ⟨f, h1, h2, h3⟩ := writePart_reads hok h
  rw [h3, eventAttrs_revision f h2]
  exact hd _ _ _ h1

/-- **C46.** The ids of the tracked insertions, deletions and moves in `word/document.xml` are what the
revision id generator returns in a row, in document order; the generator is left where the next part goes on. -/
theorem C46_document (d : Document) (hs : ∀ s ∈ d.strings, Stored s) (g g' : Gen) (out : Str)
    (h : d.write g = some (.ok out, g')) :
    (∃ k, writtenRevisionIds (readEvents out) = (generateIds k g.history).1.map dec ∧
      g'.history = (generateIds k g.history).2) ∧
    (∃ k, writtenChangeIds (readEvents out) = (generateIds k g.change).1.map dec ∧
      g'.change = (generateIds k g.change).2) := by
  rw [Document.write, ← Document_build_flat] at h
  exact ⟨revisions_of (d.ok hs) (draws_history.document d) h, changes_of (d.ok hs) (draws_change.document d) h⟩

/-- **C46.** As `C46_document`, for a header. -/
theorem C46_header (x : Header) (hs : ∀ s ∈ x.strings, Stored s) (g g' : Gen) (out : Str)
    (h : x.writeHeader g = some (.ok out, g')) :
    (∃ k, writtenRevisionIds (readEvents out) = (generateIds k g.history).1.map dec ∧
      g'.history = (generateIds k g.history).2) ∧
    (∃ k, writtenChangeIds (readEvents out) = (generateIds k g.change).1.map dec ∧
      g'.change = (generateIds k g.change).2) := by
  rw [Header.writeHeader, ← Header_build_flat] at h
  exact ⟨revisions_of (x.ok (by decide) hs) (draws_history.header (by decide) (by decide) x [.header] (by rfl)) h,
    changes_of (x.ok (by decide) hs) (draws_change.header (by decide) (by decide) x [.header] (by rfl)) h⟩

/-- **C46.** As `C46_document`, for a footer. -/
theorem C46_footer (x : Header) (hs : ∀ s ∈ x.strings, Stored s) (g g' : Gen) (out : Str)
    (h : x.writeFooter g = some (.ok out, g')) :
    (∃ k, writtenRevisionIds (readEvents out) = (generateIds k g.history).1.map dec ∧
      g'.history = (generateIds k g.history).2) ∧
    (∃ k, writtenChangeIds (readEvents out) = (generateIds k g.change).1.map dec ∧
      g'.change = (generateIds k g.change).2) := by
  rw [Header.writeFooter, ← Header_build_flat] at h
  exact ⟨revisions_of (x.ok (by decide) hs) (draws_history.header (by decide) (by decide) x [.footer] (by rfl)) h,
    changes_of (x.ok (by decide) hs) (draws_change.header (by decide) (by decide) x [.footer] (by rfl)) h⟩

/-- **C46.** As `C46_document`, for the comments part. -/
theorem C46_comments (cs : List Comment) (hs : ∀ c ∈ cs, ∀ s ∈ c.strings, Stored s) (g g' : Gen) (out : Str)
    (h : writeComments cs g = some (.ok out, g')) :
    (∃ k, writtenRevisionIds (readEvents out) = (generateIds k g.history).1.map dec ∧
      g'.history = (generateIds k g.history).2) ∧
    (∃ k, writtenChangeIds (readEvents out) = (generateIds k g.change).1.map dec ∧
      g'.change = (generateIds k g.change).2) := by
  rw [writeComments, ← commentsB_flat] at h
  exact ⟨revisions_of (commentsN_ok cs hs) (draws_history.comments cs) h,
    changes_of (commentsN_ok cs hs) (draws_change.comments cs) h⟩

/-- **C46.** As `C46_document`, for the footnotes part. -/
theorem C46_footnotes (fs : List Footnote) (hs : ∀ c ∈ fs, ∀ s ∈ c.strings, Stored s) (g g' : Gen) (out : Str)
    (h : writeFootnotes fs g = some (.ok out, g')) :
    (∃ k, writtenRevisionIds (readEvents out) = (generateIds k g.history).1.map dec ∧
      g'.history = (generateIds k g.history).2) ∧
    (∃ k, writtenChangeIds (readEvents out) = (generateIds k g.change).1.map dec ∧
      g'.change = (generateIds k g.change).2) := by
  rw [writeFootnotes, ← footnotesB_flat] at h
  exact ⟨revisions_of (footnotesN_ok fs hs) (draws_history.footnotes fs) h,
    changes_of (footnotesN_ok fs hs) (draws_change.footnotes fs) h⟩

theorem generateIds_length : ∀ k c, (generateIds k c).1.length = k
  | 0, _ => rfl
  | k + 1, c => by simp [generateIds, generateIds_length k]

/-- **C46.** The ids of the tracked insertions, deletions and moves in one `word/document.xml` are pairwise
distinct, and so are those of the tracked property changes, as long as there are at most 2^64 of them. -/
theorem C46_distinct (d : Document) (hs : ∀ s ∈ d.strings, Stored s) (g g' : Gen) (out : Str)
    (h : d.write g = some (.ok out, g')) (hg : g.history < 2 ^ 64) (hc : g.change < 2 ^ 64)
    (h1 : (writtenRevisionIds (readEvents out)).length ≤ 2 ^ 64)
    (h2 : (writtenChangeIds (readEvents out)).length ≤ 2 ^ 64) :
    (writtenRevisionIds (readEvents out)).Nodup ∧ (writtenChangeIds (readEvents out)).Nodup := by
  obtain ⟨⟨k, e1, _⟩, j, e2, _⟩ := C46_document d hs g g' out h
  have key : ∀ k c, c < 2 ^ 64 → k ≤ 2 ^ 64 → ((generateIds k c).1.map dec).Nodup := by
    intro k c hc hk
    have := (C11_distinct_one_thread k c hc hk).2
    rw [List.nodup_iff_pairwise_ne, List.pairwise_map]
    exact this.imp fun hne e => hne (dec_inj e)
  rw [e1] at h1 ⊢
  rw [e2] at h2 ⊢
  simp only [List.length_map, generateIds_length] at h1 h2
  exact ⟨key _ _ hg h1, key _ _ hc h2⟩

/-- A paragraph with an insertion, a deletion inside it, and a property change. -/
private def trackedDoc : Document :=
  { children := [.paragraph ⟨c!"1",
      [.insert ⟨c!"A", c!"D", [.run {}, .delete ⟨c!"A", c!"D", [.run {}]⟩]⟩],
      { change := some ⟨c!"A", c!"D", {}⟩ }, false⟩] }

/-- **C46 does not extend to both kinds together**: an insertion and a property change can have the same id. -/
theorem C46_kinds_overlap : ∃ (d : Document) (g' : Gen) (out : Str), d.write {} = some (.ok out, g') ∧
    writtenRevisionIds (readEvents out) = [c!"0", c!"1"] ∧ writtenChangeIds (readEvents out) = [c!"0"] := by
  have h1 := C45_document trackedDoc {}
  rw [WritesElement, if_pos (by decide +kernel)] at h1
  obtain ⟨_, _, g1, e1, _⟩ := h1
  have hs : ∀ s ∈ trackedDoc.strings, Stored s := by decide +kernel
  refine ⟨trackedDoc, _, _, e1, ?_⟩
  rw [Document.write, ← Document_build_flat] at e1
  obtain ⟨f, h1, h2, h3⟩ := writePart_reads (Document.ok _ hs) e1
  rw [writtenRevisionIds_eq, h3, eventStarts_tags _ h2, collectForest_starts _ _ h2, eventAttrs_revision f h2]
  have key : (trackedDoc.nodes {}).map (fun r =>
      (collectForest (revisionIn [c!"w:ins", c!"w:del", c!"w:moveFrom", c!"w:moveTo"]) r.1,
       collectForest (revisionIn [c!"w:pPrChange"]) r.1)) = some ([c!"0", c!"1"], [c!"0"]) := by
    decide +kernel
  rw [h1] at key
  simpa using key

end Docx.Props
