import Verif.Lemmas.PackedParts
import Verif.Lemmas.DocRels
import Verif.Lemmas.Build

/-!
# The headers and footers of every section are those given for it
-/

namespace Docx

open Docx.Spec Docx.Xml

/-- The parts of a section property, without their relationship ids. -/
def Side.heads (side : Side) (p : SectionProperty) : List (Option Header) := (side.parts p).map (Option.map Prod.snd)

theorem attachParts_heads (side : Side) (d : DocxFile) (s : Section) (hf : ∀ side : Side, ∀ o ∈ side.parts s.property, o = none) :
    Side.heads side (d.attachParts s).2 = side.ofSection s := by
  have h1 := hf .header
  have h2 := hf .footer
  simp only [Side.parts, List.mem_cons, List.not_mem_nil, or_false, forall_eq_or_imp, forall_eq] at h1 h2
  obtain ⟨a1, a2, a3⟩ := h1
  obtain ⟨b1, b2, b3⟩ := h2
  obtain ⟨p, cs, n, t1, t2, t3, u1, u2, u3⟩ := s
  dsimp only at a1 a2 a3 b1 b2 b3
  cases side <;> cases t1 <;> cases t2 <;> cases t3 <;> cases u1 <;> cases u2 <;> cases u3 <;>
      simp only [DocxFile.attachParts, attachHeader, attachFooter, Side.heads, Side.parts, SectionProperty.setHeader, SectionProperty.setFirstHeader,
        SectionProperty.setEvenHeader, SectionProperty.setFooter, SectionProperty.setFirstFooter, SectionProperty.setEvenFooter, a1, a2, a3, b1, b2, b3] <;> rfl

/-- The section property a call adds. -/
def addedSection (d : DocxFile) : Call → List SectionProperty
  | .addSection s => [(d.attachParts s).2]
  | _ => []

/-- What a call does to the sections. -/
theorem call_sections {d d' : DocxFile} {c : Call} (e : d.call c = some d') (hn : ∀ x, c ≠ .document x) :
    sectionsOf d'.document = sectionsOf d.document ++ addedSection d c := by
  have hsame : ∀ (x : DocumentChild) (b : Bool), sectionProp? x = none →
      sectionsOf { d.document with children := d.document.children ++ [x], hasNumbering := b } = sectionsOf d.document ++ [] := by
    intro x b hx
    rw [sectionsOf_append, hx]
    rfl
  cases c with
  | document x => exact absurd rfl (hn x)
  | addSection s =>
    simp only [DocxFile.call, Option.some.injEq] at e
    subst e
    have hd : (d.attachParts s).1.document = d.document := by
      obtain ⟨p, cs, n, t1, t2, t3, u1, u2, u3⟩ := s
      cases t1 <;> cases t2 <;> cases t3 <;> cases u1 <;> cases u2 <;> cases u3 <;> rfl
    unfold DocxFile.addSection Document.addSection
    dsimp only
    rw [hd]
    unfold sectionsOf
    rw [List.filterMap_append]
    rfl
  | addParagraph p =>
    simp only [DocxFile.call, Option.some.injEq] at e
    subst e
    exact hsame (.paragraph p) _ rfl
  | addTable p =>
    simp only [DocxFile.call, Option.some.injEq] at e
    subst e
    exact hsame (.table p) _ rfl
  | addSdt p =>
    simp only [DocxFile.call, Option.some.injEq] at e
    subst e
    exact hsame (.sdt p) _ rfl
  | addToc p =>
    simp only [DocxFile.call, Option.some.injEq] at e
    subst e
    exact hsame (.toc p) d.document.hasNumbering rfl
  | addBookmarkStart i n =>
    simp only [DocxFile.call, Option.some.injEq] at e
    subst e
    exact hsame (.bookmarkStart i n) d.document.hasNumbering rfl
  | addBookmarkEnd i =>
    simp only [DocxFile.call, Option.some.injEq] at e
    subst e
    exact hsame (.bookmarkEnd i) d.document.hasNumbering rfl
  | addCustomItem i x =>
    simp only [DocxFile.call] at e
    split at e
    · cases e
      exact (List.append_nil _).symm
    · cases e
  | _ =>
    simp only [DocxFile.call, Option.some.injEq] at e
    rw [← e]
    exact (List.append_nil _).symm

theorem call_heads {side : Side} {d d' : DocxFile} {c : Call} (e : d.call c = some d') (hn : ∀ x, c ≠ .document x)
    (hf : ∀ s, c = .addSection s → Fresh s.property) :
    (sectionsOf d'.document).map (Side.heads side) = (sectionsOf d.document).map (Side.heads side) ++ side.ofCall c := by
  rw [call_sections e hn, List.map_append]
  congr 1
  cases c with
  | addSection s => simp only [addedSection, List.map_cons, List.map_nil, attachParts_heads side d s (fun sd => (hf s rfl sd).1)]; cases side <;> rfl
  | _ => cases side <;> rfl

/-- The slots of the document after some calls. -/
def Side.after (side : Side) (cs : List Call) (l : List (Option Header)) : List (Option Header) :=
  l.mapIdx fun k o => (side.last k cs).or o

theorem last_cons (side : Side) (k : Nat) (c : Call) (cs : List Call) :
    side.last k (c :: cs) = (side.last k cs).or (if side.slot c = some k then (side.given c).getLast? else none) := by
  unfold Side.last
  by_cases h : side.slot c = some k
  · rw [List.filter_cons_of_pos (by simpa using h), List.flatMap_cons, List.getLast?_append, if_pos h]
  · rw [List.filter_cons_of_neg (by simpa using h), if_neg h, Option.or_none]

theorem calls_heads {side : Side} : ∀ (cs : List Call) (d d' : DocxFile), Plainly cs → d.calls cs = some d' →
    Side.heads side d'.document.sectionProperty = Side.after side cs (Side.heads side d.document.sectionProperty) ∧
    (sectionsOf d'.document).map (Side.heads side) = (sectionsOf d.document).map (Side.heads side) ++ cs.flatMap side.ofCall
  | [], d, d', _, h => by
    simp only [DocxFile.calls, Option.some.injEq] at h
    rw [← h]
    refine ⟨?_, by simp⟩
    have : (fun (k : Nat) (o : Option Header) => (side.last k []).or o) = fun _ o => o := by
      funext k o
      rfl
    rw [Side.after, this]
    apply List.ext_getElem?
    intro i
    simp
  | c :: cs, d, d', hp, h => by
    obtain ⟨x, h1, h2⟩ := calls_cons h
    obtain ⟨i1, i2⟩ := calls_heads (side := side) cs x d' (plainly_tail hp) h2
    have e := plainly_effect hp h1 side
    rw [i1, i2, call_heads (side := side) h1 (fun y hy => hp.1 y (hy ▸ .head _)) (fun s hs => hp.2 s (hs ▸ .head _)),
      List.flatMap_cons, List.append_assoc]
    refine ⟨?_, rfl⟩
    have hx : Side.heads side x.document.sectionProperty =
        (Side.heads side d.document.sectionProperty).mapIdx fun k o =>
          (if side.slot c = some k then (side.given c).getLast? else none).or o := by
      unfold Side.heads
      cases hs : side.slot c with
      | none =>
        rw [(e.rest hs).1]
        apply List.ext_getElem?
        intro i
        simp
        rfl
      | some k =>
        obtain ⟨y, e0, e1, _⟩ := e.slot k hs
        rw [e1, e0]
        apply List.ext_getElem?
        intro i
        rw [List.getElem?_mapIdx, List.getElem?_map, List.getElem?_map, List.getElem?_set]
        by_cases hik : k = i
        · subst hik
          simp only [if_true]
          by_cases hl : k < (side.parts d.document.sectionProperty).length
          · simp [hl]
          · simp [hl]
        · simp only [hik, if_false, Option.some.injEq]
          cases (side.parts d.document.sectionProperty)[i]? <;> simp
    unfold Side.after
    rw [hx]
    apply List.ext_getElem?
    intro i
    simp only [List.getElem?_mapIdx, last_cons]
    cases (Side.heads side d.document.sectionProperty)[i]? with
    | none => rfl
    | some o => simp [Option.or_assoc]

/-- The headers and footers of the sections of a document are those given to the builder. -/
theorem heads_passed {cs : List Call} {d : DocxFile} (side : Side) (hp : Plainly cs) (h : DocxFile.new.calls cs = some d) :
    (sectionProperties d.document).map (Side.heads side) = side.passed cs := by
  obtain ⟨h1, h2⟩ := calls_heads (side := side) cs _ d hp h
  rw [sectionProperties_eq, List.map_cons, h1]
  have e : d.document.children.filterMap sectionProp? = sectionsOf d.document := rfl
  rw [e, h2]
  unfold Side.passed Side.after
  congr 1
  unfold Side.heads
  rw [new_parts]
  simp [List.mapIdx_cons]

theorem slot_rank {side : Side} {c : Call} {k : Nat} (h : side.slot c = some k) : side.rank c = some k := by simp [Side.rank, h]

theorem inOrder_once {side : Side} : ∀ {cs : List Call}, InOrder side cs → Once side cs
  | [], _ => by simp [Once]
  | c :: cs, h => by
    unfold InOrder at h
    unfold Once
    have ht : InOrder side cs := by
      unfold InOrder
      cases hr : side.rank c with
      | none => rwa [List.filterMap_cons_none hr] at h
      | some k => rw [List.filterMap_cons_some hr, List.pairwise_cons] at h; exact h.2
    cases hs : side.slot c with
    | none => rw [List.filterMap_cons_none hs]; exact inOrder_once ht
    | some k =>
      rw [List.filterMap_cons_some hs, List.nodup_cons]
      refine ⟨fun hm => ?_, inOrder_once ht⟩
      rw [List.filterMap_cons_some (slot_rank hs), List.pairwise_cons] at h
      obtain ⟨c', hc', e'⟩ := List.mem_filterMap.1 hm
      have := h.1 k (List.mem_filterMap.2 ⟨c', hc', slot_rank e'⟩)
      have hk3 := slot_lt hs
      omega

theorem filter_key {α β : Type} [DecidableEq β] (f : α → β) : ∀ (l : List α) (x : α), x ∈ l → (l.map f).Nodup →
    l.filter (fun y => decide (f y = f x)) = [x]
  | a :: l, x, hx, hn => by
    rw [List.map_cons, List.nodup_cons] at hn
    by_cases h : a = x
    · subst h
      rw [List.filter_cons_of_pos (by simp)]
      congr 1
      rw [List.filter_eq_nil_iff]
      intro z hz hid
      exact hn.1 (of_decide_eq_true hid ▸ List.mem_map_of_mem hz)
    · have hx' : x ∈ l := (List.mem_cons.1 hx).resolve_left fun e => h e.symm
      rw [List.filter_cons_of_neg (by
        simp only [decide_eq_true_eq]
        exact fun e => hn.1 (e ▸ List.mem_map_of_mem hx'))]
      exact filter_key f l x hx' hn.2

/-- How the ids of the parts begin. -/
def Side.key : Side → Str
  | .header => c!"He"
  | .footer => c!"Fo"

theorem Side.key_rid (side : Side) (n : Nat) : idKey (side.rid n) = Side.key side := by cases side <;> rfl

/-- The relationships of the parts of one side. -/
def Side.relation (side : Side) (i : Nat) : Relation := ⟨side.rid (i + 1), side.type, Side.kind side ++ dec (i + 1) ++ c!".xml", none⟩

theorem headerRel_eq : officeRel c!"header" = Side.header.type := by decide
theorem footerRel_eq : officeRel c!"footer" = Side.footer.type := by decide
theorem relation_header : numberedRelation createHeaderRid c!"header" c!"header" = Side.relation .header := by
  funext i
  unfold numberedRelation
  rw [headerRel_eq]
  rfl
theorem relation_footer : numberedRelation createFooterRid c!"footer" c!"footer" = Side.relation .footer := by
  funext i
  unfold numberedRelation
  rw [footerRel_eq]
  rfl

theorem filter_none {α : Type} {p : α → Bool} {l : List α} (h : ∀ x ∈ l, p x = false) : l.filter p = [] := by
  rw [List.filter_eq_nil_iff]
  intro x hx
  simp [h x hx]

theorem rid_injective (side : Side) {a b : Nat} (h : side.rid a = side.rid b) : a = b := by
  cases side
  · exact dec_inj (List.append_cancel_left (as := c!"rIdHeader") h)
  · exact dec_inj (List.append_cancel_left (as := c!"rIdFooter") h)

/-- The relationship of a part is the only one with its id. -/
theorem relations_part (side : Side) {r : DocumentRels} {imgs ls : List (Str × Str)} (hi : ∀ x ∈ imgs, PicName x.1)
    (hl : ∀ x ∈ ls, ∃ n, x.1 = createHyperlinkRid n) {n : Nat} (hn : side = .header → r.headerCount = n) (hn' : side = .footer → r.footerCount = n)
    {i : Nat} (h : i < n) :
    (r.fixedRelations ++ r.partRelations ++ imgs.map imageRelation ++ ls.map linkRelation).filter
      (fun x => decide (x.id = side.rid (i + 1))) = [Side.relation side i] := by
  have hkey : ∀ l : List Relation, (∀ x ∈ l, idKey x.id ≠ Side.key side) → l.filter (fun x => decide (x.id = side.rid (i + 1))) = [] := by
    intro l hl
    refine filter_none fun x hx => ?_
    rw [decide_eq_false_iff_not]
    intro e
    exact hl x hx (by rw [e, Side.key_rid])
  have hdec : ∀ m, idKey (c!"rId" ++ dec m) ≠ Side.key side := by
    intro m e
    obtain ⟨c, t, e1, e2, e3, _⟩ := idKey_dec m
    rw [e1] at e
    cases side
    · injection e with e _; exact e2 e
    · injection e with e _; exact e3 e
  have hmine : ((List.range n).map (Side.relation side)).filter (fun x => decide (x.id = side.rid (i + 1))) = [Side.relation side i] := by
    refine filter_key Relation.id _ (Side.relation side i) (List.mem_map_of_mem (List.mem_range.2 h)) ?_
    rw [List.map_map]
    refine List.Nodup.map (fun a b e => ?_) List.nodup_range
    have := rid_injective side e
    omega
  rw [List.filter_append, List.filter_append, List.filter_append]
  unfold DocumentRels.partRelations
  rw [List.filter_append, List.filter_append]
  rw [hkey (ls.map linkRelation), hkey (imgs.map imageRelation), hkey r.fixedRelations]
  · rw [hkey (List.map _ (List.range r.customXmlCount))]
    · cases side
      · rw [hn rfl, hkey ((List.range r.footerCount).map _)]
        · rw [relation_header, hmine]; rfl
        · intro x hx
          obtain ⟨j, _, rfl⟩ := List.mem_map.1 hx
          exact fun e => absurd ((idKey_footer (j + 1)).symm.trans e) (by decide)
      · rw [hn' rfl, hkey ((List.range r.headerCount).map _)]
        · rw [relation_footer, hmine]; rfl
        · intro x hx
          obtain ⟨j, _, rfl⟩ := List.mem_map.1 hx
          exact fun e => absurd ((idKey_header (j + 1)).symm.trans e) (by decide)
    · intro x hx
      obtain ⟨j, _, rfl⟩ := List.mem_map.1 hx
      exact hdec _
  · intro x hx
    have : x.id ∈ r.fixedRelations.map Relation.id := List.mem_map_of_mem hx
    rw [fixed_ids] at this
    obtain ⟨m, _, e⟩ := List.mem_map.1 this
    rw [← e]
    exact hdec m
  · intro x hx
    obtain ⟨y, hy, rfl⟩ := List.mem_map.1 hx
    have hk := idKey_pic (hi y hy)
    intro e
    have e' : Side.key side = c!"Im" := e.symm.trans hk
    cases side <;> exact absurd e' (by decide)
  · intro x hx
    obtain ⟨y, hy, rfl⟩ := List.mem_map.1 hx
    obtain ⟨m, hm⟩ := hl y hy
    have hk : idKey (linkRelation y).id = c!"Hy" := by
      have : (linkRelation y).id = y.1 := rfl
      rw [this, hm]
      rfl
    intro e
    have e' : Side.key side = c!"Hy" := e.symm.trans hk
    cases side <;> exact absurd e' (by decide)

/-! ## The references as written -/

theorem eachN_mem {α : Type} {f : α → N} {a : α} : ∀ {l : List α} {g g' : Gen} {ns : List Node}, a ∈ l → eachN f l g = some (ns, g') →
    ∃ g1 g2 ms, f a g1 = some (ms, g2) ∧ ∀ m ∈ ms, m ∈ ns
  | b :: l, g, g', ns, ha, h => by
    simp only [eachN, N.thenN] at h
    split at h
    · cases h
    · rename_i x g1 e1
      split at h
      · cases h
      · rename_i y g2 e2
        simp only [Option.some.injEq, Prod.mk.injEq] at h
        obtain ⟨rfl, _⟩ := h
        rcases List.mem_cons.1 ha with rfl | ha
        · exact ⟨_, _, _, e1, fun m hm => List.mem_append_left _ hm⟩
        · obtain ⟨a1, a2, ms, e3, e4⟩ := eachN_mem ha e2
          exact ⟨a1, a2, ms, e3, fun m hm => List.mem_append_right _ (e4 m hm)⟩

end Docx
