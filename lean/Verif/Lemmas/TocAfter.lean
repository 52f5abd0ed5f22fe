import Verif.Lemmas.PackedToc
import Verif.Spec.TocRead
import Verif.Lemmas.Resaved
import Verif.Props.C30_Instr

/-!
# What is read of a table of contents
-/

namespace Docx

open Docx.Xml Docx.Spec Docx.Props

variable {x : ReadEnv}

theorem textOf_eq (t : Str) : textOf t = escapeOwned (dropLineFeeds t) := by
  rw [textOf, C03_escape_owned]
  rfl

theorem textOf_again (t : Str) : textAgain (textOf t) = afterText t := by
  rw [textOf_eq, textAgain_after]

theorem textOf_readable (t : Str) : (decodeText (textOf t)).isSome := by
  rw [textOf_eq, addText_decodes]
  rfl

theorem blockOf_inBody (i : BodyItem) : (blockOf i).inBody = itemChild i := by cases i <;> rfl

theorem run_default_reread : RunProperty.reread {} = {} := by rfl

theorem run_default_readable : RunProperty.Readable {} := by
  simp [RunProperty.Readable, RunProperty.strings, optStrings, optS]

/-! ## The instruction -/

theorem instr_again (i : InstrToC) (h : TocReadable i) (hs : ∀ s ∈ i.strings, Stored s) :
    ReadablePieces (InstrText.pieces (.toc i)) ∧ InstrToC.fromStr ((InstrText.pieces (.toc i)).map decoded).flatten = tocRead i := by
  have hd : decodeText i.text = _ := toc_decodes i h (noLess i hs)
  have hf := toc_reads (.inr rfl) i h
  rw [readF_eq] at hf
  simp only [InstrText.pieces, ReadablePieces, List.map_cons, List.map_nil, List.flatten_cons, List.flatten_nil, List.append_nil, decoded, hd,
    Option.getD_some]
  refine ⟨⟨fun t ht => ?_, ?_⟩, hf⟩
  · rw [List.mem_singleton.1 ht, hd]; rfl
  · intro hb
    exact absurd (hb 'T' (.head _)) (by decide)

theorem opens_field (dirty : Bool) (i : InstrToC) (h : TocReadable i) (hs : ∀ s ∈ i.strings, Stored s) :
    ∃ c, ParagraphChild.reread (.run (tocFieldRun dirty i)) = [c] ∧ OpensField dirty (tocRead i) c :=
  ⟨_, rfl, _, rfl, (instr_again i h hs).2⟩

theorem field_readable (dirty : Bool) (i : InstrToC) (h : TocReadable i) (hs : ∀ s ∈ i.strings, Stored s) : (tocFieldRun dirty i).Readable := by
  refine ⟨run_default_readable, fun c hc => ?_⟩
  simp only [tocFieldRun, List.mem_cons, List.not_mem_nil, or_false] at hc
  rcases hc with rfl | rfl | rfl
  · trivial
  · exact (instr_again i h hs).1
  · trivial

/-! ## Entries -/

theorem page_again (key : Str) (h : PlainValue key) :
    ReadablePieces (InstrText.pieces (.pageRef { pageRef := key, hyperlink := true })) ∧
    ((InstrText.pieces (.pageRef { pageRef := key, hyperlink := true })).map decoded).flatten = c!"PAGEREF " ++ key ++ c!" \\h" := by
  have hd := decodeText_plainValue h
  have h1 : decodeText c!"PAGEREF " = some c!"PAGEREF " := by decide
  have h2 : decodeText c!" \\h" = some c!" \\h" := by decide
  have e : ((InstrText.pieces (.pageRef { pageRef := key, hyperlink := true })).map decoded).flatten = c!"PAGEREF " ++ key ++ c!" \\h" := by
    simp only [InstrText.pieces, if_true, Bool.false_eq_true, if_false, List.append_nil, List.cons_append, List.nil_append, List.map_cons, List.map_nil,
      decoded, hd, h1, h2, Option.getD_some, List.flatten_cons, List.flatten_nil, List.append_assoc]
  refine ⟨⟨fun t ht => ?_, ?_⟩, e⟩
  · simp only [InstrText.pieces, if_true, Bool.false_eq_true, if_false, List.append_nil, List.cons_append, List.nil_append, List.mem_cons,
      List.not_mem_nil, or_false] at ht
    rcases ht with rfl | rfl | rfl
    · rw [h1]; rfl
    · rw [hd]; rfl
    · rw [h2]; rfl
  · rw [e]
    intro hb
    exact absurd (hb 'P' (.head _)) (by decide)

theorem entry_runs (i : TocItem) (h : PlainValue i.tocKey) :
    (tocEntryRuns i).flatMap ParagraphChild.rereadInner = entryRuns i.tocKey i.text (i.pageRef.getD c!"1") ∧
    (tocEntryRuns i).flatMap ParagraphChild.reread = entryRuns i.tocKey i.text (i.pageRef.getD c!"1") ∧
    ∀ c ∈ tocEntryRuns i, c.ReadableInner := by
  obtain ⟨hp, e⟩ := page_again i.tocKey h
  have e1 : Run.reread { children := [.text (textOf i.text)] } = { children := (afterText i.text).map .text } := by
    simp only [Run.reread, run_default_reread, List.flatMap_cons, List.flatMap_nil, List.append_nil, RunChild.reread, textOf_again]
  have e2 : (pageRefRun i).reread = { children := [.fieldChar .begin false, .instrTextString (c!"PAGEREF " ++ i.tocKey ++ c!" \\h"), .fieldChar .separate false]
      ++ (afterText (i.pageRef.getD c!"1")).map .text ++ [.fieldChar .end_ false] } := by
    simp only [Run.reread, pageRefRun, run_default_reread, List.flatMap_cons, List.flatMap_nil, List.append_nil, RunChild.reread, textOf_again, e,
      List.cons_append, List.nil_append]
  have e3 : Run.reread { children := [.tab] } = { children := [.tab] } := rfl
  refine ⟨?_, ?_, fun c hc => ?_⟩
  · simp only [tocEntryRuns, List.flatMap_cons, List.flatMap_nil, ParagraphChild.rereadInner, e1, e2, e3, entryRuns]; rfl
  · simp only [tocEntryRuns, List.flatMap_cons, List.flatMap_nil, ParagraphChild.reread, ParagraphChild.rereadInner, e1, e2, e3, entryRuns]; rfl
  · simp only [tocEntryRuns, List.mem_cons, List.not_mem_nil, or_false] at hc
    rcases hc with rfl | rfl | rfl
    · refine ⟨run_default_readable, fun c hc => ?_⟩
      rw [List.mem_singleton.1 hc]
      exact textOf_readable _
    · refine ⟨run_default_readable, fun c hc => ?_⟩
      rw [List.mem_singleton.1 hc]
      trivial
    · refine ⟨run_default_readable, fun c hc => ?_⟩
      simp only [pageRefRun, List.mem_cons, List.not_mem_nil, or_false] at hc
      rcases hc with rfl | rfl | rfl | rfl | rfl
      · trivial
      · exact hp
      · trivial
      · exact textOf_readable _
      · trivial

theorem entryStyle (n : Nat) (tabs : List Tab) (ht : tabs = [] ∨ tabs = [tocTab]) : (styleProperty (c!"ToC" ++ dec n) tabs).Readable ∧
    (styleProperty (c!"ToC" ++ dec n) tabs).reread.base.style = some (c!"ToC" ++ dec n) := by
  have hk : ParagraphBase.Kept { style := some (escape (c!"ToC" ++ dec n)), tabs := tabs } := by
    refine { base_default_kept with style := fun s e => ?_, tabs := fun t h m e => ?_ }
    · obtain rfl := Option.some.inj e
      exact ⟨c!"ToC" ++ dec n, keptText_dec ⟨by decide, by decide⟩ n, (C03_escape_owned _).symm⟩
    · rcases ht with rfl | rfl
      · cases h
      · obtain rfl := List.mem_singleton.1 h
        cases e
        decide
  have hp : ParagraphProperty.Kept (styleProperty (c!"ToC" ++ dec n) tabs) := ⟨hk, trivial⟩
  obtain ⟨k1, k2, _⟩ := kept_reread _ hp
  refine ⟨k2, ?_⟩
  rw [k1]
  show some (escape _) = some _
  rw [escape_id_of_plain]
  rw [List.any_eq_false]
  intro c hc
  have hd : ∀ c ∈ c!"ToC0123456789", ¬ needsEscape c = true := by decide
  refine hd c ?_
  rcases List.mem_append.1 hc with hc | hc
  · exact List.mem_append_left c!"0123456789" hc
  · exact List.mem_append_right c!"ToC" (dec_digits n c hc)

theorem entry_read (t : Toc) (first : Bool) (i j : TocItem) (hj : j = { i with instr := t.instr, dirty := t.dirty, pageRef := i.pageRef.or t.pageRefPlaceholder })
    (h : PlainValue i.tocKey) (hi : TocReadable t.instr) (hs : ∀ s ∈ t.instr.strings, Stored s) :
    (∃ opening, EntryRead t opening i (entryParagraph [] first j).reread ∧
      if first then ∃ c, OpensField t.dirty (tocRead t.instr) c ∧ opening = [c] else opening = []) ∧
    ∀ id, Stored id → (entryParagraph id first j).Readable := by
  have hk : PlainValue j.tocKey := by rw [hj]; exact h
  obtain ⟨r1, r2, r3⟩ := entry_runs j hk
  have hl : j.instr = t.instr := by rw [hj]
  have hd : j.dirty = t.dirty := by rw [hj]
  obtain ⟨s1, s2⟩ := entryStyle j.level [tocTab] (.inr rfl)
  have hseen : seen j.tocKey = j.tocKey := hk.seen
  have hlink : ∀ cs : List ParagraphChild, (ParagraphChild.hyperlink { link := .anchor j.tocKey, children := cs }).reread =
      [.hyperlink { link := .anchor j.tocKey, history := some 1, children := cs.flatMap ParagraphChild.rereadInner }] := by
    intro cs
    simp only [ParagraphChild.reread, HyperlinkData.reread, hseen]
    rfl
  obtain ⟨c, c1, c2⟩ := opens_field j.dirty j.instr (hl ▸ hi) (hl ▸ hs)
  have r4 := field_readable j.dirty j.instr (hl ▸ hi) (hl ▸ hs)
  rw [hl] at c1 c2
  rw [hd] at c2
  refine ⟨⟨if first then [c] else [], ⟨?_, ?_⟩, ?_⟩, fun id hid => ⟨hid.2.1, s1, ?_⟩⟩
  · have : i.level = j.level := by rw [hj]
    rw [this]
    exact s2
  · have e1 : i.tocKey = j.tocKey := by rw [hj]
    have e2 : i.text = j.text := by rw [hj]
    have e3 : i.pageRef.or t.pageRefPlaceholder = j.pageRef := by rw [hj]
    rw [e1, e2, e3]
    cases first <;> cases hh : t.instr.hyperlink <;>
      simp [entryParagraph, Paragraph.reread, hl, hh, hlink, r1, r2, c1]
  · cases first
    · rfl
    · exact ⟨c, c2, rfl⟩
  · have : ∀ c ∈ tocEntryRuns j, c.Readable := by
      intro c hc
      have := r3 c hc
      simp only [tocEntryRuns, List.mem_cons, List.not_mem_nil, or_false] at hc
      rcases hc with rfl | rfl | rfl <;> exact this
    intro c hc
    simp only [entryParagraph, List.mem_append] at hc
    rcases hc with hc | hc
    · cases first
      · cases hc
      · rw [List.mem_singleton.1 hc]; exact r4
    · split at hc
      · rw [List.mem_singleton.1 hc]
        exact ⟨(stored_of_plain hk).2.1, by simp [Fits], r3⟩
      · exact this c hc

theorem entries_split : ∀ (first : Bool) (t : TocItem) (ts : List TocItem), ∃ l, (t :: ts).getLast? = some l ∧
    entryParagraphs (fun _ => []) first (t :: ts) =
      entryParagraph [] first t :: (ts.map (entryParagraph [] false) ++ [closingParagraph [] l])
  | first, t, [] => ⟨t, rfl, rfl⟩
  | first, t, u :: ts => by
    obtain ⟨l, h1, h2⟩ := entries_split false u ts
    refine ⟨l, by rw [List.getLast?_cons_cons]; exact h1, ?_⟩
    rw [entryParagraphs]
    · rw [h2]
      rfl
    · intro h; cases h

theorem closing_read (j : TocItem) : (closingParagraph [] j).reread.property.base.style = some (c!"ToC" ++ dec j.level) ∧
    (closingParagraph [] j).reread.children = [endOfField] ∧ ∀ id, Stored id → (closingParagraph id j).Readable := by
  obtain ⟨s1, s2⟩ := entryStyle j.level [] (.inl rfl)
  refine ⟨s2, rfl, fun id hid => ⟨hid.2.1, s1, fun c hc => ?_⟩⟩
  obtain rfl := List.mem_singleton.1 hc
  refine ⟨run_default_readable, fun c hc => ?_⟩
  obtain rfl := List.mem_singleton.1 hc
  trivial

theorem entries_read (t : Toc) (hn : t.items ≠ []) (h : ∀ i ∈ t.items, PlainValue i.tocKey) (hi : TocReadable t.instr)
    (hs : ∀ s ∈ t.instr.strings, Stored s) :
    EntriesRead t (tocRead t.instr)
      ((entryParagraphs (fun _ => []) true (tocPreparedItems t.instr t.dirty t.pageRefPlaceholder t.items)).map Paragraph.reread) := by
  cases hit : t.items with
  | nil => exact absurd hit hn
  | cons i is =>
    rw [hit] at h
    have hp : ∀ l : List TocItem, tocPreparedItems t.instr t.dirty t.pageRefPlaceholder l =
        l.map fun i => { i with instr := t.instr, dirty := t.dirty, pageRef := i.pageRef.or t.pageRefPlaceholder } := fun _ => rfl
    rw [hp, List.map_cons]
    obtain ⟨l, l1, l2⟩ := entries_split true { i with instr := t.instr, dirty := t.dirty, pageRef := i.pageRef.or t.pageRefPlaceholder }
      (is.map fun i => { i with instr := t.instr, dirty := t.dirty, pageRef := i.pageRef.or t.pageRefPlaceholder })
    rw [l2]
    obtain ⟨⟨o, o1, c, o2, o3⟩, _⟩ := entry_read t true i _ rfl (h i (.head _)) hi hs
    subst o3
    obtain ⟨c1, c2, _⟩ := closing_read l
    refine ⟨_, (is.map fun i => { i with instr := t.instr, dirty := t.dirty, pageRef := i.pageRef.or t.pageRefPlaceholder }).map
      (fun j => (entryParagraph [] false j).reread), (closingParagraph [] l).reread, ?_, ⟨c, i, by rw [hit]; rfl, o2, o1⟩, ?_, ?_, c2⟩
    · simp only [List.map_cons, List.map_append, List.map_nil, List.map_map, List.cons_append]
      rfl
    · rw [hit, List.tail_cons, List.map_map]
      have h' : ∀ i ∈ is, PlainValue i.tocKey := fun i hm => h i (.tail _ hm)
      clear * - h' hi hs
      induction is with
      | nil => exact .nil
      | cons j js ih =>
        obtain ⟨⟨o, o1, o2⟩, _⟩ := entry_read t false j _ rfl (h' j (.head _)) hi hs
        have o2 : o = [] := o2
        subst o2
        exact .cons o1 (ih fun i hm => h' i (.tail _ hm))
    · have l1 : ((i :: is).map fun i : TocItem => { i with instr := t.instr, dirty := t.dirty, pageRef := i.pageRef.or t.pageRefPlaceholder }).getLast? = some l := l1
      rw [List.getLast?_map] at l1
      obtain ⟨e, e1, e2⟩ := Option.map_eq_some_iff.1 l1
      refine ⟨e, by rw [hit]; exact e1, ?_⟩
      rw [c1, ← e2]

theorem entries_readable (t : Toc) (hi : TocReadable t.instr) (hs : ∀ s ∈ t.instr.strings, Stored s) : ∀ (ids : Nat → Str) (first : Bool) (is : List TocItem),
    (∀ n, Stored (ids n)) → (∀ i ∈ is, PlainValue i.tocKey) →
    ∀ p ∈ entryParagraphs ids first (tocPreparedItems t.instr t.dirty t.pageRefPlaceholder is), p.Readable
  | _, _, [], _, _, p, hp => by cases hp
  | ids, first, [i], hid, h, p, hp => by
    simp only [tocPreparedItems, List.map_cons, List.map_nil, entryParagraphs, List.mem_cons, List.not_mem_nil, or_false] at hp
    rcases hp with rfl | rfl
    · exact (entry_read t first i _ rfl (h i (.head _)) hi hs).2 _ (hid 0)
    · exact (closing_read _).2.2 _ (hid 1)
  | ids, first, i :: j :: is, hid, h, p, hp => by
    have := entries_readable t hi hs (fun n => ids (n + 1)) false (j :: is) (fun n => hid (n + 1)) (fun i hm => h i (.tail _ hm))
    simp only [tocPreparedItems, List.map_cons] at hp this
    rw [entryParagraphs] at hp
    · rcases List.mem_cons.1 hp with rfl | hp
      · exact (entry_read t first i _ rfl (h i (.head _)) hi hs).2 _ (hid 0)
      · exact this p hp
    · intro h; cases h

/-! ## What is before and behind -/

theorem seenBlocks_eq (bs : List Block) : seenBlocks bs = allThere ((bs.map Block.inBody).map seenChild) := by
  rw [seenBlocks, List.map_map]
  rfl

theorem blocks_fine (items : List BodyItem) (h : ∀ i ∈ items, KeptItem i) : (∀ b ∈ items.map blockOf, b.Readable) ∧
    AllS (stringsBlocks (items.map blockOf)) ∧
    seenBlocks (((items.map blockOf).map (Block.reread x)).map bareBlock) = some (dropIds (afterItems items)) := by
  refine ⟨fun b hb => ?_, ?_, ?_⟩
  · obtain ⟨i, hi, rfl⟩ := List.mem_map.1 hb
    have := (fineChild x (h i hi)).read
    cases i <;> exact this
  · induction items with
    | nil => intro s hs; cases hs
    | cons i is ih =>
      intro s hs
      rw [List.map_cons, stringsBlocks] at hs
      rcases List.mem_append.1 hs with hs | hs
      · refine (fineChild x (h i (.head _))).strings s ?_
        cases i <;> (simp only [blockOf, Block.strings] at hs; exact hs)
      · exact ih (fun j hj => h j (.tail _ hj)) s hs
  · obtain ⟨_, h2⟩ := fine_items (x := x) items h
    have e : (items.map itemChild).flatMap (DocumentChild.reread x) = ((items.map blockOf).map (Block.reread x)).map Block.inBody := by
      rw [← body_reread, List.map_map, show Block.inBody ∘ blockOf = itemChild from funext blockOf_inBody]
    have e2 : ∀ bs : List Block, (bs.map bareBlock).map Block.inBody = (bs.map Block.inBody).map bareDocumentChild := fun bs => by
      rw [List.map_map, List.map_map]
      exact List.map_congr_left fun b _ => (bare_inBody b).symm
    rw [seenBlocks_eq, e2, ← e]
    have := seenItems_bare { children := (items.map itemChild).flatMap (DocumentChild.reread x) }
    rw [seenItems, seenItems, h2] at this
    rw [afterItems_eq]
    exact this

theorem emptyLine_read (id : Str) (hid : Stored id) : (emptyLine id).Readable := by
  refine ⟨hid.2.1, ?_, fun c hc => ?_⟩
  · have hp : ParagraphProperty.Kept {} := ⟨base_default_kept, trivial⟩
    exact (kept_reread _ hp).2.1
  · obtain rfl := List.mem_singleton.1 hc
    refine ⟨run_default_readable, fun c hc => ?_⟩
    obtain rfl := List.mem_singleton.1 hc
    exact textOf_readable _

theorem emptyLine_seen : seenChild (Block.inBody (bareBlock (Block.reread x (.paragraph (emptyLine []))))) =
    some (.paragraph [] {} [.run ({}, [])]) := by
  simp only [Block.reread, bareBlock, bareParagraph_reread, bare_emptyLine, Block.inBody]
  rfl

theorem dropIds_none : dropIds (afterItems []) = [] := by rw [afterItems, dropIds]

theorem dropIds_paragraph (id : Str) (property : ParagraphProperty) (parts : List ParagraphPart) (is : List BodyItem) :
    ∃ id' property' parts' is', dropIds (afterItems (.paragraph id property parts :: is)) = .paragraph id' property' parts' :: is' := by
  rw [afterItems, dropIds, BodyItem.dropIds]
  exact ⟨_, _, _, _, rfl⟩

theorem dropIds_table {after : List BodyItem} {rows : List (List (List BodyItem))} {is : List BodyItem} (e : after = .table rows :: is) :
    ∃ rows' is', dropIds (afterItems after) = .table rows' :: is' := by
  rw [e, afterItems, dropIds, BodyItem.dropIds]
  exact ⟨_, _, rfl⟩

theorem behind_read (after : List BodyItem) (h : ∀ i ∈ after, KeptItem i) :
    seenBlocks (((tocBehind [] (after.map blockOf)).map (Block.reread x)).map bareBlock) = some (behindEntries (dropIds (afterItems after))) ∧
    ∀ id, Stored id → ∀ b ∈ tocBehind id (after.map blockOf), b.Readable := by
  obtain ⟨h1, _, h2⟩ := blocks_fine (x := x) after h
  cases after with
  | nil => rw [dropIds_none] at h2 ⊢; exact ⟨h2, fun _ _ => h1⟩
  | cons i is =>
    cases i with
    | paragraph id property parts =>
      obtain ⟨_, _, _, _, e⟩ := dropIds_paragraph id property parts is
      rw [e] at h2 ⊢
      exact ⟨h2, fun _ _ => h1⟩
    | table rows =>
      obtain ⟨rows', is', e⟩ := dropIds_table (rows := rows) (is := is) rfl
      rw [e] at h2 ⊢
      refine ⟨allThere_cons emptyLine_seen h2, fun id hid b hb => ?_⟩
      rcases List.mem_cons.1 hb with rfl | hb
      · exact emptyLine_read id hid
      · exact h1 b hb

theorem end_readable : (ParagraphChild.run fieldEndRun).Readable := by
  refine ⟨run_default_readable, fun c hc => ?_⟩
  obtain rfl := List.mem_singleton.1 hc
  trivial

theorem tail_read (after : List BodyItem) (h : ∀ i ∈ after, KeptItem i) :
    TailRead (dropIds (afterItems after)) (((fieldTail [] [] (after.map blockOf)).map (Block.reread x)).map bareBlock) ∧
    ∀ id id', Stored id → Stored id' → ∀ b ∈ fieldTail id id' (after.map blockOf), b.Readable := by
  obtain ⟨h1, _, h2⟩ := blocks_fine (x := x) after h
  cases after with
  | nil =>
    rw [dropIds_none]
    refine ⟨⟨bareParagraph (Paragraph.reread { id := [], children := [.run fieldEndRun] }), by
      simp only [List.map_nil, fieldTail, List.map_cons, Block.reread, bareBlock], by
      simp only [bareParagraph_reread, bareParagraph, bareParagraphChildren, bareParagraphChild, bareRun, fieldEndRun, bareRunChildren, bareRunChild]
      rfl⟩, fun id id' hid _ b hb => ?_⟩
    obtain rfl := List.mem_singleton.1 hb
    have hp : ParagraphProperty.Kept {} := ⟨base_default_kept, trivial⟩
    refine ⟨hid.2.1, (kept_reread _ hp).2.1, fun c hc => ?_⟩
    obtain rfl := List.mem_singleton.1 hc
    exact end_readable
  | cons i is =>
    cases i with
    | paragraph id property parts =>
      constructor
      · obtain ⟨id', property', parts', is', e⟩ := dropIds_paragraph id property parts is
        rw [e] at h2 ⊢
        simp only [List.map_cons, blockOf, fieldTail, Block.reread, bareBlock] at h2 ⊢
        generalize paragraphOf id property parts = p at h2 ⊢
        refine ⟨bareParagraph p.reread, (bareParagraph p.reread).children, _, ?_, h2⟩
        obtain ⟨i, cs, pr, nu⟩ := p
        simp only [Paragraph.reread, bareParagraph, List.flatMap_cons, ParagraphChild.reread, ParagraphChild.rereadInner]
        rfl
      · intro i i' _ _ b hb
        rcases List.mem_cons.1 hb with rfl | hb
        · have h3 : (paragraphOf id property parts).Readable := h1 _ (.head _)
          refine ⟨h3.1, h3.2.1, fun c hc => ?_⟩
          rcases List.mem_cons.1 hc with rfl | hc
          · exact end_readable
          · exact h3.2.2 c hc
        · exact h1 b (.tail _ hb)
    | table rows =>
      obtain ⟨rows', is', e⟩ := dropIds_table (rows := rows) (is := is) rfl
      rw [e] at h2 ⊢
      refine ⟨allThere_cons emptyLine_seen h2, fun id id' _ hid b hb => ?_⟩
      rcases List.mem_cons.1 hb with rfl | hb
      · exact emptyLine_read id' hid
      · exact h1 b hb

theorem bare_control' (bs : List Block) : bareDocumentChild (.sdt (Sdt.addAll {} (bs.map Block.inControl))) =
    .sdt { children := (bs.map bareBlock).map Block.inControl } := bare_control none bs

theorem keptToc_stored {t : Toc} {before after : List BodyItem} (h : KeptToc t before after) : ∀ s ∈ t.instr.strings, Stored s :=
  fun s hs => stored_of_plain (h.names s hs)

theorem start_read {t : Toc} {before after : List BodyItem} (h : KeptToc t before after) :
    (∃ c, (bareParagraph (tocStart [] t).reread).children = [c] ∧ OpensField true (tocRead t.instr) c ∧
      (bareParagraph (tocStart [] t).reread).property = t.paragraphProperty.getD {}) ∧
    ∀ id, Stored id → (tocStart id t).Readable := by
  have hp : ParagraphProperty.Kept (t.paragraphProperty.getD {}) := by
    cases e : t.paragraphProperty with
    | none => exact ⟨base_default_kept, trivial⟩
    | some p => exact h.property p e
  obtain ⟨k1, k2, _⟩ := kept_reread _ hp
  obtain ⟨c, c1, c2⟩ := opens_field true t.instr h.instr (keptToc_stored h)
  have hb : bareParagraphChild c = c := by
    obtain ⟨s, rfl, _⟩ := c2
    simp only [bareParagraphChild, bareRun, bareRunChildren, bareRunChild]
  have e : (tocStart [] t).children = [.run (tocFieldRun true t.instr)] := by rw [tocStart, h.still]
  refine ⟨⟨c, ?_, c2, ?_⟩, fun id hid => ⟨hid.2.1, k2, fun c hc => ?_⟩⟩
  · simp only [Paragraph.reread, bareParagraph, e, List.flatMap_cons, List.flatMap_nil, List.append_nil, c1, bareParagraphChildren, hb]
  · simp only [Paragraph.reread, bareParagraph]
    exact k1
  · have e : (tocStart id t).children = [.run (tocFieldRun true t.instr)] := by rw [tocStart, h.still]
    rw [e] at hc
    obtain rfl := List.mem_singleton.1 hc
    exact field_readable true t.instr h.instr (keptToc_stored h)

theorem toc_readable (x : ReadEnv) {t : Toc} {before after : List BodyItem} (h : KeptToc t before after) (ids : Nat → Str) (hid : ∀ n, Stored (ids n)) :
    ∀ k ∈ t.spread ids, k.Readable := by
  have hs := keptToc_stored h
  have hb := (blocks_fine (x := x) before h.keptBefore).1
  rw [← h.isBefore] at hb
  refine spread_readable.2 ?_
  unfold Toc.blocks
  cases e : t.items with
  | nil =>
    simp only [List.forall_mem_append, List.forall_mem_cons]
    refine ⟨hb, (start_read h).2 _ (hid 0), ?_⟩
    rw [h.isAfter]
    exact (tail_read (x := x) after h.keptAfter).2 _ _ (hid 1) (hid 2)
  | cons i is =>
    simp only [List.forall_mem_append]
    refine ⟨⟨hb, fun b hb => ?_⟩, ?_⟩
    · obtain ⟨p, hp, rfl⟩ := List.mem_map.1 hb
      exact entries_readable t h.instr hs _ true _ (fun n => hid (n + 1)) (fun j hj => h.keys j (e ▸ hj)) p hp
    · rw [h.isAfter]
      exact (behind_read (x := x) after h.keptAfter).2 _ (hid 0)

theorem toc_strings (x : ReadEnv) {t : Toc} {before after : List BodyItem} (h : KeptToc t before after) : AllS t.strings := by
  have h1 := (blocks_fine (x := x) before h.keptBefore).2.1
  have h2 := (blocks_fine (x := x) after h.keptAfter).2.1
  have hs := keptToc_stored h
  obtain ⟨hb, ha, _, _, _, hd, _, _, hk, hal, hp⟩ := h
  obtain ⟨instr, items, auto, dirty, without, al, placeholder, bs, as, delete, property⟩ := t
  simp only at hb ha hd hk hal hp hs
  subst hb ha hd
  simp only [Toc.strings, AllS_append]
  refine ⟨⟨⟨⟨⟨⟨hs, fun s hs => ?_⟩, fun s hs => ?_⟩, h1⟩, h2⟩, fun s hs => (by cases hs)⟩, ?_⟩
  · obtain ⟨i, hi, hs⟩ := List.mem_flatMap.1 hs
    rw [TocItem.strings] at hs
    rw [List.mem_singleton.1 hs]
    exact stored_of_plain (hk i hi)
  · cases al with
    | none => cases hs
    | some a => rw [List.mem_singleton.1 hs]; exact stored_of_plain (hal a rfl)
  · cases property with
    | none => intro s hs; cases hs
    | some p => exact (kept_reread _ (hp p rfl)).2.2

/-- What is read of a table of contents with entries. -/
theorem table_read {t : Toc} {before after : List BodyItem} (h : KeptToc t before after) (hn : t.items ≠ []) :
    TableRead t (tocRead t.instr) (dropIds (afterItems before)) (behindEntries (dropIds (afterItems after)))
      (((t.spread fun _ => []).flatMap (DocumentChild.reread x)).map bareDocumentChild) := by
  have hs := keptToc_stored h
  have e1 := entries_read t hn h.keys h.instr hs
  have e2 := (blocks_fine (x := x) before h.keptBefore).2.2
  have e3 := (behind_read (x := x) after h.keptAfter).1
  refine ⟨_, _, _, e2, e1, e3, ?_⟩
  obtain ⟨hb, ha, _, _, _, hd, _, _, hk, hal, hp⟩ := h
  have e4 : ∀ bs : List Block, ((bs.map Block.inBody).flatMap (DocumentChild.reread x)).map bareDocumentChild =
      ((bs.map (Block.reread x)).map bareBlock).map Block.inBody := by
    intro bs
    rw [body_reread]
    generalize bs.map (Block.reread x) = l
    rw [List.map_map, List.map_map]
    exact List.map_congr_left fun b _ => bare_inBody b
  have e5 : ∀ (al : Option Str) (bs : List Block), ((tocControl al bs).reread x).map bareDocumentChild =
      [.sdt { children := ((bs.map (Block.reread x)).map bareBlock).map Block.inControl }] := by
    intro al bs
    rw [control_reread, List.map_cons, List.map_nil, bare_control']
  have e6 : ∀ its : List TocItem, ((((entryParagraphs (fun _ => []) true its).map Block.paragraph).map (Block.reread x)).map bareBlock).map Block.inControl =
      ((entryParagraphs (fun _ => []) true its).map Paragraph.reread).map SdtChild.paragraph := by
    intro its
    have : ((entryParagraphs (fun _ => []) true its).map Paragraph.reread) = ((entryParagraphs (fun _ => []) true its).map Paragraph.reread).map bareParagraph := by
      rw [List.map_map]
      conv => lhs; rw [← bare_entries (fun _ => []), List.map_map]
      exact List.map_congr_left fun p _ => (bareParagraph_reread p).symm
    rw [this]
    simp only [List.map_map]
    refine List.map_congr_left fun p _ => ?_
    simp only [Function.comp, Block.reread, bareBlock, Block.inControl]
  cases hit : t.items with
  | nil => exact absurd hit hn
  | cons i is =>
    simp only [Toc.spread, hit]
    rw [← hb, ← ha]
    cases hw : t.withoutSdt
    · simp only [Bool.false_eq_true, if_false, List.flatMap_cons, List.map_append, e4, e5, e6]
      rfl
    · simp only [if_true, List.flatMap_cons, List.flatMap_append, List.map_append, e4, e5, e6]
      rfl

/-- What is read of a table of contents without entries. -/
theorem field_read {t : Toc} {before after : List BodyItem} (h : KeptToc t before after) (hn : t.items = []) :
    FieldRead t (tocRead t.instr) (dropIds (afterItems before)) (dropIds (afterItems after))
      (((t.spread fun _ => []).flatMap (DocumentChild.reread x)).map bareDocumentChild) := by
  obtain ⟨⟨c, c1, c2, c3⟩, _⟩ := start_read h
  have e2 := (blocks_fine (x := x) before h.keptBefore).2.2
  have e3 := (tail_read (x := x) after h.keptAfter).1
  refine ⟨_, _, _, c, e2, c1, c2, c3, e3, ?_⟩
  simp only [Toc.spread, hn]
  rw [← h.isBefore, ← h.isAfter]
  have e4 : ∀ bs : List Block, ((bs.map Block.inBody).flatMap (DocumentChild.reread x)).map bareDocumentChild =
      ((bs.map (Block.reread x)).map bareBlock).map Block.inBody := by
    intro bs
    rw [body_reread]
    generalize bs.map (Block.reread x) = l
    rw [List.map_map, List.map_map]
    exact List.map_congr_left fun b _ => bare_inBody b
  have e6 : ((t.before ++ .paragraph (tocStart [] t) :: fieldTail [] [] t.after).map (Block.reread x)).map bareBlock =
      (t.before.map (Block.reread x)).map bareBlock ++ .paragraph (bareParagraph (tocStart [] t).reread) ::
        ((fieldTail [] [] t.after).map (Block.reread x)).map bareBlock := by
    simp only [List.map_append, List.map_cons, Block.reread, bareBlock]
  cases hw : t.withoutSdt
  · simp only [Bool.false_eq_true, if_false, List.flatMap_cons, List.flatMap_nil, List.append_nil, control_reread, List.map_cons, List.map_nil, bare_control']
    simp only [← e6]
  · simp only [if_true, e4, e6]

end Docx
