import Verif.Props.C37_Body

/-!
# Bodies that do not change when a read body is written and read once more
-/

namespace Docx

open Docx.Spec Docx.Props

theorem decodeText_plainValue {t : Str} (h : PlainValue t) : decodeText t = some t :=
  decodeFrom_plainString _ (fun hc => (h _ hc).1 rfl) (fun hc => (h _ hc).2.1 rfl)

/-- Plain characters only, at least one. -/
def SimpleText (t : Str) : Prop := t ≠ [] ∧ PlainValue t

theorem plain_textAgain {t : Str} (h : SimpleText t) : textAgain t = [t] := by
  have hd : decoded t = t := by
    unfold decoded
    rw [decodeText_plainValue h.2]
    rfl
  have hn : NoEntity t := by
    intro e he hi
    have : '&' ∈ t := hi.subset (by
      simp only [List.mem_cons, List.not_mem_nil, or_false] at he
      rcases he with rfl | rfl | rfl | rfl | rfl | rfl | rfl <;> decide)
    exact (h.2 _ this).1 rfl
  unfold textAgain
  rw [hd, if_neg h.1, replaceEscaped_noEntity t hn, dropLineFeeds_line fun hm => (h.2 _ hm).2.2.2.2.2 rfl]

/-! ## Runs -/

/-- A run that is written, and read as it is. -/
structure SteadyRun (r : Run) : Prop where
  read : r.Readable
  strings : AllS r.strings
  walk : ∀ w, (walkRun w r).all (okIn elsewhereBody) = true
  same : r.reread = r

/-- Run items with texts that stay. -/
def PlainRun (r : RunItem) : Prop := ∀ t ∈ r.2.flatMap RunPiece.texts, SimpleText t

theorem runOfItem_reread {r : RunItem} (h : KeptRun r) : (runOfItem r).reread = ⟨r.1, (afterRun r).2.map pieceRead⟩ := by
  rw [runOfItem_eq]
  obtain ⟨p, ps⟩ := r
  have hp : RunProperty.Kept p := h
  have hr : (ps.map pieceChild).flatMap RunChild.reread = (ps.flatMap RunPiece.after).map pieceRead := by
    rw [List.flatMap_map, List.map_flatMap]
    refine List.flatMap_congr fun a _ => ?_
    cases a <;> simp [pieceChild, RunChild.reread, textAgain_after, RunPiece.after, pieceRead, Function.comp_def]
  simp only [Run.reread, hp.reread, hr, afterRun]

theorem steady_pieces {p : RunProperty} (hp : RunProperty.Kept p) {ps : List RunPiece} (h : ∀ t ∈ ps.flatMap RunPiece.texts, SimpleText t) :
    SteadyRun ⟨p, ps.map pieceRead⟩ := by
  have ht : ∀ a ∈ ps, ∀ t ∈ a.texts, SimpleText t := fun a ha t hm => h t (List.mem_flatMap.2 ⟨a, ha, hm⟩)
  constructor
  · refine ⟨hp.readable, ?_⟩
    intro c hc
    obtain ⟨a, ha, rfl⟩ := List.mem_map.1 hc
    have := ht a ha
    cases a <;> simp [pieceRead, RunChild.Readable]
    all_goals exact (stored_of_plain (this _ (by simp [RunPiece.texts])).2).1
  · intro s hs
    simp only [Run.strings, List.mem_append, List.mem_flatMap, List.mem_map] at hs
    rcases hs with hs | ⟨c, ⟨a, ha, rfl⟩, hs⟩
    · exact hp.strings s hs
    · have := ht a ha
      cases a <;> simp [pieceRead, RunChild.strings] at hs <;> subst hs <;> exact stored_of_plain (this _ (by simp [RunPiece.texts])).2
  · intro w
    simp only [walkRun, List.all_cons, Bool.and_eq_true]
    refine ⟨by simp [okIn, Item.unwritable], walkRunChildren_all _ _ _ ?_⟩
    intro c hc
    obtain ⟨a, ha, rfl⟩ := List.mem_map.1 hc
    cases a <;> simp [pieceRead, walkRunChild, okIn, Item.unwritable]
  · simp only [Run.reread, hp.reread]
    congr 1
    refine flatMap_single _ _ _ _ fun a ha => ?_
    have := ht a ha
    cases a <;> simp [pieceRead, RunChild.reread]
    all_goals rw [plain_textAgain (this _ (by simp [RunPiece.texts]))]

theorem steadyRun {r : RunItem} (h : KeptRun r) (ht : PlainRun (afterRun r)) : SteadyRun (runOfItem r).reread := by
  rw [runOfItem_reread h]
  exact steady_pieces h ht

/-! ## Paragraphs -/

theorem steadyRuns {runs : List RunItem} (h : ∀ r ∈ runs, KeptRun r) (ht : ∀ r ∈ runs.map afterRun, PlainRun r) :
    ∀ r ∈ runs, SteadyRun (runOfItem r).reread := fun r hr => steadyRun (h r hr) (ht _ (List.mem_map_of_mem hr))

/-- A child of a paragraph that is written, and read as it is. -/
structure SteadyPart (c : ParagraphChild) : Prop where
  read : c.Readable
  strings : AllS c.strings
  walk : ∀ w, (walkParagraphChild w c).all (okIn elsewhereBody) = true
  same : c.reread = [c]

theorem plain_seen {s : Str} (h : PlainValue s) : seen s = s := h.seen

theorem steadyPart {a : ParagraphPart} (h : KeptPart a) (ht : ∀ t ∈ a.after.texts, SimpleText t) :
    ∃ c, (partChild a).reread = [c] ∧ SteadyPart c := by
  cases a with
  | run r =>
    have hr := steadyRun (r := r) h ht
    exact ⟨_, rfl, hr.read, by simpa only [ParagraphChild.strings] using hr.strings,
      fun w => by simpa only [walkParagraphChild] using hr.walk w, by
        show [ParagraphChild.run _] = _; rw [hr.same]⟩
  | inserted author date runs =>
    obtain ⟨h1, h2, h3⟩ := h
    have hr := steadyRuns h3 fun r hr t hm => ht t (List.mem_flatMap.2 ⟨r, hr, hm⟩)
    have e : ((runs.map fun r => InsertChild.run (runOfItem r)).flatMap InsertChild.reread) =
        runs.map fun r => .run (runOfItem r).reread := flatMap_single _ _ _ _ fun _ _ => rfl
    refine ⟨.insert ⟨author, date, runs.map fun r => .run (runOfItem r).reread⟩, ?_, ⟨(stored_of_plain h1.1).2.1, (stored_of_plain h2).2.1, ?_⟩, ?_, ?_, ?_⟩
    · show [ParagraphChild.insert _] = _
      simp only [Insert.reread, e, escapeOwned_name h1, (escapedFrom_name h1).again, h2.seen]
    · intro c hc
      obtain ⟨r, hm, rfl⟩ := List.mem_map.1 hc
      exact (hr r hm).read
    · intro s hs
      simp only [ParagraphChild.strings, Insert.strings, List.mem_cons, List.mem_flatMap, List.mem_map] at hs
      rcases hs with rfl | rfl | ⟨c, ⟨r, hm, rfl⟩, hs⟩
      · exact stored_of_plain h1.1
      · exact stored_of_plain h2
      · exact (hr r hm).strings s hs
    · intro w
      have : ∀ (l : List RunItem) (w : List Place), (∀ r ∈ l, SteadyRun (runOfItem r).reread) →
          (walkInsertChildren w (l.map fun r => .run (runOfItem r).reread)).all (okIn elsewhereBody) = true := by
        intro l w hl
        induction l with
        | nil => simp [walkInsertChildren]
        | cons r l ih =>
          simp only [List.map_cons, walkInsertChildren, walkInsertChild, List.all_append, (hl r (by simp)).walk w,
            ih fun r hr => hl r (by simp [hr]), Bool.and_self]
      simp only [walkParagraphChild, walkInsert, this runs _ hr]
    · show [ParagraphChild.insert _] = _
      have : ((runs.map fun r => InsertChild.run (runOfItem r).reread).flatMap InsertChild.reread) =
        runs.map fun r => .run (runOfItem r).reread := flatMap_single _ _ _ _ fun r hm => by
          show [InsertChild.run _] = _; rw [(hr r hm).same]
      simp only [Insert.reread, this, (escapedFrom_name h1).again, h2.seen]
  | deleted author date runs =>
    obtain ⟨h1, h2, h3⟩ := h
    have hr := steadyRuns h3 fun r hr t hm => ht t (List.mem_flatMap.2 ⟨r, hr, hm⟩)
    have e : ((runs.map fun r => DeleteChild.run (runOfItem r)).flatMap DeleteChild.reread) =
        runs.map fun r => .run (runOfItem r).reread := flatMap_single _ _ _ _ fun _ _ => rfl
    refine ⟨.delete ⟨author, date, runs.map fun r => .run (runOfItem r).reread⟩, ?_, ⟨(stored_of_plain h1.1).2.1, (stored_of_plain h2).2.1, ?_⟩, ?_, ?_, ?_⟩
    · show [ParagraphChild.delete _] = _
      simp only [Delete.reread, e, escapeOwned_name h1, (escapedFrom_name h1).again, h2.seen]
    · intro c hc
      obtain ⟨r, hm, rfl⟩ := List.mem_map.1 hc
      exact (hr r hm).read
    · intro s hs
      simp only [ParagraphChild.strings, Delete.strings, List.mem_cons, List.mem_flatMap, List.mem_map] at hs
      rcases hs with rfl | rfl | ⟨c, ⟨r, hm, rfl⟩, hs⟩
      · exact stored_of_plain h1.1
      · exact stored_of_plain h2
      · exact (hr r hm).strings s hs
    · intro w
      have : ∀ (l : List RunItem) (w : List Place), (∀ r ∈ l, SteadyRun (runOfItem r).reread) →
          (walkDeleteChildren w (l.map fun r => .run (runOfItem r).reread)).all (okIn elsewhereBody) = true := by
        intro l w hl
        induction l with
        | nil => simp [walkDeleteChildren]
        | cons r l ih =>
          simp only [List.map_cons, walkDeleteChildren, walkDeleteChild, List.all_append, (hl r (by simp)).walk w,
            ih fun r hr => hl r (by simp [hr]), Bool.and_self]
      simp only [walkParagraphChild, walkDelete, this runs _ hr]
    · show [ParagraphChild.delete _] = _
      have : ((runs.map fun r => DeleteChild.run (runOfItem r).reread).flatMap DeleteChild.reread) =
        runs.map fun r => .run (runOfItem r).reread := flatMap_single _ _ _ _ fun r hm => by
          show [DeleteChild.run _] = _; rw [(hr r hm).same]
      simp only [Delete.reread, this, (escapedFrom_name h1).again, h2.seen]
  | link anchor runs =>
    obtain ⟨h2, h3⟩ := h
    have hr := steadyRuns h3 fun r hr t hm => ht t (List.mem_flatMap.2 ⟨r, hr, hm⟩)
    have e : ((runs.map fun r => ParagraphChild.run (runOfItem r)).flatMap ParagraphChild.rereadInner) =
        runs.map fun r => .run (runOfItem r).reread := flatMap_single _ _ _ _ fun _ _ => rfl
    refine ⟨.hyperlink ⟨.anchor anchor, some 1, runs.map fun r => .run (runOfItem r).reread⟩, ?_,
      ⟨(stored_of_plain h2).2.1, by simp [Fits], ?_⟩, ?_, ?_, ?_⟩
    · simp only [partChild, ParagraphChild.reread, e, HyperlinkData.reread, h2.seen]
      rfl
    · intro c hc
      obtain ⟨r, hm, rfl⟩ := List.mem_map.1 hc
      exact (hr r hm).read
    · have : ∀ (l : List RunItem), (∀ r ∈ l, SteadyRun (runOfItem r).reread) →
          AllS (stringsParagraphChildren (l.map fun r => .run (runOfItem r).reread)) := by
        intro l hl
        induction l with
        | nil => simp [stringsParagraphChildren, AllS]
        | cons r l ih =>
          intro s hs
          simp only [List.map_cons, stringsParagraphChildren, ParagraphChild.strings, List.mem_append] at hs
          rcases hs with hs | hs
          · exact (hl r (by simp)).strings s hs
          · exact ih (fun r hr => hl r (by simp [hr])) s hs
      intro s hs
      simp only [ParagraphChild.strings, Hyperlink.strings, HyperlinkData.strings, List.mem_append, List.mem_singleton] at hs
      rcases hs with rfl | hs
      · exact stored_of_plain h2
      · exact this runs hr s hs
    · intro w
      have : ∀ (l : List RunItem) (w : List Place), (∀ r ∈ l, SteadyRun (runOfItem r).reread) →
          (walkParagraphChildren w (l.map fun r => .run (runOfItem r).reread)).all (okIn elsewhereBody) = true := by
        intro l w hl
        induction l with
        | nil => simp [walkParagraphChildren]
        | cons r l ih =>
          simp only [List.map_cons, walkParagraphChildren, walkParagraphChild, List.all_append, (hl r (by simp)).walk w,
            ih fun r hr => hl r (by simp [hr]), Bool.and_self]
      simp only [walkParagraphChild, walkHyperlink, List.all_cons, this runs _ hr, Bool.and_true]
      simp [okIn, Item.unwritable]
    · have : ((runs.map fun r => ParagraphChild.run (runOfItem r).reread).flatMap ParagraphChild.rereadInner) =
        runs.map fun r => .run (runOfItem r).reread := flatMap_single _ _ _ _ fun r hm => by
          show [ParagraphChild.run _] = _; rw [(hr r hm).same]
      simp only [ParagraphChild.reread, this, HyperlinkData.reread, h2.seen]
      rfl
  | bookmarkStart id name =>
    obtain ⟨h1, h2⟩ := h
    refine ⟨.bookmarkStart id name, ?_, ⟨h1, (stored_of_plain h2).2.1⟩, ?_, ?_, ?_⟩
    · show [ParagraphChild.bookmarkStart _ _] = _; rw [h2.seen]
    · intro s hs
      simp only [ParagraphChild.strings, List.mem_singleton] at hs
      subst hs
      exact stored_of_plain h2
    · intro w; simp [walkParagraphChild]
    · show [ParagraphChild.bookmarkStart _ _] = _; rw [h2.seen]
  | bookmarkEnd id =>
    refine ⟨.bookmarkEnd id, rfl, h, ?_, ?_, rfl⟩
    · intro s hs
      simp [ParagraphChild.strings] at hs
    · intro w; simp [walkParagraphChild]

/-- A paragraph that is written, and read as it is. -/
structure SteadyParagraph (p : Paragraph) : Prop where
  read : p.Readable
  strings : AllS p.strings
  walk : ∀ w, (walkParagraph w p).all (okIn elsewhereBody) = true
  same : p.reread = p

theorem steadyParts : ∀ {l : List ParagraphPart}, (∀ a ∈ l, KeptPart a) → (∀ a ∈ l, ∀ t ∈ a.after.texts, SimpleText t) →
    ∃ cs, (l.map partChild).flatMap ParagraphChild.reread = cs ∧ ∀ c ∈ cs, SteadyPart c
  | [], _, _ => ⟨[], rfl, by simp⟩
  | a :: l, h, ht => by
    obtain ⟨c, e, hc⟩ := steadyPart (h a (by simp)) (ht a (by simp))
    obtain ⟨cs, es, hs⟩ := steadyParts (l := l) (fun a ha => h a (by simp [ha])) (fun a ha => ht a (by simp [ha]))
    refine ⟨c :: cs, ?_, ?_⟩
    · rw [List.map_cons, List.flatMap_cons, e, es]; rfl
    · intro c' hm
      rcases List.mem_cons.1 hm with rfl | hm
      · exact hc
      · exact hs _ hm

theorem steadyParagraph {id : Str} {property : ParagraphProperty} {parts : List ParagraphPart} (h : KeptItem (.paragraph id property parts))
    (ht : ∀ a ∈ parts, ∀ t ∈ a.after.texts, SimpleText t) : SteadyParagraph (paragraphOf id property parts).reread := by
  rw [KeptItem] at h
  obtain ⟨h1, h2, h3⟩ := h
  obtain ⟨k1, k2, k3⟩ := kept_reread property h2
  obtain ⟨cs, e, hc⟩ := steadyParts h3 ht
  rw [paragraphOf_eq]
  simp only [Paragraph.reread, e, k1, h1.seen]
  refine ⟨⟨(stored_of_plain h1).2.1, k2, fun c hm => (hc c hm).read⟩, ?_, ?_, ?_⟩
  · have : ∀ (l : List ParagraphChild), (∀ a ∈ l, SteadyPart a) → AllS (stringsParagraphChildren l) := by
      intro l hl
      induction l with
      | nil => simp [stringsParagraphChildren, AllS]
      | cons r l ih =>
        intro s hs
        simp only [stringsParagraphChildren, List.mem_append] at hs
        rcases hs with hs | hs
        · exact (hl r (by simp)).strings s hs
        · exact ih (fun r hr => hl r (by simp [hr])) s hs
    intro s hs
    simp only [Paragraph.strings, List.mem_cons, List.mem_append] at hs
    rcases hs with rfl | hs | hs
    · exact stored_of_plain h1
    · exact k3 s hs
    · exact this cs hc s hs
  · intro w
    have : ∀ (l : List ParagraphChild) (w : List Place), (∀ r ∈ l, SteadyPart r) →
        (walkParagraphChildren w l).all (okIn elsewhereBody) = true := by
      intro l w hl
      induction l with
      | nil => simp [walkParagraphChildren]
      | cons r l ih =>
        simp only [walkParagraphChildren, List.all_append, (hl r (by simp)).walk w,
          ih fun r hr => hl r (by simp [hr]), Bool.and_self]
    simp only [walkParagraph, List.all_cons, this cs _ hc, Bool.and_true]
    simp [okIn, Item.unwritable]
  · have : cs.flatMap ParagraphChild.reread = cs := by
      have := flatMap_single ParagraphChild.reread (fun c => c) (fun c => c) cs fun c hm => (hc c hm).same
      simpa using this
    simp only [Paragraph.reread, this, k1, h1.seen]

/-! ## Tables -/

theorem tableAgain_strings : AllS (TableProperty.reread {}).strings := by
  have : ∀ s ∈ (TableProperty.reread {}).strings, plainB s = true := by decide +kernel
  exact fun s hs => stored_of_plain (plain_lit (this s hs))

theorem tableAgain_same : (TableProperty.reread {}).reread = TableProperty.reread {} := by
  decide +kernel

theorem tableAgain_readable : (TableProperty.reread {}).Readable := by
  refine ⟨fun s hs => (tableAgain_strings s hs).2.1, ⟨?_, ?_, ?_, ?_, ?_, ?_, fun s hs => ?_⟩, ?_, ?_⟩
  any_goals (rintro _ ⟨⟩; rfl)
  · exact (tableAgain_strings s (by simp only [TableProperty.strings, List.mem_cons, List.mem_append, hs, true_or, or_true])).2.1
  · rintro _ ⟨⟩
  · rintro _ ⟨⟩

/-- Content of a cell as it is after it was written and read. -/
structure SteadyContents (x : ReadEnv) (cs : List CellContent) : Prop where
  read : readableContents cs
  strings : AllS (stringsCellContents cs)
  walk : ∀ w, (walkCellContents w cs).all (okIn elsewhereBody) = true
  same : rereadContents x cs = cs

/-- Rows. -/
structure SteadyRows (x : ReadEnv) (rs : List Row) : Prop where
  read : readableRows rs
  strings : AllS (stringsRows rs)
  walk : ∀ w, (walkRows w rs).all (okIn elsewhereBody) = true
  same : rereadRows x rs = rs

/-- Cells. -/
structure SteadyCells (x : ReadEnv) (cs : List Cell) : Prop where
  read : readableCells cs
  strings : AllS (stringsCells cs)
  walk : ∀ w, (walkCells w cs).all (okIn elsewhereBody) = true
  same : rereadCells x cs = cs

theorem not_onlyTable_again {x : ReadEnv} {c : List BodyItem} (h : ∀ rows, c ≠ [.table rows]) :
    ¬ onlyTable (rereadContents x (c.map itemContent)) := by
  intro ho
  match c, h, ho with
  | [.table rows], h, _ => exact h rows rfl
  | [.paragraph _ _ _], _, ho => simp [itemContent, rereadContents, CellContent.reread, onlyTable] at ho
  | [], _, ho => simp [rereadContents, onlyTable] at ho
  | a :: b :: _, _, ho => cases a <;> cases b <;> simp [itemContent, rereadContents, CellContent.reread, onlyTable] at ho

theorem again_nonempty {x : ReadEnv} {c : List BodyItem} (h : c ≠ []) : rereadContents x (c.map itemContent) ≠ [] := by
  match c, h with
  | a :: _, _ => cases a <;> simp [itemContent, rereadContents, CellContent.reread]

mutual
theorem steadyContents (x : ReadEnv) : (is : List BodyItem) → KeptItems is → (∀ t ∈ textsOf (afterItems is), SimpleText t) →
    SteadyContents x (rereadContents x (is.map itemContent))
  | [], _, _ => by
    constructor <;> simp [readableContents, stringsCellContents, AllS, walkCellContents, rereadContents]
  | .paragraph id property parts :: is, h, ht => by
    rw [KeptItems] at h
    simp only [afterItems, textsOf, List.mem_append, List.mem_flatMap, List.mem_map] at ht
    obtain ⟨a, b, c, d⟩ := steadyContents x is h.2 fun t hm => ht t (.inr hm)
    have hp := steadyParagraph h.1 fun a ha t hm => ht t (.inl ⟨_, ⟨a, ha, rfl⟩, hm⟩)
    simp only [List.map_cons, itemContent, rereadContents, CellContent.reread, List.singleton_append]
    constructor
    · simp only [readableContents, CellContent.Readable]
      exact ⟨hp.read, a⟩
    · simp only [stringsCellContents, CellContent.strings]
      intro s hs
      rcases List.mem_append.1 hs with hs | hs
      · exact hp.strings s hs
      · exact b s hs
    · intro w
      simp only [walkCellContents, walkCellContent]
      rw [List.all_append, hp.walk, c]; rfl
    · simp only [rereadContents, CellContent.reread, List.singleton_append, hp.same, d]
  | .table rows :: is, h, ht => by
    rw [KeptItems, KeptItem] at h
    simp only [afterItems, textsOf, List.mem_append] at ht
    obtain ⟨a, b, c, d⟩ := steadyContents x is h.2 fun t hm => ht t (.inr hm)
    obtain ⟨e1, e2, e3, e4⟩ := steadyRows x rows h.1 fun t hm => ht t (.inl hm)
    simp only [List.map_cons, itemContent, rereadContents, CellContent.reread, List.singleton_append, Table.new, Table.reread, List.map_nil]
    constructor
    · simp only [readableContents, CellContent.Readable, Table.Readable]
      exact ⟨⟨tableAgain_readable, e1⟩, a⟩
    · simp only [stringsCellContents, CellContent.strings, Table.strings]
      intro s hs
      rcases List.mem_append.1 hs with hs | hs
      · rcases List.mem_append.1 hs with hs | hs
        · exact tableAgain_strings s hs
        · exact e2 s hs
      · exact b s hs
    · intro w
      simp only [walkCellContents, walkCellContent, walkTable]
      rw [List.all_append, List.all_cons, e3, c]
      simp [okIn, Item.unwritable]
    · simp only [rereadContents, CellContent.reread, List.singleton_append, Table.reread, e4, d, tableAgain_same, List.map_nil]
theorem steadyRows (x : ReadEnv) : (rs : List (List (List BodyItem))) → KeptRows rs → (∀ t ∈ textsOfRows (afterRows rs), SimpleText t) →
    SteadyRows x (rereadRows x (rowsOf rs))
  | [], _, _ => by
    constructor <;> simp [readableRows, stringsRows, AllS, walkRows, rereadRows, rowsOf]
  | r :: rs, h, ht => by
    rw [KeptRows] at h
    simp only [afterRows, textsOfRows, List.mem_append] at ht
    obtain ⟨a, b, c, d⟩ := steadyRows x rs h.2 fun t hm => ht t (.inr hm)
    obtain ⟨e1, e2, e3, e4⟩ := steadyCells x r h.1 fun t hm => ht t (.inl hm)
    have hp : TableRowProperty.reread x {} = {} := rfl
    simp only [rowsOf, Row.new, rereadRows, Row.reread, hp]
    constructor
    · simp only [readableRows, Row.Readable]
      refine ⟨⟨?_, e1⟩, a⟩
      intro s hs; simp [TableRowProperty.strings, optStrings, optS] at hs
    · simp only [stringsRows, Row.strings]
      intro s hs
      rcases List.mem_append.1 hs with hs | hs
      · rcases List.mem_append.1 hs with hs | hs
        · simp [TableRowProperty.strings, optStrings, optS] at hs
        · exact e2 s hs
      · exact b s hs
    · intro w
      simp only [walkRows, walkRow]
      rw [List.all_append, e3, c]; rfl
    · simp only [rereadRows, Row.reread, e4, d, hp]
theorem steadyCells (x : ReadEnv) : (cs : List (List BodyItem)) → KeptCells cs → (∀ t ∈ textsOfCells (afterCells cs), SimpleText t) →
    SteadyCells x (rereadCells x (cellsOf cs))
  | [], _, _ => by
    constructor <;> simp [readableCells, stringsCells, AllS, walkCells, rereadCells, cellsOf]
  | c :: cs, h, ht => by
    rw [KeptCells] at h
    simp only [afterCells, textsOfCells, List.mem_append] at ht
    obtain ⟨⟨h1, h2⟩, h3, h4⟩ := h
    obtain ⟨a, b, c1, d⟩ := steadyCells x cs h4 fun t hm => ht t (.inr hm)
    obtain ⟨e1, e2, e3, e4⟩ := steadyContents x c h3 fun t hm => ht t (.inl hm)
    obtain ⟨n, en⟩ := addItems_eq c {}
    have hp : TableCellProperty.reread {} = {} := rfl
    rw [cellsOf, en]
    simp only [List.nil_append, rereadCells, Cell.reread, hp]
    constructor
    · simp only [readableCells, Cell.Readable]
      exact ⟨⟨again_nonempty h1, not_onlyTable_again h2, cellProperty_default_readable, e1⟩, a⟩
    · simp only [stringsCells, Cell.strings]
      intro s hs
      rcases List.mem_append.1 hs with hs | hs
      · rcases List.mem_append.1 hs with hs | hs
        · simp [TableCellProperty.strings, optStrings] at hs
        · exact e2 s hs
      · exact b s hs
    · intro w
      simp only [walkCells, walkCell]
      rw [List.all_append, List.all_cons, e3, c1]
      simp [okIn, Item.unwritable]
    · simp only [rereadCells, Cell.reread, e4, d, hp]
end

/-! ## Documents -/

/-- A child of a document that is written, and read as it is. -/
structure SteadyChild (x : ReadEnv) (c : DocumentChild) : Prop where
  read : c.Readable
  strings : AllS c.strings
  walk : ∀ w, (walkDocumentChild w c).all (okIn elsewhereBody) = true
  same : c.reread x = [c]

theorem steadyChild (x : ReadEnv) : {i : BodyItem} → KeptItem i → (∀ t ∈ textsOf [afterItem i], SimpleText t) →
    ∃ c, (itemChild i).reread x = [c] ∧ SteadyChild x c
  | .paragraph id property parts, h, ht => by
    simp only [afterItem, textsOf, List.append_nil, List.mem_flatMap, List.mem_map] at ht
    have hp := steadyParagraph h fun a ha t hm => ht t ⟨_, ⟨a, ha, rfl⟩, hm⟩
    exact ⟨_, rfl, hp.read, hp.strings, hp.walk, by simp only [DocumentChild.reread, hp.same]⟩
  | .table rows, h, ht => by
    rw [KeptItem] at h
    simp only [afterItem, textsOf, List.append_nil] at ht
    obtain ⟨e1, e2, e3, e4⟩ := steadyRows x rows h ht
    refine ⟨_, rfl, ?_, ?_, ?_, ?_⟩
    · simp only [Table.new, Table.reread, DocumentChild.Readable, Table.Readable]
      exact ⟨tableAgain_readable, e1⟩
    · intro s hs
      simp only [Table.new, Table.reread, DocumentChild.strings, Table.strings, List.mem_append] at hs
      rcases hs with hs | hs
      · exact tableAgain_strings s hs
      · exact e2 s hs
    · intro w
      simp only [walkDocumentChild, Table.new, Table.reread, walkTable, List.all_cons, e3, Bool.and_true]
      simp [okIn, Item.unwritable]
    · simp only [DocumentChild.reread, Table.new, Table.reread, e4, tableAgain_same, List.map_nil]

/-- A document that is written, and read as it is. -/
structure SteadyDocument (x : ReadEnv) (d : Document) : Prop where
  read : d.Readable
  strings : AllS d.strings
  walk : (walkDocument d).all (okIn elsewhereBody) = true
  same : d.reread x = d

theorem steadyChildren (x : ReadEnv) : ∀ {is : List BodyItem}, KeptItems is → (∀ t ∈ textsOf (afterItems is), SimpleText t) →
    ∃ cs, (is.map itemChild).flatMap (DocumentChild.reread x) = cs ∧ ∀ c ∈ cs, SteadyChild x c
  | [], _, _ => ⟨[], rfl, by simp⟩
  | i :: is, h, ht => by
    rw [KeptItems] at h
    have hs : ∀ t, t ∈ textsOf (afterItems (i :: is)) ↔ t ∈ textsOf [afterItem i] ∨ t ∈ textsOf (afterItems is) := by
      intro t
      cases i <;> simp [afterItems, afterItem, textsOf]
    obtain ⟨c, e, hc⟩ := steadyChild x h.1 fun t hm => ht t ((hs t).2 (.inl hm))
    obtain ⟨cs, es, hcs⟩ := steadyChildren x h.2 fun t hm => ht t ((hs t).2 (.inr hm))
    refine ⟨c :: cs, ?_, ?_⟩
    · rw [List.map_cons, List.flatMap_cons, e, es]; rfl
    · intro c' hm
      rcases List.mem_cons.1 hm with rfl | hm
      · exact hc
      · exact hcs _ hm

theorem section_default_again : SectionBase.reread {} = {} :=
  section_default_kept.reread

theorem steadyDocument (x : ReadEnv) {items : List BodyItem} (h : KeptItems items) (ht : ∀ t ∈ textsOf (afterItems items), SimpleText t) :
    SteadyDocument x ((bodyOf items).reread x) := by
  obtain ⟨e1, e2⟩ := bodyOf_children items
  obtain ⟨cs, e, hc⟩ := steadyChildren x h ht
  simp only [Document.reread, e1, e2, e, section_default_again]
  refine ⟨⟨fun c hm => (hc c hm).read, section_default_kept.readable⟩, ?_, ?_, ?_⟩
  · intro s hs
    simp only [Document.strings, List.mem_append, List.mem_flatMap] at hs
    rcases hs with ⟨c, hm, hs⟩ | hs
    · exact (hc c hm).strings s hs
    · exact section_default_kept.strings s hs
  · simp only [walkDocument, List.all_append, Bool.and_eq_true]
    refine ⟨?_, by rfl⟩
    rw [List.all_eq_true]
    intro y hy
    obtain ⟨c, hm, hy⟩ := List.mem_flatMap.1 hy
    exact List.all_eq_true.1 ((hc c hm).walk _) y hy
  · have := flatMap_single (DocumentChild.reread x) (fun c => c) (fun c => c) cs fun c hm => (hc c hm).same
    simp only [List.map_id'] at this
    simp only [Document.reread, this, section_default_again]

end Docx
