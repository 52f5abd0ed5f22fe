import Verif.Lemmas.ReadToc
import Verif.Lemmas.PackedSections
import Verif.Props.C55_Toc

/-!
# The tables of contents of a packed file
-/

namespace Docx

open Docx.Xml Docx.Spec Docx.Props

variable {x : ReadEnv}

theorem bare_inBody (b : Block) : bareDocumentChild b.inBody = (bareBlock b).inBody := by cases b <;> rfl

theorem bare_inControl (b : Block) : bareSdtChild b.inControl = (bareBlock b).inControl := by
  cases b <;> simp only [Block.inControl, bareSdtChild, bareBlock]

theorem bare_control (al : Option Str) (bs : List Block) : bareDocumentChild (tocControl al bs) = tocControl al (bs.map bareBlock) := by
  have : ∀ bs : List Block, bareSdtChildren (bs.map Block.inControl) = (bs.map bareBlock).map Block.inControl := by
    intro bs
    induction bs with
    | nil => rw [List.map_nil, bareSdtChildren]; rfl
    | cons b bs ih => rw [List.map_cons, bareSdtChildren, bare_inControl, ih]; rfl
  simp only [tocControl, bareDocumentChild, bareSdt, this]

theorem bare_entry (id : Str) (first : Bool) (t : TocItem) : bareParagraph (entryParagraph id first t) = entryParagraph [] first t := by
  cases first <;> cases h : t.instr.hyperlink <;>
    simp [entryParagraph, h, bareParagraph, bareParagraphChildren, bareParagraphChild, bareRun, bareHyperlink, tocFieldRun, tocEntryRuns,
      bareRunChildren, bareRunChild, pageRefRun]

theorem bare_closing (id : Str) (t : TocItem) : bareParagraph (closingParagraph id t) = closingParagraph [] t := by
  simp [closingParagraph, bareParagraph, bareParagraphChildren, bareParagraphChild, bareRun, fieldEndRun, bareRunChildren, bareRunChild]

theorem bare_entries : ∀ (ids : Nat → Str) (first : Bool) (ts : List TocItem),
    (entryParagraphs ids first ts).map bareParagraph = entryParagraphs (fun _ => []) first ts
  | _, _, [] => rfl
  | ids, first, [t] => by simp only [entryParagraphs, List.map_cons, List.map_nil, bare_entry, bare_closing]
  | ids, first, t :: u :: ts => by
    have := bare_entries (fun n => ids (n + 1)) false (u :: ts)
    simp only [entryParagraphs] at this ⊢
    rw [List.map_cons, bare_entry, this]

theorem bare_start (id : Str) (t : Toc) : bareParagraph (tocStart id t) = tocStart [] (bareToc t) := by
  obtain ⟨instr, items, auto, dirty, without, al, placeholder, before, after, delete, property⟩ := t
  cases delete <;>
    simp [tocStart, bareToc, bareParagraph, bareParagraphChildren, bareParagraphChild, bareRun, bareDelete, bareDeleteChildren, bareDeleteChild,
      tocFieldRun, bareRunChildren, bareRunChild]

theorem bare_emptyLine (id : Str) : bareParagraph (emptyLine id) = emptyLine [] := by
  simp [emptyLine, bareParagraph, bareParagraphChildren, bareParagraphChild, bareRun, bareRunChildren, bareRunChild]

theorem bare_behind (id : Str) (bs : List Block) : (tocBehind id bs).map bareBlock = tocBehind [] (bs.map bareBlock) := by
  cases bs with
  | nil => rfl
  | cons b bs => cases b <;> simp only [tocBehind, List.map_cons, bareBlock, bare_emptyLine]

theorem bare_tail (id id' : Str) (bs : List Block) : (fieldTail id id' bs).map bareBlock = fieldTail [] [] (bs.map bareBlock) := by
  cases bs with
  | nil => simp [fieldTail, bareBlock, bareParagraph, bareParagraphChildren, bareParagraphChild, bareRun, fieldEndRun, bareRunChildren, bareRunChild]
  | cons b bs =>
    cases b with
    | paragraph p =>
      obtain ⟨id, children, property, num⟩ := p
      simp [fieldTail, bareBlock, bareParagraph, bareParagraphChildren, bareParagraphChild, bareRun, fieldEndRun, bareRunChildren, bareRunChild]
    | table t => simp only [fieldTail, List.map_cons, bareBlock, bare_emptyLine]

theorem bare_spreadToc (ids : Nat → Str) (t : Toc) : (t.spread ids).map bareDocumentChild = (bareToc t).spread fun _ => [] := by
  have e1 := bare_start (ids 0) t
  obtain ⟨instr, items, auto, dirty, without, al, placeholder, before, after, delete, property⟩ := t
  have hb : ∀ bs : List Block, (bs.map Block.inBody).map bareDocumentChild = (bs.map bareBlock).map Block.inBody := fun bs => by
    rw [List.map_map, List.map_map]; exact List.map_congr_left fun b _ => bare_inBody b
  simp only [bareToc, bareBlocks_eq] at e1 ⊢
  cases items with
  | nil =>
    have e : (before ++ Block.paragraph (tocStart (ids 0) ⟨instr, [], auto, dirty, without, al, placeholder, before, after, delete, property⟩) ::
        fieldTail (ids 1) (ids 2) after).map bareBlock =
        before.map bareBlock ++ Block.paragraph (tocStart [] ⟨instr, [], auto, dirty, without, al, placeholder, before.map bareBlock,
          after.map bareBlock, delete, property⟩) :: fieldTail [] [] (after.map bareBlock) := by
      simp only [List.map_append, List.map_cons, bareBlock, e1, bare_tail]
    cases without <;> simp only [Toc.spread, if_true, Bool.false_eq_true, if_false, hb, e, List.map_cons, List.map_nil, bare_control]
  | cons item items =>
    have e : ∀ ps : List Paragraph, (ps.map Block.paragraph).map bareBlock = (ps.map bareParagraph).map Block.paragraph := fun ps => by
      rw [List.map_map, List.map_map]
      exact List.map_congr_left fun p _ => by simp only [Function.comp, bareBlock]
    cases without <;> simp only [Toc.spread, if_true, Bool.false_eq_true, if_false, hb, List.map_cons, List.map_append, bare_control, e, bare_entries,
      bare_behind]

theorem bare_flatAs (ids : Nat → Str) (c : DocumentChild) : (c.flatAs ids).map bareDocumentChild = (bareDocumentChild c).flatAs fun _ => [] := by
  cases c <;> try rfl
  case toc t => exact bare_spreadToc ids t

theorem bare_flatAll : ∀ (ids : Nat → Nat → Str) (cs : List DocumentChild),
    (flatAll ids cs).map bareDocumentChild = flatAll (fun _ _ => []) (cs.map bareDocumentChild)
  | _, [] => rfl
  | ids, c :: cs => by simp only [flatAll, List.map_append, List.map_cons, bare_flatAs, bare_flatAll (fun n => ids (n + 1)) cs]

theorem bareDocument_flat (sids : List Str) (ids : Nat → Nat → Str) (d : Document) :
    bareDocument (d.flat sids ids) = (bareDocument d).flat [] fun _ _ => [] := by
  simp only [bareDocument, Document.flat, bare_flatAll, bare_spreadAll]

/-! ## Readable -/

/-- What is needed of the ids of paragraphs. -/
def Block.Named : Block → Prop
  | .paragraph p => (decodeAttr p.id).isSome
  | .table t => AllS t.strings

theorem named_of_strings {b : Block} (h : AllS b.strings) : b.Named := by
  cases b with
  | paragraph p =>
    obtain ⟨id, children, property, num⟩ := p
    refine (h id ?_).2.1
    simp [Block.strings, Paragraph.strings]
  | table t => simpa only [Block.Named, Block.strings] using h

theorem bareBlock_readable {b : Block} (h : (bareBlock b).Readable) (hn : b.Named) : b.Readable := by
  cases b with
  | paragraph p => simp only [bareBlock] at h; exact bareParagraph_readable h hn
  | table t => simp only [bareBlock] at h; exact bareTable_readable t h hn

theorem readable_bareBlock {b : Block} (h : b.Readable) : (bareBlock b).Readable := by
  cases b with
  | paragraph p => simp only [bareBlock]; exact readable_bareParagraph h
  | table t => simp only [bareBlock]; exact readable_bareTable t h

theorem readable_control {al : Option Str} {bs : List Block} (h : ∀ b ∈ bs, b.Readable) : (tocControl al bs).Readable := by
  have key : ∀ bs : List Block, (∀ b ∈ bs, b.Readable) → readableSdtChildren (bs.map Block.inControl) := by
    intro bs
    induction bs with
    | nil => intro _; rw [List.map_nil, readableSdtChildren]; trivial
    | cons b bs ih =>
      intro h
      rw [List.map_cons, readableSdtChildren]
      refine ⟨?_, ih fun c hc => h c (.tail _ hc)⟩
      have := h b (.head _)
      cases b <;> (simp only [Block.inControl, SdtChild.Readable]; exact this)
  show Sdt.Readable { children := bs.map Block.inControl, property := { «alias» := al } }
  rw [Sdt.Readable]
  exact ⟨rfl, key bs h⟩

/-- The paragraphs and tables that are written for a table of contents. -/
def Toc.blocks (ids : Nat → Str) (t : Toc) : List Block :=
  match t.items with
  | [] => t.before ++ .paragraph (tocStart (ids 0) t) :: fieldTail (ids 1) (ids 2) t.after
  | item :: items =>
    t.before ++ (entryParagraphs (fun n => ids (n + 1)) true (tocPreparedItems t.instr t.dirty t.pageRefPlaceholder (item :: items))).map Block.paragraph
      ++ tocBehind (ids 0) t.after

theorem spread_readable {ids : Nat → Str} {t : Toc} : (∀ k ∈ t.spread ids, k.Readable) ↔ ∀ b ∈ t.blocks ids, b.Readable := by
  obtain ⟨instr, items, auto, dirty, without, al, placeholder, before, after, delete, property⟩ := t
  have hb : ∀ bs : List Block, (∀ k ∈ bs.map Block.inBody, k.Readable) ↔ ∀ b ∈ bs, b.Readable := fun bs => by
    refine ⟨body_readable, fun h k hk => ?_⟩
    obtain ⟨b, hb, rfl⟩ := List.mem_map.1 hk
    have := h b hb
    cases b <;> exact this
  have hc : ∀ (al : Option Str) (bs : List Block), (tocControl al bs).Readable ↔ ∀ b ∈ bs, b.Readable :=
    fun al bs => ⟨control_readable, readable_control⟩
  cases items <;> cases without <;>
    simp only [Toc.spread, Toc.blocks, if_true, Bool.false_eq_true, if_false, List.forall_mem_append, List.forall_mem_cons, hb, hc, List.not_mem_nil,
      false_imp_iff, implies_true, and_true, and_assoc]

theorem entries_named : ∀ (ids : Nat → Str) (first : Bool) (ts : List TocItem), (∀ n, Stored (ids n)) →
    ∀ p ∈ entryParagraphs ids first ts, (decodeAttr p.id).isSome
  | _, _, [], _, p, hp => by cases hp
  | ids, first, [t], h, p, hp => by
    simp only [entryParagraphs, List.mem_cons, List.not_mem_nil, or_false] at hp
    rcases hp with rfl | rfl
    · exact (h 0).2.1
    · exact (h 1).2.1
  | ids, first, t :: u :: ts, h, p, hp => by
    have := entries_named (fun n => ids (n + 1)) false (u :: ts) (fun n => h (n + 1))
    rw [entryParagraphs] at hp
    · rcases List.mem_cons.1 hp with rfl | hp
      · exact (h 0).2.1
      · exact this p hp
    · intro h; cases h

theorem stringsBlocks_mem : ∀ {bs : List Block}, AllS (stringsBlocks bs) → ∀ b ∈ bs, AllS b.strings
  | b :: bs, h, c, hc => by
    rw [stringsBlocks] at h
    rcases List.mem_cons.1 hc with rfl | hc
    · exact fun s hs => h s (List.mem_append_left _ hs)
    · exact stringsBlocks_mem (fun s hs => h s (List.mem_append_right _ hs)) c hc

theorem tail_named {id id' : Str} (h : Stored id) (h' : Stored id') {bs : List Block} (hb : ∀ b ∈ bs, b.Named) : ∀ b ∈ fieldTail id id' bs, b.Named := by
  cases bs with
  | nil => intro b hb; obtain rfl := List.mem_singleton.1 hb; exact h.2.1
  | cons c cs =>
    have h1 := hb c (.head _)
    cases c with
    | paragraph p =>
      intro b hm
      rcases List.mem_cons.1 hm with rfl | hm
      · exact h1
      · exact hb b (.tail _ hm)
    | table t =>
      intro b hm
      rcases List.mem_cons.1 hm with rfl | hm
      · exact h'.2.1
      · exact hb b hm

theorem behind_named {id : Str} (h : Stored id) {bs : List Block} (hb : ∀ b ∈ bs, b.Named) : ∀ b ∈ tocBehind id bs, b.Named := by
  cases bs with
  | nil => exact hb
  | cons c cs =>
    cases c with
    | paragraph p => exact hb
    | table t =>
      intro b hm
      rcases List.mem_cons.1 hm with rfl | hm
      · exact h.2.1
      · exact hb b hm

theorem blocks_named {t : Toc} (hs : AllS t.strings) {ids : Nat → Str} (h : ∀ n, Stored (ids n)) : ∀ b ∈ t.blocks ids, b.Named := by
  obtain ⟨instr, items, auto, dirty, without, al, placeholder, before, after, delete, property⟩ := t
  simp only [Toc.strings, AllS_append] at hs
  have h1 : ∀ b ∈ before, b.Named := fun b hb => named_of_strings (stringsBlocks_mem hs.1.1.1.2 b hb)
  have h2 : ∀ b ∈ after, b.Named := fun b hb => named_of_strings (stringsBlocks_mem hs.1.1.2 b hb)
  cases items with
  | nil =>
    simp only [Toc.blocks, List.forall_mem_append, List.forall_mem_cons]
    exact ⟨h1, (h 0).2.1, tail_named (h 1) (h 2) h2⟩
  | cons item items =>
    simp only [Toc.blocks, List.forall_mem_append]
    refine ⟨⟨h1, fun b hb => ?_⟩, behind_named (h 0) h2⟩
    obtain ⟨p, hp, rfl⟩ := List.mem_map.1 hb
    exact entries_named _ _ _ (fun n => h (n + 1)) p hp

theorem bare_blocks (ids : Nat → Str) (t : Toc) : (t.blocks ids).map bareBlock = (bareToc t).blocks fun _ => [] := by
  have e1 := bare_start (ids 0) t
  obtain ⟨instr, items, auto, dirty, without, al, placeholder, before, after, delete, property⟩ := t
  simp only [bareToc, bareBlocks_eq] at e1 ⊢
  have e : ∀ ps : List Paragraph, (ps.map Block.paragraph).map bareBlock = (ps.map bareParagraph).map Block.paragraph := fun ps => by
    rw [List.map_map, List.map_map]
    exact List.map_congr_left fun p _ => by simp only [Function.comp, bareBlock]
  cases items with
  | nil => simp only [Toc.blocks, List.map_append, List.map_cons, bareBlock, e1, bare_tail]
  | cons item items => simp only [Toc.blocks, List.map_append, e, bare_entries, bare_behind]

theorem readable_bareChild {c : DocumentChild} (h : c.Readable) : (bareDocumentChild c).Readable := by
  cases c
  case paragraph p => exact readable_bareParagraph h
  case table t => exact readable_bareTable t h
  case sdt s => exact readable_bareSdt s h
  all_goals exact h

/-- Whether what is written for something can be read does not depend on the ids. -/
theorem flat_transfer {c c' : DocumentChild} (e : bareDocumentChild c = bareDocumentChild c') (hs : AllS c.strings)
    (h : ∀ ids : Nat → Str, (∀ n, Stored (ids n)) → ∀ k ∈ c'.flatAs ids, k.Readable) :
    ∀ ids : Nat → Str, (∀ n, Stored (ids n)) → ∀ k ∈ c.flatAs ids, k.Readable := by
  intro ids hids
  by_cases hc : ∃ t, c = .toc t
  · obtain ⟨t, rfl⟩ := hc
    obtain ⟨t', rfl⟩ : ∃ t', c' = .toc t' := by
      cases c' <;> simp only [bareDocumentChild, reduceCtorEq] at e
      exact ⟨_, rfl⟩
    simp only [bareDocumentChild, DocumentChild.toc.injEq] at e
    have h1 := spread_readable.1 (h ids hids)
    refine spread_readable.2 fun b hb => bareBlock_readable ?_ (blocks_named hs hids b hb)
    have : bareBlock b ∈ (t'.blocks ids).map bareBlock := by
      rw [bare_blocks, ← e, ← bare_blocks ids]
      exact List.mem_map_of_mem hb
    obtain ⟨b', hb', e'⟩ := List.mem_map.1 this
    rw [← e']
    exact readable_bareBlock (h1 b' hb')
  · have h1 : c.flatAs ids = [c] := by cases c <;> first | rfl | exact absurd ⟨_, rfl⟩ hc
    have h2 : c'.flatAs ids = [c'] := by
      cases c' <;> first | rfl | skip
      cases c <;> simp only [bareDocumentChild, reduceCtorEq] at e
      exact absurd ⟨_, rfl⟩ hc
    rw [h1]
    intro k hk
    obtain rfl := List.mem_singleton.1 hk
    have h3 : c'.Readable := h ids hids c' (by rw [h2]; exact .head _)
    have h4 : (bareDocumentChild k).Readable := e ▸ readable_bareChild h3
    clear e h1 h2 h3 h hk hids hc
    cases k
    case paragraph p => exact bareParagraph_readable h4 (AllS.id hs)
    case table t => exact bareTable_readable t h4 hs
    case sdt s => exact bareSdt_readable s h4 hs
    all_goals exact h4

/-- What is read from the document part of any packed file with tables of contents and sections, if none of the tables is to be filled in. -/
theorem packed_document_flat {d : DocxFile} {env : Env} {w : World} {es : List Entry} (h : Packed env d w es)
    (hi : ∀ i ∈ bodyIds (walkStory ⟨d.document, d.comments, d.footnotes⟩), PlainValue i)
    (ht : autoTocIndexes 0 d.document.children = []) (hs : AllS d.document.strings) (hr : FlatReadable (spreadAll [] d.document.children))
    (hp : d.document.sectionProperty.base.Readable) :
    ∃ text, ⟨c!"word/document.xml", .text text⟩ ∈ es ∧ ∃ k, ∀ n, k ≤ n → ∃ q, readDocument x n text = .ok q [] ∧
      bareDocument q = bareDocument ((d.document.flat [] fun _ _ => []).reread x) := by
  obtain ⟨s, g, g', h1, h2⟩ := fits_write (packed_fits h) (step_document _ _ _)
  have hb := preparePackage_bare env d w ht
  have hs' := prepared_strings generates_stored env d w hs fun i h => stored_of_plain (hi i h)
  generalize (d.preparePackage env w).1.document = p at h1 hb hs'
  have hr' : FlatReadable (spreadAll [] p.children) := by
    intro c hc
    have e : (spreadAll [] p.children).map bareDocumentChild = (spreadAll [] d.document.children).map bareDocumentChild := by
      rw [bare_spreadAll, bare_spreadAll, show p.children.map bareDocumentChild = _ from congrArg Document.children hb]
      rfl
    have : bareDocumentChild c ∈ (spreadAll [] d.document.children).map bareDocumentChild := e ▸ List.mem_map_of_mem hc
    obtain ⟨c', hc', e'⟩ := List.mem_map.1 this
    refine flat_transfer e'.symm (fun s hs'' => ?_) (hr c' hc')
    exact spreadAll_strings p.children (fun s hs => hs' s (List.mem_append_left _ hs)) s (List.mem_flatMap.2 ⟨c, hc, hs''⟩)
  have hp' : p.sectionProperty.base.Readable := by
    have := congrArg SectionProperty.base (congrArg Document.sectionProperty hb)
    have : p.sectionProperty.base = d.document.sectionProperty.base := this
    rw [this]; exact hp
  obtain ⟨sids, _, ids, _, k, hk⟩ := reads_document_flat (x := x) p hs' hr' hp' h1
  refine ⟨s, h2, k, fun n hn => ⟨_, hk n hn, ?_⟩⟩
  rw [bareDocument_reread, bareDocument_reread, bareDocument_flat, bareDocument_flat, hb]

end Docx
