import Verif.Spec.JsToc
import Verif.Props.C83_JsStyles
import Verif.Props.C80_JsNumbering

/-!
# C84: tables of contents made in JavaScript arrive
-/

namespace Docx.Props

open Docx Docx.Xml Docx.Spec

variable (lib : ImageLib)

/-- The table of contents that is built for a new one with the given methods called on it. -/
def builtToc (instr : Option Str) (calls : List JsTocCall) (n : Ids) : Toc :=
  ((calls.foldl JsToc.call { instrText := instr }).build lib n).1

theorem fromStr_nil : InstrToC.fromStr [] = {} := by decide +kernel

theorem item_set (i : JsTocItem) : i.build =
    { text := i.text, tocKey := i.tocKey, level := if i.level = 0 then 1 else i.level, pageRef := truthy (some i.pageRef) } := by
  obtain ⟨t, k, l, p⟩ := i
  rw [JsTocItem.build]
  have h : ∀ s : Str, truthy (some s) = if s = [] then none else some s := by
    intro s
    cases s <;> rfl
  dsimp only
  rw [h, h, h]
  by_cases e : l = 0
  · subst e
    split <;> split <;> split <;> simp_all [onSome, Option.filter]
  · split <;> split <;> split <;> simp_all [onSome, Option.filter]

/-- **C84, entries.** An entry arrives with the text, key, level and page its methods were asked for. -/
theorem C84_entry_partial (calls : List JsTocItemCall) (h : ∀ c ∈ calls, JsTocItemCall.comesThrough c) :
    (calls.foldl JsTocItem.call {}).build = calls.foldl JsTocItemCall.wanted { level := 1 } := by
  induction calls using snoc_induction with
  | h0 => rfl
  | h1 l c ih =>
    have ih := ih fun x hx => h x (List.mem_append_left _ hx)
    have hc := h c (by simp)
    rw [List.foldl_append, List.foldl_append, ← ih, List.foldl_cons, List.foldl_nil, List.foldl_cons, List.foldl_nil]
    generalize l.foldl JsTocItem.call {} = i
    rw [item_set, item_set]
    cases c with
    | text s => rfl
    | tocKey s => rfl
    | level n =>
      have hc : n ≠ 0 := hc
      simp [JsTocItem.call, JsTocItemCall.wanted, hc]
    | pageRef s =>
      have hc : s ≠ [] := hc
      simp only [JsTocItem.call, JsTocItemCall.wanted, truthy_some hc]
      rfl

theorem toc_levels (l : List (Str × Nat)) : ∀ m : Toc,
    l.foldl (fun (m : Toc) x => { m with instr := { m.instr with stylesWithLevels := m.instr.stylesWithLevels ++ [x] } }) m
      = { m with instr := { m.instr with stylesWithLevels := m.instr.stylesWithLevels ++ l } } := by
  induction l with
  | nil => intro m; cases m; simp
  | cons x l ih => intro m; rw [List.foldl_cons, ih]; simp

theorem toc_items (l : List JsTocItem) : ∀ m : Toc,
    l.foldl (fun (m : Toc) x => { m with items := m.items ++ [x.build] }) m = { m with items := m.items ++ l.map JsTocItem.build } := by
  induction l with
  | nil => intro m; cases m; simp
  | cons x l ih => intro m; rw [List.foldl_cons, ih]; simp

theorem toc_start (t : JsToc) : t.start = { instr := startInstr t.instrText } := by
  rw [JsToc.start]
  rcases t.instrText with _ | _ | ⟨c, s⟩
  · rfl
  · exact congrArg (fun i : InstrToC => ({ instr := i } : Toc)) fromStr_nil.symm
  · rfl

theorem toc_set (t : JsToc) (n : Ids) : (t.build lib n).1 =
    { instr := { startInstr t.instrText with
                 headingStylesRange := t.headingStylesRange.or (startInstr t.instrText).headingStylesRange
                 hyperlink := t.hyperlink || (startInstr t.instrText).hyperlink
                 tcFieldIdentifier := t.tcFieldIdentifier.or (startInstr t.instrText).tcFieldIdentifier
                 stylesWithLevels := (startInstr t.instrText).stylesWithLevels ++ t.styleWithLevels }
      items := t.items.map JsTocItem.build, auto := t.auto, dirty := t.dirty, withoutSdt := t.withoutSdt
      «alias» := truthy (some t.alias), pageRefPlaceholder := truthy (some t.pageRefPlaceholder)
      before := (jsBlocks lib t.before n).1, after := (jsBlocks lib t.after (jsBlocks lib t.before n).2).1
      delete := t.delete.map fun x => ⟨escapeOwned x.1, x.2⟩, paragraphProperty := t.paragraphProperty.map createParagraphProperty } := by
  have a1 (x : Option (Nat × Nat)) (m : Toc) : onSome x (fun m x => { m with instr := { m.instr with headingStylesRange := some x } }) m
      = { m with instr := { m.instr with headingStylesRange := x.or m.instr.headingStylesRange } } := by cases x <;> cases m <;> rfl
  have a2 (x : Bool) (m : Toc) : onTrue (some x) (fun m => { m with instr := { m.instr with hyperlink := true } }) m
      = { m with instr := { m.instr with hyperlink := x || m.instr.hyperlink } } := by cases x <;> cases m <;> rfl
  have a3 (x : Option Str) (m : Toc) : onSome x (fun m s => { m with «alias» := some s }) m
      = { m with «alias» := x.or m.alias } := by cases x <;> cases m <;> rfl
  have a4 (x : Bool) (m : Toc) : onTrue (some x) (fun m => { m with auto := true }) m
      = { m with auto := x || m.auto } := by cases x <;> cases m <;> rfl
  have a5 (x : Bool) (m : Toc) : onTrue (some x) (fun m => { m with dirty := true }) m
      = { m with dirty := x || m.dirty } := by cases x <;> cases m <;> rfl
  have a6 (x : Bool) (m : Toc) : onTrue (some x) (fun m => { m with withoutSdt := true }) m
      = { m with withoutSdt := x || m.withoutSdt } := by cases x <;> cases m <;> rfl
  have a7 (x : Option Str) (m : Toc) : onSome x (fun m s => { m with pageRefPlaceholder := some s }) m
      = { m with pageRefPlaceholder := x.or m.pageRefPlaceholder } := by cases x <;> cases m <;> rfl
  have a8 (x : Option (Str × Str)) (m : Toc) : onSome x (fun m x => { m with delete := some ⟨escapeOwned x.1, x.2⟩ }) m
      = { m with delete := (x.map fun x => ⟨escapeOwned x.1, x.2⟩).or m.delete } := by cases x <;> cases m <;> rfl
  have a9 (x : Option (Option Str)) (m : Toc) : onSome x (fun m x => { m with instr := { m.instr with tcFieldIdentifier := some x } }) m
      = { m with instr := { m.instr with tcFieldIdentifier := x.or m.instr.tcFieldIdentifier } } := by cases x <;> cases m <;> rfl
  have b1 (x : Option JsParagraphProperty) (m : Toc) : onSome x (fun m p => { m with paragraphProperty := some (createParagraphProperty p) }) m
      = { m with paragraphProperty := (x.map createParagraphProperty).or m.paragraphProperty } := by cases x <;> cases m <;> rfl
  simp only [JsToc.build, toc_start, toc_levels, toc_items, a1, a2, a3, a4, a5, a6, a7, a8, a9, b1]
  simp

/-- **C84.** A table of contents made in JavaScript arrives with everything its methods were asked for: instruction, entries, name, flags, text in
place of pages, mark of deletion and formatting. Missing: the full statement is for all calls; it does not hold for those that are excluded
(`C84_fails_level`, `C84_fails_empty`, `C83_fails_start`, `C83_fails_leader`). -/
theorem C84_toc_partial (instr : Option Str) (calls : List JsTocCall) (n : Ids) (h : ∀ c ∈ calls, JsTocCall.comesThrough c) :
    { builtToc lib instr calls n with before := [], after := [] } = wantedToc instr calls := by
  rw [builtToc, wantedToc]
  induction calls using snoc_induction with
  | h0 =>
    rw [toc_set]
    simp [truthy, Option.filter]
  | h1 l c ih =>
    have ih := ih fun x hx => h x (List.mem_append_left _ hx)
    have hc := h c (by simp)
    rw [List.foldl_append, List.foldl_append, ← ih, List.foldl_cons, List.foldl_nil, List.foldl_cons, List.foldl_nil]
    generalize l.foldl JsToc.call { instrText := instr } = t
    rw [toc_set, toc_set]
    cases c with
    | «alias» s =>
      have hc : s ≠ [] := hc
      simp [JsToc.call, JsTocCall.wanted, truthy_some hc]
    | pageRefPlaceholder s =>
      have hc : s ≠ [] := hc
      simp [JsToc.call, JsTocCall.wanted, truthy_some hc]
    | paragraphProperty cs => simp [JsToc.call, JsTocCall.wanted, C83_format_partial cs hc]
    | addItem cs => simp [JsToc.call, JsTocCall.wanted, C84_entry_partial cs hc]
    | _ => simp [JsToc.call, JsTocCall.wanted]

/-! ## What stands before and behind it -/

/-- What was put into a paragraph or table. -/
def blockContent (w : List Place) : JsBlock → List Shown
  | .paragraph p => JsParagraph.content lib p
  | .table t => jsTableContent lib w t

theorem jsBlocks_shown (w : List Place) (hw : inPart w = true) : ∀ (bs : List JsBlock) (n : Ids),
    blocksContent w (jsBlocks lib bs n).1 = bs.flatMap (blockContent lib w)
  | [], n => by simp [blocksContent, jsBlocks, walkBlocks, within_shown, pick_nil]
  | b :: bs, n => by
    have ih := jsBlocks_shown w hw bs (b.build lib n).2
    rw [blocksContent, within_shown] at ih ⊢
    simp only [jsBlocks, walkBlocks, pick_append, List.flatMap_cons, ih]
    congr 1
    cases b with
    | paragraph p => exact jsParagraph_shown lib w hw p n
    | table t => exact jsTable_shown lib w hw t n

theorem toc_before (w : List Place) : ∀ (calls : List JsTocCall) (t : JsToc),
    (calls.foldl JsToc.call t).before.flatMap (blockContent lib (.tocBefore :: w))
      = t.before.flatMap (blockContent lib (.tocBefore :: w)) ++ calls.flatMap (JsTocCall.before lib w)
  | [], t => by simp
  | c :: cs, t => by
    rw [List.foldl_cons, toc_before w cs]
    cases c <;> simp [JsToc.call, JsTocCall.before, blockContent]

theorem toc_after (w : List Place) : ∀ (calls : List JsTocCall) (t : JsToc),
    (calls.foldl JsToc.call t).after.flatMap (blockContent lib (.tocAfter :: w))
      = t.after.flatMap (blockContent lib (.tocAfter :: w)) ++ calls.flatMap (JsTocCall.after lib w)
  | [], t => by simp
  | c :: cs, t => by
    rw [List.foldl_cons, toc_after w cs]
    cases c <;> simp [JsToc.call, JsTocCall.after, blockContent]

/-- **C84, what stands before and behind the entries.** All that was put into the paragraphs and tables before a table of contents arrives before it,
and all that was put behind it behind it, in order and nothing else. -/
theorem C84_contents (w : List Place) (hw : inPart w = true) (instr : Option Str) (calls : List JsTocCall) (n : Ids) :
    blocksContent (.tocBefore :: w) (builtToc lib instr calls n).before = calls.flatMap (JsTocCall.before lib w) ∧
      blocksContent (.tocAfter :: w) (builtToc lib instr calls n).after = calls.flatMap (JsTocCall.after lib w) := by
  have hb : inPart (.tocBefore :: w) = true := by simpa [inPart] using hw
  have ha : inPart (.tocAfter :: w) = true := by simpa [inPart] using hw
  rw [builtToc, toc_set]
  dsimp only
  rw [jsBlocks_shown lib _ hb, jsBlocks_shown lib _ ha, toc_before, toc_after]
  exact ⟨rfl, rfl⟩

/-- **C84.** What is seen of a table of contents in the body of a document is what was put before it and then what was put behind it. -/
theorem C84_seen (instr : Option Str) (calls : List JsTocCall) (n : Ids) :
    JsChild.content lib (.toc (builtToc lib instr calls n))
      = calls.flatMap (JsTocCall.before lib [.document]) ++ calls.flatMap (JsTocCall.after lib [.document]) := by
  obtain ⟨h1, h2⟩ := C84_contents lib [.document] (by decide) instr calls n
  rw [← h1, ← h2, JsChild.content, tocContent]
  generalize builtToc lib instr calls n = t
  obtain ⟨a, b, c, d, e, f, g, bs, as, j, k⟩ := t
  simp [walkToc, blocksContent, within_shown, pick_cons, pick_append, shownAt, Item.shown]

/-- The tables of contents inside the tables that a call puts before or behind. -/
def JsTocCall.inner : JsTocCall → List Toc
  | .addBeforeTable t | .addAfterTable t => jsTableTocs t
  | _ => []

/-- The tables of contents inside a paragraph or table. -/
def JsBlock.inner : JsBlock → List Toc
  | .table t => jsTableTocs t
  | .paragraph _ => []

theorem jsBlocks_clean (w : List Place) : ∀ (bs : List JsBlock) (n : Ids), (∀ b ∈ bs, ∀ x ∈ JsBlock.inner b, TocMade x) →
    Clean (walkBlocks w (jsBlocks lib bs n).1)
  | [], n, _ => by rw [jsBlocks, walkBlocks]; exact clean_nil
  | b :: bs, n, h => by
    rw [jsBlocks, walkBlocks, clean_append]
    refine ⟨?_, jsBlocks_clean w bs _ fun b hb => h b (List.mem_cons_of_mem _ hb)⟩
    cases b with
    | paragraph p => exact jsParagraph_clean lib w p n
    | table t => exact jsTable_clean lib w t n (h (.table t) (List.mem_cons_self ..))

theorem toc_inner : ∀ (calls : List JsTocCall) (t : JsToc), (∀ c ∈ calls, ∀ x ∈ JsTocCall.inner c, TocMade x) →
    (∀ b ∈ t.before ++ t.after, ∀ x ∈ JsBlock.inner b, TocMade x) →
    ∀ b ∈ (calls.foldl JsToc.call t).before ++ (calls.foldl JsToc.call t).after, ∀ x ∈ JsBlock.inner b, TocMade x
  | [], _, _, h => h
  | c :: cs, t, hc, h => by
    rw [List.foldl_cons]
    refine toc_inner cs _ (fun x hx => hc x (List.mem_cons_of_mem _ hx)) ?_
    have h0 := hc c (List.mem_cons_self ..)
    cases c with
    | addBeforeParagraph p =>
      intro b hb
      simp only [JsToc.call, List.mem_append, List.mem_singleton] at hb h
      rcases hb with (hb | hb) | hb
      all_goals first | exact h b (.inl hb) | exact h b (.inr hb) | (subst hb; intro x hx; cases hx)
    | addAfterParagraph p =>
      intro b hb
      simp only [JsToc.call, List.mem_append, List.mem_singleton] at hb h
      rcases hb with hb | hb | hb
      all_goals first | exact h b (.inl hb) | exact h b (.inr hb) | (subst hb; intro x hx; cases hx)
    | addBeforeTable p =>
      intro b hb
      simp only [JsToc.call, List.mem_append, List.mem_singleton] at hb h
      rcases hb with (hb | hb) | hb
      all_goals first | exact h b (.inl hb) | exact h b (.inr hb) | (subst hb; exact h0)
    | addAfterTable p =>
      intro b hb
      simp only [JsToc.call, List.mem_append, List.mem_singleton] at hb h
      rcases hb with hb | hb | hb
      all_goals first | exact h b (.inl hb) | exact h b (.inr hb) | (subst hb; exact h0)
    | _ => exact h

/-- **C84.** The links and pictures before and behind a table of contents made in JavaScript carry the ids their constructors give: this is what
C79 and C80 ask of the tables of contents in a document. -/
theorem C84_made (instr : Option Str) (calls : List JsTocCall) (n : Ids) (h : ∀ c ∈ calls, ∀ x ∈ JsTocCall.inner c, TocMade x) :
    TocMade (builtToc lib instr calls n) := by
  intro w
  have hi := toc_inner calls { instrText := instr } h (fun b hb => by cases hb)
  rw [builtToc, toc_set, walkToc]
  refine clean_cons.2 ⟨trivial, clean_append.2 ⟨?_, ?_⟩⟩
  · exact jsBlocks_clean lib _ _ _ fun b hb => hi b (List.mem_append_left _ hb)
  · exact jsBlocks_clean lib _ _ _ fun b hb => hi b (List.mem_append_right _ hb)

/-! ## What does not come through -/

/-- **C84 fails** for an entry of level 0: it arrives as an entry of level 1. -/
theorem C84_fails_level (calls : List JsTocItemCall) :
    ((calls ++ [JsTocItemCall.level 0]).foldl JsTocItem.call {}).build.level = 1 := by
  rw [List.foldl_append, item_set]
  rfl

/-- **C84 fails** for an empty text in place of pages and for an empty name: none arrives. -/
theorem C84_fails_empty (instr : Option Str) (calls : List JsTocCall) (n : Ids) :
    (builtToc lib instr (calls ++ [.pageRefPlaceholder []]) n).pageRefPlaceholder = none ∧
      (builtToc lib instr (calls ++ [.alias []]) n).alias = none := by
  constructor <;> rw [builtToc, List.foldl_append, toc_set] <;> rfl

/-- A document that has only a table of contents, with a numbered paragraph before it. -/
def jsTocList : JsDocx := ({} : JsDocx).add (.toc (builtToc sampleLib none [.addBeforeParagraph jsItem] ⟨1, 1, 1⟩))

/-- **C80 fails** for the paragraphs before and behind a table of contents: the part is not related although a paragraph of the package is numbered. -/
theorem C80_fails_toc : ∃ d n, MadeJsDocx d ∧ UsesNumbering (d.build sampleLib n).1.document ∧
    (∃ es, Packed anEnv (d.build sampleLib n).1 {} es) ∧
    ∀ env w es, (∀ l, (env.links l).Perm l) → Packed env (d.build sampleLib n).1 w es → ¬ NumberingRelated es := by
  have hm : MadeJsDocx jsTocList := .addToc _ _ .new
  refine ⟨jsTocList, ⟨1, 1, 1⟩, hm, ?_, packs_plainly (by decide +kernel), fun env w es he h => ?_⟩
  · have : ((walkDocument (jsTocList.build sampleLib ⟨1, 1, 1⟩).1.document).any fun x => x.2.numbered) = true := by decide +kernel
    exact List.any_eq_true.1 this
  · have ht : ∀ t ∈ jsTocs jsTocList, TocMade t := by
      intro t ht
      rw [List.mem_singleton.1 (show t ∈ [builtToc sampleLib none [.addBeforeParagraph jsItem] ⟨1, 1, 1⟩] from ht)]
      exact C84_made _ _ _ _ (by simp [JsTocCall.inner])
    rw [C80_related_partial _ _ _ _ _ _ hm ht he h]
    exact Bool.false_ne_true

/-! ## Witnesses -/

/-- The calls of a program that makes a table of contents. -/
def jsTocCalls : List JsTocCall :=
  [.headingStylesRange 1 3, .hyperlink, .alias c!"Contents", .addItem [.text c!"One", .tocKey c!"k", .level 2, .pageRef c!"5"],
   .addBeforeParagraph ⟨[.run { children := [.text c!"before"] }], {}, false⟩, .addStyleWithLevel c!"S" 4, .tcFieldIdentifier none,
   .addAfterParagraph ⟨[.run { children := [.text c!"behind"] }], {}, false⟩, .delete c!"me" c!"today",
   .paragraphProperty [.align .center, .style c!"X"]]

example : wantedToc none jsTocCalls =
    { instr := { headingStylesRange := some (1, 3), hyperlink := true, stylesWithLevels := [(c!"S", 4)], tcFieldIdentifier := some none }
      items := [{ text := c!"One", tocKey := c!"k", level := 2, pageRef := some c!"5" }], «alias» := some c!"Contents"
      delete := some ⟨c!"me", c!"today"⟩
      paragraphProperty := some { base := { alignment := some c!"center", style := some c!"X" } } } := rfl

example : { builtToc sampleLib none jsTocCalls ⟨1, 1, 1⟩ with before := [], after := [] } = wantedToc none jsTocCalls :=
  C84_toc_partial _ _ _ _ (by
    intro c hc
    simp only [jsTocCalls, List.mem_cons, List.not_mem_nil, or_false] at hc
    rcases hc with h | h | h | h | h | h | h | h | h | h <;> subst h <;> simp [JsTocCall.comesThrough, JsTocItemCall.comesThrough, JsFormatCall.comesThrough])

example : JsChild.content sampleLib (.toc (builtToc sampleLib none jsTocCalls ⟨1, 1, 1⟩)) = [.text c!"before", .text c!"behind"] := by
  rw [C84_seen]
  decide +kernel

end Docx.Props
