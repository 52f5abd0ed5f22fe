import Verif.Lemmas.PackedParts
import Verif.Spec.ContentTypes

/-!
# The content types of a written package
-/

namespace Docx

set_option linter.unusedSimpArgs false

open Docx.Spec Docx.Xml

theorem insertType_kept (k v : Str) : ∀ (l : List (Str × Str)) (s : Str), s ∈ l.map Prod.fst → s ∈ (insertType k v l).map Prod.fst
  | [], s, h => by cases h
  | (k', v') :: r, s, h => by
    simp only [insertType]
    split
    · rename_i e
      rw [List.map_cons] at h ⊢
      rw [e]
      exact h
    · split
      · rw [List.map_cons]
        exact .tail _ h
      · rw [List.map_cons] at h ⊢
        rcases List.mem_cons.1 h with h | h
        · rw [h]; exact .head _
        · exact .tail _ (insertType_kept k v r s h)

theorem insertType_key (k v : Str) (l : List (Str × Str)) : k ∈ (insertType k v l).map Prod.fst :=
  List.mem_map_of_mem (f := Prod.fst) (insertType_mem k v l)

/-- The table is right, and complete for what has been added. -/
structure Typed (d : DocxFile) : Prop where
  kinds : ∀ x ∈ d.contentType.types, contentTypeOf x.1 = some x.2
  defaults : ∀ s ∈ defaultParts, s ∈ d.contentType.types.map Prod.fst
  headers : ∀ n < d.contentType.headerCount, c!"/word/header" ++ dec (n + 1) ++ c!".xml" ∈ d.contentType.types.map Prod.fst
  footers : ∀ n < d.contentType.footerCount, c!"/word/footer" ++ dec (n + 1) ++ c!".xml" ∈ d.contentType.types.map Prod.fst
  taskpanes : d.taskpanes = true → c!"/word/webextensions/taskpanes.xml" ∈ d.contentType.types.map Prod.fst
  web : ∀ n, n + 1 < d.contentType.webExtensionCount →
    c!"/word/webextensions/webextension" ++ dec (n + 1) ++ c!".xml" ∈ d.contentType.types.map Prod.fst

theorem typeOf_header (s : Str) : contentTypeOf (c!"/word/header" ++ s) = some (wordType c!"header") := by
  have h : wordType c!"header" = c!"application/vnd.openxmlformats-officedocument.wordprocessingml.header+xml" := by decide
  rw [h]
  exact congrArg some rfl
theorem typeOf_footer (s : Str) : contentTypeOf (c!"/word/footer" ++ s) = some (wordType c!"footer") := by
  have h : wordType c!"footer" = c!"application/vnd.openxmlformats-officedocument.wordprocessingml.footer+xml" := by decide
  rw [h]
  exact congrArg some rfl
set_option maxRecDepth 4000 in
theorem typeOf_web (s : Str) : contentTypeOf (c!"/word/webextensions/webextension" ++ s) = some c!"application/vnd.ms-office.webextension+xml" := rfl
set_option maxRecDepth 4000 in
theorem typeOf_item (s : Str) : contentTypeOf (c!"/customXml/itemProps" ++ s) =
  some c!"application/vnd.openxmlformats-officedocument.customXmlProperties+xml" := rfl

theorem typed_same {d d' : DocxFile} (h : Typed d) (e : d'.contentType = d.contentType) (t : d'.taskpanes = d.taskpanes) : Typed d' where
  kinds := by rw [e]; exact h.kinds
  defaults := by rw [e]; exact h.defaults
  headers := by rw [e]; exact h.headers
  footers := by rw [e]; exact h.footers
  taskpanes := by rw [e, t]; exact h.taskpanes
  web := by rw [e]; exact h.web

theorem kinds_insert {k v : Str} {l : List (Str × Str)} (h : ∀ x ∈ l, contentTypeOf x.1 = some x.2) (hk : contentTypeOf k = some v) :
    ∀ x ∈ insertType k v l, contentTypeOf x.1 = some x.2 := by
  intro x hx
  rcases insertType_keys k v l x hx with rfl | hx
  · exact hk
  · exact h x hx

theorem typed_new : Typed DocxFile.new where
  kinds := by
    show ∀ x ∈ ({} : ContentTypes).setDefault.types, contentTypeOf x.1 = some x.2
    unfold ContentTypes.setDefault
    simp only [List.foldl_cons, List.foldl_nil, ContentTypes.add]
    iterate 12 refine kinds_insert ?_ rfl
    intro x hx
    cases hx
  defaults := by
    show ∀ s ∈ defaultParts, s ∈ ({} : ContentTypes).setDefault.types.map Prod.fst
    decide +kernel
  headers n hn := absurd hn (Nat.not_lt_zero _)
  footers n hn := absurd hn (Nat.not_lt_zero _)
  taskpanes h := absurd h (by simp [DocxFile.new])
  web n hn := absurd hn (by
    show ¬ n + 1 < 1
    omega)

theorem typed_header {d : DocxFile} (h : Typed d) (x : Header) : Typed (d.countHeader x) where
  kinds := kinds_insert h.kinds (typeOf_header _)
  defaults s hs := insertType_kept _ _ _ _ (h.defaults s hs)
  headers n hn := by
    by_cases e : n = d.contentType.headerCount
    · rw [e]; exact insertType_key _ _ _
    · have : n < d.contentType.headerCount + 1 := hn
      exact insertType_kept _ _ _ _ (h.headers n (by omega))
  footers n hn := insertType_kept _ _ _ _ (h.footers n hn)
  taskpanes t := insertType_kept _ _ _ _ (h.taskpanes t)
  web n hn := insertType_kept _ _ _ _ (h.web n hn)

theorem typed_footer {d : DocxFile} (h : Typed d) (x : Header) : Typed (d.countFooter x) where
  kinds := kinds_insert h.kinds (typeOf_footer _)
  defaults s hs := insertType_kept _ _ _ _ (h.defaults s hs)
  headers n hn := insertType_kept _ _ _ _ (h.headers n hn)
  footers n hn := by
    by_cases e : n = d.contentType.footerCount
    · rw [e]; exact insertType_key _ _ _
    · have : n < d.contentType.footerCount + 1 := hn
      exact insertType_kept _ _ _ _ (h.footers n (by omega))
  taskpanes t := insertType_kept _ _ _ _ (h.taskpanes t)
  web n hn := insertType_kept _ _ _ _ (h.web n hn)

theorem typed_taskpanes {d : DocxFile} (h : Typed d) : Typed d.addTaskpanes where
  kinds := kinds_insert h.kinds rfl
  defaults s hs := insertType_kept _ _ _ _ (h.defaults s hs)
  headers n hn := insertType_kept _ _ _ _ (h.headers n hn)
  footers n hn := insertType_kept _ _ _ _ (h.footers n hn)
  taskpanes _ := insertType_key _ _ _
  web n hn := insertType_kept _ _ _ _ (h.web n hn)

theorem typed_web {d : DocxFile} (h : Typed d) (e : WebExtension) (hw : d.contentType.webExtensionCount = d.webExtensions.length + 1) :
    Typed (d.addWebExtension e) where
  kinds := kinds_insert h.kinds (typeOf_web _)
  defaults s hs := insertType_kept _ _ _ _ (h.defaults s hs)
  headers n hn := insertType_kept _ _ _ _ (h.headers n hn)
  footers n hn := insertType_kept _ _ _ _ (h.footers n hn)
  taskpanes t := insertType_kept _ _ _ _ (h.taskpanes t)
  web n hn := by
    have hn' : n + 1 < d.contentType.webExtensionCount + 1 := hn
    by_cases e : n + 1 = d.contentType.webExtensionCount
    · rw [e]; exact insertType_key _ _ _
    · exact insertType_kept _ _ _ _ (h.web n (by omega))

theorem typed_item {d : DocxFile} (h : Typed d) (id : Str) (x : List XmlData) : Typed (d.addCustomItem id x) where
  kinds := kinds_insert h.kinds (typeOf_item _)
  defaults s hs := insertType_kept _ _ _ _ (h.defaults s hs)
  headers n hn := insertType_kept _ _ _ _ (h.headers n hn)
  footers n hn := insertType_kept _ _ _ _ (h.footers n hn)
  taskpanes t := insertType_kept _ _ _ _ (h.taskpanes t)
  web n hn := insertType_kept _ _ _ _ (h.web n hn)

theorem typed_call (d : DocxFile) (c : Call) (d' : DocxFile) (h : Typed d ∧ Sound d) (e : d.call c = some d') : Typed d' ∧ Sound d' := by
  refine ⟨?_, h.2.call d c d' e⟩
  obtain ⟨h, hs⟩ := h
  have hn : ∀ b, Typed (d.noteNumbering b) := fun b => typed_same h rfl rfl
  cases c with
  | document x => simp only [DocxFile.call, Option.some.injEq] at e; rw [← e]; exact typed_same h rfl rfl
  | addParagraph p => simp only [DocxFile.call, Option.some.injEq] at e; rw [← e]; exact typed_same h rfl rfl
  | addTable p => simp only [DocxFile.call, Option.some.injEq] at e; rw [← e]; exact typed_same h rfl rfl
  | addSdt p => simp only [DocxFile.call, Option.some.injEq] at e; rw [← e]; exact typed_same h rfl rfl
  | addSection s =>
    simp only [DocxFile.call, Option.some.injEq] at e; rw [← e]
    have h1 : Typed (d.attachParts s).1 := attachParts_inv (P := Typed) (fun _ _ h => typed_header h _) (fun _ _ h => typed_footer h _) d s (hn _)
    exact typed_same h1 rfl rfl
  | header x => simp only [DocxFile.call, Option.some.injEq] at e; rw [← e]; exact typed_same (typed_header h x) rfl rfl
  | firstHeader x => simp only [DocxFile.call, Option.some.injEq] at e; rw [← e]; exact typed_same (typed_header h x) rfl rfl
  | evenHeader x => simp only [DocxFile.call, Option.some.injEq] at e; rw [← e]; exact typed_same (typed_header h x) rfl rfl
  | footer x => simp only [DocxFile.call, Option.some.injEq] at e; rw [← e]; exact typed_same (typed_footer h x) rfl rfl
  | firstFooter x => simp only [DocxFile.call, Option.some.injEq] at e; rw [← e]; exact typed_same (typed_footer h x) rfl rfl
  | evenFooter x => simp only [DocxFile.call, Option.some.injEq] at e; rw [← e]; exact typed_same (typed_footer h x) rfl rfl
  | taskpanes => simp only [DocxFile.call, Option.some.injEq] at e; rw [← e]; exact typed_taskpanes h
  | webExtension x => simp only [DocxFile.call, Option.some.injEq] at e; rw [← e]; exact typed_web h x hs.web
  | addCustomItem i x =>
    simp only [DocxFile.call] at e
    split at e
    · simp only [Option.some.injEq] at e
      rw [← e]
      exact typed_item h _ _
    · exact absurd e (by simp)
  | _ =>
    simp only [DocxFile.call, Option.some.injEq] at e
    rw [← e]
    exact typed_same h rfl rfl

theorem calls_typed {cs : List Call} {d : DocxFile} (h : DocxFile.new.calls cs = some d) : Typed d :=
  (calls_inv typed_call cs _ _ ⟨typed_new, Sound.new⟩ h).1

/-! ## Reading the table -/

theorem overrideOf_overrideTypeN {p t : Str} (hp : Plain p) (ht : Plain t) :
    (collectForest startOf (overrideTypeN p t)).filterMap overrideOf = [(p, t)] := by
  have e0 : splitQName c!"Override" = ⟨none, c!"Override"⟩ := by decide
  have e1 : splitQName c!"PartName" = ⟨none, c!"PartName"⟩ := by decide
  have e2 : splitQName c!"ContentType" = ⟨none, c!"ContentType"⟩ := by decide
  have n1 : (⟨none, c!"PartName"⟩ : QName) ≠ ⟨none, c!"ContentType"⟩ := by decide
  simp only [overrideTypeN, leafN, collectForest, Node.collect, startOf, e0, List.append_nil, List.filterMap_cons, List.filterMap_nil,
    overrideOf, if_true]
  simp [-String.reduceToList, expectAttrs, hp.decode, ht.decode, e1, e2, attrOf, n1]

theorem overrideOf_default (a b : Str) : (collectForest startOf (defaultTypeN a b)).filterMap overrideOf = [] := by
  have e0 : splitQName c!"Default" ≠ ⟨none, c!"Override"⟩ := by decide
  simp only [defaultTypeN, leafN, collectForest, Node.collect, startOf, List.append_nil, List.filterMap_cons, List.filterMap_nil,
    overrideOf, if_neg e0]

theorem contentTypes_read (c : ContentTypes) (h : ∀ x ∈ c.types, Plain x.1 ∧ Plain x.2) :
    overridesIn (readEvents (constText none c.nodes)) = c.types := by
  have hs : AllS c.strings := by
    intro s hs
    unfold ContentTypes.strings at hs
    obtain ⟨x, hx, h1⟩ := List.mem_flatMap.1 hs
    simp only [List.mem_cons, List.not_mem_nil, or_false] at h1
    rcases h1 with rfl | rfl
    · exact (h x hx).1.stored
    · exact (h x hx).2.stored
  rw [overridesIn, constText_reads none (c.ok hs), eventStarts_tags _ (c.ok hs)]
  have e0 : splitQName c!"Types" ≠ ⟨none, c!"Override"⟩ := by decide
  simp only [ContentTypes.nodes, collectForest, Node.collect, List.append_nil, startOf, List.filterMap_append, List.filterMap_cons,
    List.filterMap_nil, collectForest_append, overrideOf_default, List.nil_append]
  rw [overrideOf, if_neg e0, List.nil_append, collectForest_flatMap, filterMap_flatMap']
  clear hs
  generalize c.types = l at h
  induction l with
  | nil => rfl
  | cons x l ih =>
    rw [List.flatMap_cons, overrideOf_overrideTypeN (h x (.head _)).1 (h x (.head _)).2, ih fun y hy => h y (.tail _ hy)]
    rfl

theorem plain_type {k v : Str} (h : contentTypeOf k = some v) : Plain v := by
  have h1 : ∀ x ∈ numberedTypes, plainB x.2 = true := by decide
  have h2 : ∀ x ∈ partTypes, plainB x.2 = true := by decide
  unfold contentTypeOf at h
  split at h
  · rename_i x e
    cases h
    exact plain_lit (h1 x (List.mem_of_find?_eq_some e))
  · obtain ⟨x, hx, rfl⟩ := Option.map_eq_some_iff.1 h
    exact plain_lit (h2 x (List.mem_of_find?_eq_some hx))

theorem plain_typed {d : DocxFile} {s : Str} (h : TypedPart d s) : Plain s := by
  have hd : ∀ s ∈ defaultParts, plainB s = true := by decide
  have hn : ∀ (a : Str) (n : Nat), plainB a = true → Plain (a ++ dec n ++ c!".xml") := fun a n ha =>
    ((plain_lit ha).append (plain_dec n)).append (plain_lit (by decide))
  cases h with
  | default h => exact plain_lit (hd _ h)
  | header n h => exact hn _ _ (by decide)
  | footer n h => exact hn _ _ (by decide)
  | taskpanes h => exact plain_lit (by decide)
  | webExtension n h => exact hn _ _ (by decide)
  | customXml n h => exact hn _ _ (by decide)

/-- The table in a written package. -/
theorem packed_types {d : DocxFile} {env : Env} {w : World} {es : List Entry}
    (hs : Sound d) (ht : Typed d) (h : Packed env d w es) :
    ∃ s c, ⟨c!"[Content_Types].xml", .text s⟩ ∈ es ∧ overridesIn (readEvents s) = c.types ∧
      c = (if partFootnotes (walkDocument d.document) = [] then d.contentType else d.contentType.addFootnotes) := by
  have hf := packed_fits h
  have hb := (preparePackage_books env d w).1
  generalize d.preparePackage env w = q at hf hb
  refine ⟨_, _, fits_const hf (step_contentTypes _ _ _) (contentTypes_const _), contentTypes_read _ ?_, hb⟩
  have h1 := hs.typed
  have h2 := ht.kinds
  have h3 : ∀ x ∈ d.contentType.types, Plain x.1 ∧ Plain x.2 := fun x hx => ⟨plain_typed (h1 x hx), plain_type (h2 x hx)⟩
  rw [hb]
  split
  · exact h3
  · intro x hx
    rcases insertType_keys _ _ _ _ hx with rfl | hx
    · exact ⟨plain_lit (s := c!"/word/footnotes.xml") (by decide), plain_lit (s := wordType c!"footnotes") (by decide)⟩
    · exact h3 x hx

end Docx
