import Verif.Lemmas.Types
import Verif.Spec.Items

/-!
# Custom items of a document made with the builder
-/

namespace Docx

set_option linter.unusedSimpArgs false

open Docx.Spec Docx.Xml

/-- The name under which the properties of a custom item get a content type. -/
def itemKey (n : Nat) : Str := c!"/customXml/itemProps" ++ dec (n + 1) ++ c!".xml"

theorem itemKey_inj {a b : Nat} (h : itemKey a = itemKey b) : a = b := by
  have := dec_inj (List.append_cancel_left (List.append_cancel_right h))
  omega

/-- What a call does to the custom items and their content types. -/
structure ItemEffect (d d' : DocxFile) (new : Option (Str × Str)) (web : Nat) : Prop where
  props : d'.customItemProps = d.customItemProps ++ (new.map Prod.fst).toList
  items : ∃ xs, d'.customItems = d.customItems ++ xs ∧
    List.Forall₂ (fun (i : Str × Str) x => xmlDocumentFromStr i.2 = some (.ok x)) new.toList xs
  count : d'.contentType.webExtensionCount = d.contentType.webExtensionCount + web
  keys : ∀ n, itemKey n ∈ d'.contentType.types.map Prod.fst ↔
    itemKey n ∈ d.contentType.types.map Prod.fst ∨ (new.isSome ∧ d.contentType.webExtensionCount = n + 1)

theorem ItemEffect.same {d d' : DocxFile} (h1 : d'.customItemProps = d.customItemProps) (h2 : d'.customItems = d.customItems)
    (h3 : d'.contentType = d.contentType) : ItemEffect d d' none 0 where
  props := by rw [h1]; simp
  items := ⟨[], by rw [h2]; simp, .nil⟩
  count := by rw [h3]; rfl
  keys n := by rw [h3]; simp

theorem keys_insert_ne {k v : Str} {l : List (Str × Str)} {n : Nat} (h : contentTypeOf k ≠ contentTypeOf (itemKey n)) :
    itemKey n ∈ (insertType k v l).map Prod.fst ↔ itemKey n ∈ l.map Prod.fst := by
  constructor
  · intro hm
    obtain ⟨x, hx, e⟩ := List.mem_map.1 hm
    rcases insertType_keys k v l x hx with rfl | hx
    · exact absurd (congrArg contentTypeOf e) h
    · exact e ▸ List.mem_map_of_mem hx
  · exact insertType_kept k v l _

theorem typeOf_itemKey (n : Nat) : contentTypeOf (itemKey n) =
    some c!"application/vnd.openxmlformats-officedocument.customXmlProperties+xml" := by
  unfold itemKey
  rw [List.append_assoc]
  exact typeOf_item _

theorem header_ne_item (n : Nat) (s : Str) : contentTypeOf (c!"/word/header" ++ s) ≠ contentTypeOf (itemKey n) := by
  rw [typeOf_itemKey, typeOf_header]
  decide
theorem footer_ne_item (n : Nat) (s : Str) : contentTypeOf (c!"/word/footer" ++ s) ≠ contentTypeOf (itemKey n) := by
  rw [typeOf_itemKey, typeOf_footer]
  decide
theorem web_ne_item (n : Nat) (s : Str) : contentTypeOf (c!"/word/webextensions/webextension" ++ s) ≠ contentTypeOf (itemKey n) := by
  rw [typeOf_itemKey, typeOf_web]
  decide

/-- Nothing about custom items changed. -/
structure NoItem (d d' : DocxFile) : Prop where
  props : d'.customItemProps = d.customItemProps
  items : d'.customItems = d.customItems
  count : d'.contentType.webExtensionCount = d.contentType.webExtensionCount
  keys : ∀ n, itemKey n ∈ d'.contentType.types.map Prod.fst ↔ itemKey n ∈ d.contentType.types.map Prod.fst

theorem NoItem.effect {d d' : DocxFile} (h : NoItem d d') : ItemEffect d d' none 0 where
  props := by rw [h.props]; simp
  items := ⟨[], by rw [h.items]; simp, .nil⟩
  count := h.count
  keys n := by rw [h.keys]; simp

theorem NoItem.countHeader {d d' : DocxFile} (h : NoItem d d') (x : Header) : NoItem d (d'.countHeader x) where
  props := h.props
  items := h.items
  count := h.count
  keys n := by
    rw [← h.keys n]
    refine keys_insert_ne ?_
    rw [List.append_assoc]
    exact header_ne_item n _
theorem NoItem.countFooter {d d' : DocxFile} (h : NoItem d d') (x : Header) : NoItem d (d'.countFooter x) where
  props := h.props
  items := h.items
  count := h.count
  keys n := by
    rw [← h.keys n]
    refine keys_insert_ne ?_
    rw [List.append_assoc]
    exact footer_ne_item n _

theorem NoItem.refl (d : DocxFile) : NoItem d d := ⟨rfl, rfl, rfl, fun _ => Iff.rfl⟩

/-- The custom item a call adds. -/
def newItem : Call → Option (Str × Str)
  | .addCustomItem i x => some (i, x)
  | _ => none
/-- The number of web extensions a call adds. -/
def newWeb : Call → Nat
  | .webExtension _ => 1
  | _ => 0

theorem call_items {d d' : DocxFile} {c : Call} (e : d.call c = some d') : ItemEffect d d' (newItem c) (newWeb c) := by
  have hh : ∀ x, NoItem d (d.countHeader x) := fun x => (NoItem.refl d).countHeader x
  have hf : ∀ x, NoItem d (d.countFooter x) := fun x => (NoItem.refl d).countFooter x
  cases c with
  | addSection s =>
    simp only [DocxFile.call, Option.some.injEq] at e
    rw [← e]
    have h1 : NoItem d (d.attachParts s).1 :=
      attachParts_inv (P := NoItem d) (fun _ _ h => h.countHeader _) (fun _ _ h => h.countFooter _) d s ⟨rfl, rfl, rfl, fun _ => Iff.rfl⟩
    exact NoItem.effect ⟨h1.props, h1.items, h1.count, h1.keys⟩
  | header x => simp only [DocxFile.call, Option.some.injEq] at e; rw [← e]; exact NoItem.effect ⟨rfl, rfl, rfl, (hh x).keys⟩
  | firstHeader x => simp only [DocxFile.call, Option.some.injEq] at e; rw [← e]; exact NoItem.effect ⟨rfl, rfl, rfl, (hh x).keys⟩
  | evenHeader x => simp only [DocxFile.call, Option.some.injEq] at e; rw [← e]; exact NoItem.effect ⟨rfl, rfl, rfl, (hh x).keys⟩
  | footer x => simp only [DocxFile.call, Option.some.injEq] at e; rw [← e]; exact NoItem.effect ⟨rfl, rfl, rfl, (hf x).keys⟩
  | firstFooter x => simp only [DocxFile.call, Option.some.injEq] at e; rw [← e]; exact NoItem.effect ⟨rfl, rfl, rfl, (hf x).keys⟩
  | evenFooter x => simp only [DocxFile.call, Option.some.injEq] at e; rw [← e]; exact NoItem.effect ⟨rfl, rfl, rfl, (hf x).keys⟩
  | taskpanes =>
    simp only [DocxFile.call, Option.some.injEq] at e
    rw [← e]
    refine NoItem.effect ⟨rfl, rfl, rfl, fun n => keys_insert_ne ?_⟩
    rw [typeOf_itemKey]
    decide
  | webExtension x =>
    simp only [DocxFile.call, Option.some.injEq] at e
    rw [← e]
    refine ⟨by simp [newItem, DocxFile.addWebExtension], ⟨[], by simp [DocxFile.addWebExtension], .nil⟩, rfl, fun n => ?_⟩
    have : itemKey n ∈ (d.addWebExtension x).contentType.types.map Prod.fst ↔ itemKey n ∈ d.contentType.types.map Prod.fst := by
      refine keys_insert_ne ?_
      rw [List.append_assoc]
      exact web_ne_item n _
    rw [this]
    simp [newItem]
  | addCustomItem i x =>
    simp only [DocxFile.call] at e
    split at e
    · rename_i y ey
      simp only [Option.some.injEq] at e
      rw [← e]
      refine ⟨rfl, ⟨[y], rfl, .cons ey .nil⟩, rfl, fun n => ?_⟩
      constructor
      · intro hm
        obtain ⟨z, hz, ez⟩ := List.mem_map.1 hm
        rcases insertType_keys _ _ _ z hz with rfl | hz
        · right
          refine ⟨rfl, ?_⟩
          exact dec_inj (List.append_cancel_left (List.append_cancel_right ez))
        · left
          exact ez ▸ List.mem_map_of_mem hz
      · rintro (h | ⟨_, h⟩)
        · exact insertType_kept _ _ _ _ h
        · unfold itemKey
          rw [← h]
          exact insertType_key _ _ _
    · exact absurd e (by simp)
  | _ =>
    simp only [DocxFile.call, Option.some.injEq] at e
    rw [← e]
    exact .same rfl rfl rfl

theorem extensionsBefore_cons (n : Nat) (c : Call) (cs : List Call) :
    extensionsBefore n (c :: cs) = ((newItem c).map fun _ => n).toList ++ extensionsBefore (n + newWeb c) cs := by
  cases c <;> rfl

theorem givenItems_cons (c : Call) (cs : List Call) : givenItems (c :: cs) = (newItem c).toList ++ givenItems cs := by
  unfold givenItems
  rw [List.filterMap_cons]
  cases c <;> rfl

/-- The custom items of a document. -/
structure ItemsAre (d d' : DocxFile) (cs : List Call) (w : Nat) : Prop where
  props : d'.customItemProps = d.customItemProps ++ (givenItems cs).map Prod.fst
  items : ∃ xs, d'.customItems = d.customItems ++ xs ∧
    List.Forall₂ (fun (i : Str × Str) x => xmlDocumentFromStr i.2 = some (.ok x)) (givenItems cs) xs
  keys : ∀ n, itemKey n ∈ d'.contentType.types.map Prod.fst ↔
    itemKey n ∈ d.contentType.types.map Prod.fst ∨ n ∈ extensionsBefore w cs

theorem calls_items : ∀ (cs : List Call) (d d' : DocxFile) (w : Nat), d.contentType.webExtensionCount = w + 1 → d.calls cs = some d' →
    ItemsAre d d' cs w
  | [], d, d', w, _, h => by
    simp only [DocxFile.calls, Option.some.injEq] at h
    rw [← h]
    exact ⟨by simp [givenItems], ⟨[], by simp, .nil⟩, fun n => by simp [extensionsBefore]⟩
  | c :: cs, d, d', w, hw, h => by
    obtain ⟨x, h1, h2⟩ := calls_cons h
    have e := call_items h1
    obtain ⟨p1, ⟨xs, i1, i2⟩, k1⟩ := calls_items cs x d' (w + newWeb c) (by rw [e.count, hw]; omega) h2
    obtain ⟨ys, j1, j2⟩ := e.items
    refine ⟨?_, ⟨ys ++ xs, ?_, ?_⟩, fun n => ?_⟩
    · rw [p1, e.props, givenItems_cons, List.map_append, List.append_assoc]
      cases newItem c <;> rfl
    · rw [i1, j1, List.append_assoc]
    · rw [givenItems_cons]
      exact List.rel_append j2 i2
    · rw [k1, e.keys, extensionsBefore_cons, List.mem_append, hw, or_assoc]
      refine or_congr Iff.rfl (or_congr ?_ Iff.rfl)
      cases newItem c with
      | none => simp
      | some v => simp; omega

theorem new_items (n : Nat) : itemKey n ∉ DocxFile.new.contentType.types.map Prod.fst := by
  intro h
  obtain ⟨x, hx, e⟩ := List.mem_map.1 h
  have h1 := typed_new.kinds x hx
  have h2 : ∀ s ∈ DocxFile.new.contentType.types.map Prod.fst, contentTypeOf s ≠
      some c!"application/vnd.openxmlformats-officedocument.customXmlProperties+xml" := by decide +kernel
  exact h2 _ h (typeOf_itemKey n)

theorem items_are {cs : List Call} {d : DocxFile} (h : DocxFile.new.calls cs = some d) :
    d.customItemProps = (givenItems cs).map Prod.fst ∧
    List.Forall₂ (fun (i : Str × Str) x => xmlDocumentFromStr i.2 = some (.ok x)) (givenItems cs) d.customItems ∧
    ∀ n, itemKey n ∈ d.contentType.types.map Prod.fst ↔ n ∈ extensionsBefore 0 cs := by
  obtain ⟨h1, ⟨xs, h2, h3⟩, h4⟩ := calls_items cs DocxFile.new d 0 rfl h
  refine ⟨h1, ?_, fun n => ?_⟩
  · have : d.customItems = xs := h2
    rw [this]
    exact h3
  · rw [h4]
    simp [new_items n]

end Docx
