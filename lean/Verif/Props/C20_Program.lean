import Verif.Props.C77_Program
import Verif.Props.C82_JsSetup
import Verif.Props.C84_JsToc
import Verif.Lemmas.JsNotes

/-!
# C20, C21, C22 and C49 for documents made in JavaScript

C20 fails for the Rust library where custom items meet footnotes. The JavaScript interface has no footnotes, so it holds there.
-/

namespace Docx.Props

open Docx Docx.Xml Docx.Spec

variable (lib : ImageLib)

/-! ## The content types of a document made in JavaScript -/

theorem bridge_typed {d d' : DocxFile} {c : BridgeCall} (h : Typed d ∧ Sound d) (e : c.run d = some d') (hq : quietBridge c = true) :
    Typed d' ∧ Sound d' := by
  refine ⟨?_, (bridge_kept hq e).sound h.2⟩
  cases c with
  | builder c => exact (typed_call d c d' h e).1
  | _ => cases e; exact typed_same h.1 rfl rfl

theorem bridges_typed : ∀ (cs : List BridgeCall) {d d' : DocxFile}, (∀ c ∈ cs, quietBridge c = true) → Typed d ∧ Sound d →
    bridgeCalls d cs = some d' → Typed d' ∧ Sound d'
  | [], d, d', _, h, e => by cases e; exact h
  | c :: cs, d, d', hq, h, e => by
    rw [bridgeCalls] at e
    cases e' : c.run d with
    | none => rw [e'] at e; cases e
    | some x =>
      rw [e'] at e
      exact bridges_typed cs (fun y hy => hq y (.tail _ hy)) (bridge_typed h e' (hq c (.head _))) e

theorem part_typed {g : DocxFile → Header → DocxFile} (f : Header → Call) (hg : ∀ d h, DocxFile.call d (f h) = some (g d h)) (x : Option JsPart)
    (d : DocxFile) (n : Ids) (h : Typed d ∧ Sound d) : Typed (jsPart lib g x d n).1 ∧ Sound (jsPart lib g x d n).1 := by
  cases x with
  | none => exact h
  | some p => exact typed_call _ _ _ h (hg _ _)

theorem file_typed {f : JsFile} {n m : Ids} {d : DocxFile} (h : f.build lib n = some (d, m)) : Typed d := by
  unfold JsFile.build at h
  dsimp only at h
  obtain ⟨d1, h1, h⟩ := Option.bind_eq_some_iff.1 h
  obtain ⟨d2, h2, h⟩ := Option.map_eq_some_iff.1 h
  simp only [Prod.mk.injEq] at h
  obtain ⟨rfl, -⟩ := h
  obtain ⟨l, hl⟩ := jsItems_calls lib f.docx.children DocxFile.new n
  have t1 := bridges_typed _ (before_quiet f) ⟨calls_typed hl, calls_sound hl⟩ h1
  refine typed_same (bridges_typed _ (after_quiet f) ?_ h2).1 rfl rfl
  unfold JsFile.parts
  exact part_typed lib .evenFooter (fun _ _ => rfl) _ _ _ (part_typed lib .firstFooter (fun _ _ => rfl) _ _ _ (part_typed lib .footer (fun _ _ => rfl) _ _ _
    (part_typed lib .evenHeader (fun _ _ => rfl) _ _ _ (part_typed lib .firstHeader (fun _ _ => rfl) _ _ _
      (part_typed lib .header (fun _ _ => rfl) _ _ _ t1)))))

/-! ## No footnotes -/

theorem file_footnotes {f : JsFile} {n m : Ids} {d : DocxFile} (hb : f.build lib n = some (d, m)) (ht : ∀ t ∈ jsTocs f.docx, TocNoteless t) :
    partFootnotes (walkDocument d.document) = [] := by
  have hd : ∀ (q : Place), q = .header ∨ q = .footer →
      Dead (fun w i => if inPart w then (Item.footnote? i).toList else []) (q :: [Place.document]) := by
    intro q hq a i
    have : inPart (a ++ q :: [Place.document]) = false := by
      rcases hq with rfl | rfl <;> simp [inPart]
    simp only [this, Bool.false_eq_true, if_false]
  rw [partFootnotes, within_pick, walkDocument, pick_append, walkSectionProperty_dead _ _ (hd _ (.inl rfl)) (hd _ (.inr rfl)), List.append_nil,
    (file_built lib hb).children]
  have h := jsItems_noteless lib f.docx.children DocxFile.new n f.docx.hasNumberings ht (fun _ hx => by cases hx)
  rw [pick, List.flatMap_eq_nil_iff]
  intro x hx
  obtain ⟨c, hc, hx⟩ := List.mem_flatMap.1 hx
  have := h c hc x hx
  cases hv : x.2 <;> rw [hv] at this <;> first | exact this.elim | (split <;> rfl)

theorem jsBlocks_noteless (w : List Place) : ∀ (bs : List JsBlock) (n : Ids), (∀ b ∈ bs, ∀ x ∈ JsBlock.inner b, TocNoteless x) →
    Noteless (walkBlocks w (jsBlocks lib bs n).1)
  | [], n, _ => by rw [jsBlocks, walkBlocks]; exact noteless_nil
  | b :: bs, n, h => by
    rw [jsBlocks, walkBlocks, noteless_append]
    refine ⟨?_, jsBlocks_noteless w bs _ fun b hb => h b (List.mem_cons_of_mem _ hb)⟩
    cases b with
    | paragraph p => exact jsParagraph_noteless lib w p n
    | table t => exact jsTable_noteless lib w t n (h (.table t) (List.mem_cons_self ..))

/-! ## C20 -/

/-- **C20.** The relationships of the main part of a document made in JavaScript have pairwise different ids, whatever methods are called, custom
items included; the tables of contents are without footnotes, as JavaScript makes them (`C20_toc`). -/
theorem C20_program (cs : List JsFileCall) (n m : Ids) (d : DocxFile) (env : Env) (w : World) (es : List Entry)
    (hb : (jsFileOf cs).build lib n = some (d, m)) (ht : ∀ t ∈ jsTocs (programBody cs), TocMade t ∧ TocNoteless t)
    (he : ∀ l, (env.links l).Perm l) (h : Packed env d w es) :
    ∃ rs, HasRelations es c!"word/_rels/document.xml.rels" rs ∧ (rs.map Relation.id).Nodup := by
  have k := file_built lib hb
  rw [← program_tocs] at ht
  obtain ⟨rs, h1, h2⟩ := sound_unique_iff k.sound he (file_made lib k fun t hx => (ht t hx).1) h
  exact ⟨rs, h1, h2.2 (.inr (file_footnotes lib hb fun t hx => (ht t hx).2))⟩

/-- **C20.** There is no part for footnotes to relate to, either. -/
theorem C20_program_footnotes (cs : List JsFileCall) (n m : Ids) (d : DocxFile) (hb : (jsFileOf cs).build lib n = some (d, m))
    (ht : ∀ t ∈ jsTocs (programBody cs), TocNoteless t) : partFootnotes (walkDocument d.document) = [] :=
  file_footnotes lib hb (by rwa [program_tocs])

theorem toc_inner_noteless : ∀ (calls : List JsTocCall) (t : JsToc), (∀ c ∈ calls, ∀ x ∈ JsTocCall.inner c, TocNoteless x) →
    (∀ b ∈ t.before ++ t.after, ∀ x ∈ JsBlock.inner b, TocNoteless x) →
    ∀ b ∈ (calls.foldl JsToc.call t).before ++ (calls.foldl JsToc.call t).after, ∀ x ∈ JsBlock.inner b, TocNoteless x
  | [], _, _, h => h
  | c :: cs, t, hc, h => by
    rw [List.foldl_cons]
    refine toc_inner_noteless cs _ (fun x hx => hc x (List.mem_cons_of_mem _ hx)) ?_
    have h0 := hc c (List.mem_cons_self ..)
    cases c with
    | addBeforeParagraph p =>
      intro b hb
      simp only [JsToc.call, List.mem_append, List.mem_singleton] at hb h
      rcases hb with (hb | hb) | hb
      all_goals first | exact h b (.inl hb) | exact h b (.inr hb) | (subst hb; intro x hx; cases hx)
    | addAfterParagraph p =>
      intro b hb
      simp only [JsToc.call, List.mem_append, List.mem_singleton] at hb h
      rcases hb with hb | hb | hb
      all_goals first | exact h b (.inl hb) | exact h b (.inr hb) | (subst hb; intro x hx; cases hx)
    | addBeforeTable p =>
      intro b hb
      simp only [JsToc.call, List.mem_append, List.mem_singleton] at hb h
      rcases hb with (hb | hb) | hb
      all_goals first | exact h b (.inl hb) | exact h b (.inr hb) | (subst hb; exact h0)
    | addAfterTable p =>
      intro b hb
      simp only [JsToc.call, List.mem_append, List.mem_singleton] at hb h
      rcases hb with hb | hb | hb
      all_goals first | exact h b (.inl hb) | exact h b (.inr hb) | (subst hb; exact h0)
    | _ => exact h

/-- **C20.** A table of contents made in JavaScript has no footnotes, if those in the tables around its entries have none. -/
theorem C20_toc (instr : Option Str) (calls : List JsTocCall) (n : Ids) (h : ∀ c ∈ calls, ∀ x ∈ JsTocCall.inner c, TocNoteless x) :
    TocNoteless (builtToc lib instr calls n) := by
  intro w
  have hi := toc_inner_noteless calls { instrText := instr } h (fun b hb => by cases hb)
  rw [builtToc, toc_set, walkToc]
  refine noteless_cons.2 ⟨trivial, noteless_append.2 ⟨?_, ?_⟩⟩
  · exact jsBlocks_noteless lib _ _ _ fun b hb => hi b (List.mem_append_left _ hb)
  · exact jsBlocks_noteless lib _ _ _ fun b hb => hi b (List.mem_append_right _ hb)

/-! ## C21 -/

/-- **C21, no duplicates.** Whatever methods are called in JavaScript: no part name has two `Override` elements, and every one gives the content type
of that kind of part. -/
theorem C21_program_distinct (cs : List JsFileCall) (n m : Ids) (d : DocxFile) (env : Env) (w : World) (es : List Entry)
    (hb : (jsFileOf cs).build lib n = some (d, m)) (h : Packed env d w es) :
    ∃ s, ⟨c!"[Content_Types].xml", .text s⟩ ∈ es ∧ ((overridesIn (readEvents s)).map Prod.fst).Nodup ∧
      ∀ x ∈ overridesIn (readEvents s), contentTypeOf x.1 = some x.2 :=
  sound_distinct (file_built lib hb).sound (file_typed lib hb) h

theorem program_panes (cs : List JsFileCall) {n m : Ids} {d : DocxFile} (hb : (jsFileOf cs).build lib n = some (d, m)) :
    d.webExtensions = [] ∨ d.taskpanes = true := by
  cases hp : cs.any asksTaskpanes with
  | true => exact .inr (C82_extensions_partial lib cs n m d hb hp).1
  | false => exact .inl (C82_fails_extensions lib cs n m d hb hp)

/-- The web extensions a program gives that arrive. -/
def extensionsKept (cs : List JsFileCall) : List WebExtension := if cs.any asksTaskpanes = true then cs.filterMap givesExtension else []

theorem program_web (cs : List JsFileCall) {n m : Ids} {d : DocxFile} (hb : (jsFileOf cs).build lib n = some (d, m)) :
    d.webExtensions = extensionsKept cs := by
  rw [web_arrived lib hb, panes_asked, web_given, extensionsKept]

theorem program_parts {f : JsFile} {n m : Ids} {d : DocxFile} {env : Env} {w : World} {es : List Entry} (hb : f.build lib n = some (d, m))
    (h : Packed env d w es) (side : Side) (i : Nat) (hi : i < Side.count side d) : HasFile es (partName (Side.kind side) (i + 1)) := by
  obtain ⟨hs, _, h2, h3⟩ := (file_built lib hb).parts side
  have hlt : i < (Side.own side d.document.sectionProperty).length := by
    unfold Side.own
    rw [h2, ridden_length, ← h3]
    exact hi
  have : (Side.all side d.document)[i]? = some (Side.own side d.document.sectionProperty)[i] := by
    rw [Side.all_eq, List.getElem?_append_left hlt, List.getElem?_eq_getElem hlt]
  obtain ⟨_, _, _, _, _, _, h4⟩ := packed_part h this
  exact ⟨_, h4, by simp⟩

/-- **C21.** Every `Override` names an entry of the package, however often headers and footers are set and whether or not the pane for web extensions
is asked for, when there are more custom items than web extensions or none. Missing: the other programs, as in `C21_fails_item`. -/
theorem C21_program_exist_partial (cs : List JsFileCall) (n m : Ids) (d : DocxFile) (env : Env) (w : World) (es : List Entry)
    (hb : (jsFileOf cs).build lib n = some (d, m)) (h : Packed env d w es)
    (hi : cs.filterMap givesItem = [] ∨ (extensionsKept cs).length < (cs.filterMap givesItem).length) :
    ∃ s, ⟨c!"[Content_Types].xml", .text s⟩ ∈ es ∧ ∀ x ∈ overridesIn (readEvents s), ∃ n, x.1 = '/' :: n ∧ HasFile es n := by
  refine sound_exist (file_built lib hb).sound (file_typed lib hb) (program_parts lib hb h) h (program_panes lib cs hb) ?_
  have hl := (C82_items lib cs n m d hb).2.length_eq
  rw [program_web lib cs hb]
  rcases hi with hi | hi
  · left
    rw [hi] at hl
    exact List.length_eq_zero_iff.1 hl.symm
  · right
    omega

/-! ## C49 -/

theorem count_slots {f : JsFile} {n m : Ids} {d : DocxFile} (hb : f.build lib n = some (d, m)) (side : Side) :
    Side.count side d = ((Side.slots side f).filterMap id).length := by
  obtain ⟨hs, h1, h2, h3⟩ := (file_built lib hb).parts side
  rw [h3]
  generalize Side.slots side f = l at h1
  clear h2 h3
  induction h1 with
  | nil => rfl
  | cons h _ ih => cases h <;> simpa using ih

/-- **C49.** The main parts, every header and footer that was given and not replaced, and the web extensions have an `Override` with the content type of
their kind. -/
theorem C49_program (cs : List JsFileCall) (n m : Ids) (d : DocxFile) (env : Env) (w : World) (es : List Entry)
    (hb : (jsFileOf cs).build lib n = some (d, m)) (h : Packed env d w es) :
    ∃ s, ⟨c!"[Content_Types].xml", .text s⟩ ∈ es ∧
      ∀ name, (name ∈ mainParts ∨ (∃ n < ((Side.header.lastGiven cs).filterMap id).length, name = c!"/word/header" ++ dec (n + 1) ++ c!".xml")
        ∨ (∃ n < ((Side.footer.lastGiven cs).filterMap id).length, name = c!"/word/footer" ++ dec (n + 1) ++ c!".xml")
        ∨ (cs.any asksTaskpanes = true ∧ name = c!"/word/webextensions/taskpanes.xml")
        ∨ (∃ n < (extensionsKept cs).length, name = c!"/word/webextensions/webextension" ++ dec (n + 1) ++ c!".xml")) →
      ∃ t, contentTypeOf name = some t ∧ (name, t) ∈ overridesIn (readEvents s) := by
  obtain ⟨s, h1, h2⟩ := sound_typed (file_built lib hb).sound (file_typed lib hb) h
  refine ⟨s, h1, fun name hn => h2 name ?_⟩
  rw [count_slots lib hb, count_slots lib hb, slots_last, slots_last, program_web lib cs hb]
  rcases hn with hn | hn | hn | hn | hn
  · exact .inl hn
  · exact .inr (.inl hn)
  · exact .inr (.inr (.inl hn))
  · exact .inr (.inr (.inr (.inr (.inl ⟨(C82_extensions_partial lib cs n m d hb hn.1).1, hn.2⟩))))
  · exact .inr (.inr (.inr (.inr (.inr hn))))

/-! ## C22 -/

/-- **C22.** The custom item a program gave as number `j` (from 0) is written, related and has its properties, as in `C22_items_partial`, which says
what is missing; nothing is said here of the content type of its properties. -/
theorem C22_program_partial (cs : List JsFileCall) (n m : Ids) (d : DocxFile) (env : Env) (w : World) (es : List Entry)
    (hb : (jsFileOf cs).build lib n = some (d, m)) (ht : ∀ t ∈ jsTocs (programBody cs), TocMade t) (he : ∀ l, (env.links l).Perm l)
    (h : Packed env d w es) (j : Nat) (id xml : Str) (hj : (cs.filterMap givesItem)[j]? = some (id, xml)) :
    (∃ x, xmlDocumentFromStr xml = some (.ok x) ∧ ⟨c!"customXml/item" ++ dec (j + 1) ++ c!".xml", .text (formatAll x)⟩ ∈ es) ∧
    (∃ rs, HasRelations es c!"word/_rels/document.xml.rels" rs ∧
      ⟨c!"rId" ++ dec (j + 8), c!"http://schemas.openxmlformats.org/officeDocument/2006/relationships/customXml",
        c!"../customXml/item" ++ dec (j + 1) ++ c!".xml", none⟩ ∈ rs) ∧
    (Stored id → ∃ s, ⟨c!"customXml/itemProps" ++ dec (j + 1) ++ c!".xml", .text s⟩ ∈ es ∧
      eventAttrs ⟨some c!"ds", c!"datastoreItem"⟩ ⟨some c!"ds", c!"itemID"⟩ (readEvents s) = (decodeAttr (c!"{" ++ id ++ c!"}")).toList) ∧
    HasRelations es (c!"customXml/_rels/item" ++ dec (j + 1) ++ c!".xml.rels")
      [⟨c!"rId1", c!"http://schemas.openxmlformats.org/officeDocument/2006/relationships/customXmlProps", c!"itemProps1.xml", none⟩] := by
  have k := file_built lib hb
  obtain ⟨i1, i2⟩ := C82_items lib cs n m d hb
  have hlt : j < (cs.filterMap givesItem).length := (List.getElem?_eq_some_iff.1 hj).1
  have hjd : j < d.customItems.length := i2.length_eq ▸ hlt
  have hpars : xmlDocumentFromStr xml = some (.ok d.customItems[j]) := by
    have := List.Forall₂.get i2 hlt hjd
    have e : (cs.filterMap givesItem).get ⟨j, hlt⟩ = (id, xml) := (List.getElem?_eq_some_iff.1 hj).2
    rw [e] at this
    exact this
  have hid : d.customItemProps[j]? = some id := by
    rw [i1, List.getElem?_map, hj]
    rfl
  obtain ⟨k1, k2⟩ := sound_item k.sound he (file_made lib k (by rwa [program_tocs])) h hjd hid
  exact ⟨⟨_, hpars, k1⟩, k2⟩

/-! ## Example -/

/-- A header set twice, the pane with a web extension, two custom items and a table of contents. -/
def jsPacked : List JsFileCall :=
  [.header (jsTitle c!"old"), .header (jsTitle c!"front"), .taskpanes, .webExtension { id := c!"e", referenceId := c!"r", version := c!"1", store := c!"s", storeType := c!"t" },
   .addCustomItem c!"a" c!"<a/>", .addCustomItem c!"b" c!"<b/>", .add (.toc (builtToc sampleLib none [] ⟨1, 1, 1⟩))]

theorem packs_soundly {d : DocxFile} (hs : Sound d) (h : writableB d = true) : ∃ es, Packed anEnv d {} es := by
  obtain ⟨es, w', e⟩ := writable_packs anEnv _ {} (writableB_spec h) (by simp [hs.crels]) (by simp [hs.props])
  exact ⟨es, .inl ⟨w', e⟩⟩

example : ∃ d m es, (jsFileOf jsPacked).build sampleLib ⟨1, 1, 1⟩ = some (d, m) ∧ Packed anEnv d {} es ∧ (∀ l, (anEnv.links l).Perm l) ∧
    (∀ t ∈ jsTocs (programBody jsPacked), TocMade t ∧ TocNoteless t) ∧ (extensionsKept jsPacked).length < (jsPacked.filterMap givesItem).length ∧
    jsPacked.any asksTaskpanes = true ∧ (jsPacked.filterMap givesItem)[1]? = some (c!"b", c!"<b/>") ∧ ((Side.header.lastGiven jsPacked).filterMap id).length = 1 := by
  obtain ⟨x, h, hx⟩ := of_ready (p := fun x : DocxFile × Ids => writableB x.1)
    (o := (jsFileOf jsPacked).build sampleLib ⟨1, 1, 1⟩) (by decide +kernel)
  obtain ⟨es, hp⟩ := packs_soundly (file_built sampleLib h).sound hx
  refine ⟨x.1, x.2, es, h, hp, fun _ => List.Perm.refl _, fun t ht => ?_, by decide +kernel, rfl, rfl, rfl⟩
  have ht : t ∈ [builtToc sampleLib none [] ⟨1, 1, 1⟩] := ht
  rw [List.mem_singleton.1 ht]
  exact ⟨C84_made sampleLib _ _ _ (fun _ h => by cases h), C20_toc sampleLib _ _ _ (fun _ h => by cases h)⟩

end Docx.Props
