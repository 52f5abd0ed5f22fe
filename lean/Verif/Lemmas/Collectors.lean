import Verif.Lemmas.Names
import Verif.Spec.Anchors
import Verif.Lemmas.Reading

/-!
# The collectors used by the properties
-/

namespace Docx

set_option linter.unusedSimpArgs false

open Docx.Spec

/-- A collector for a name that only run content writes. -/
theorem Gathers.ofRunContent {α} {R : List α → List α → Prop} {name : Str}
    {own : Str → List (Str × Str) → List Node → List α} {item : Item → List α}
    (nil : R [] []) (append : ∀ {a b c d}, R a b → R c d → R (a ++ c) (b ++ d))
    (h : OnName name own) (hname : name ∈ Docx.contentNames)
    (hs : name ∉ [c!"w:r", c!"w:commentRangeStart", c!"w:commentRangeEnd", c!"w:commentReference",
      c!"w:bookmarkStart", c!"w:bookmarkEnd", c!"w:hyperlink", c!"w:sdt", c!"w:sdtContent", c!"w:p", c!"w:tbl",
      c!"w:tr", c!"w:tc"])
    (hi : (∀ r, item (.run r) = []) ∧ (∀ i c, item (.comment i c) = []) ∧ (∀ x, item (.hyperlink x) = []) ∧
      (∀ x, item (.sdt x) = []) ∧ (∀ x, item (.paragraph x) = []) ∧ (∀ x, item (.table x) = []) ∧
      (∀ x, item (.toc x) = []) ∧ (∀ x, item (.cell x) = []))
    (runChild : ∀ (c : RunChild) g f g', c.nodes g = some (f, g') → R (c.items.flatMap item) (collectForest own f))
    (gen : ∀ c, Generated c → ∀ g f g', c.nodes g = some (f, g') → R [] (collectForest own f)) :
    Gathers own item R := by
  simp only [List.mem_cons, List.not_mem_nil, or_false, not_or] at hs
  obtain ⟨h1, h2, h3, h4, h5, h6, h7, h8, h9, h10, h11, h12, h13⟩ := hs
  obtain ⟨i1, i2, i3, i4, i5, i6, i7, i8⟩ := hi
  constructor
  case nil => exact nil
  case append => exact append
  case quiet => exact h.quiet hname
  case runChild => exact runChild
  case gen => exact gen
  case commentEnd =>
    intro i
    simp only [commentEndNodes, leafN, collectForest_append, collectForest, Node.collect]
    simp only [h _ _ _ (Ne.symm h1), h _ _ _ (Ne.symm h3), h _ _ _ (Ne.symm h4),
      h.quiet hname c!"w:rPr" _ _ (by decide), List.append_nil]
    exact nil
  case run => intro r cs; rw [i1, h _ _ _ (Ne.symm h1)]; exact nil
  case runGen => intro cs; rw [h _ _ _ (Ne.symm h1)]; exact nil
  case commentStart => intro i c; rw [i2, h _ _ _ (Ne.symm h2)]; exact nil
  case bookmarkStart => intro i c; rw [h _ _ _ (Ne.symm h5)]; exact nil
  case bookmarkEnd => intro i; rw [h _ _ _ (Ne.symm h6)]; exact nil
  case hyperlink => intro i cs; rw [i3, h _ _ _ (Ne.symm h7)]; exact nil
  case hyperlinkGen => intro i cs; rw [h _ _ _ (Ne.symm h7)]; exact nil
  case sdt => intro i cs; rw [i4, h _ _ _ (Ne.symm h8)]; exact nil
  case sdtGen => intro cs; rw [h _ _ _ (Ne.symm h8)]; exact nil
  case sdtContent => intro cs; rw [h _ _ _ (Ne.symm h9)]; exact nil
  case paragraph => intro i cs; rw [i5, h _ _ _ (Ne.symm h10)]; exact nil
  case paragraphGen => intro i cs; rw [h _ _ _ (Ne.symm h10)]; exact nil
  case table => intro i cs; rw [i6, h _ _ _ (Ne.symm h11)]; exact nil
  case row => intro cs; rw [h _ _ _ (Ne.symm h12)]; exact nil
  case cell => intro c g cs g' e; rw [i8, h _ _ _ (Ne.symm h13)]; exact nil
  case toc => intro i; rw [i7]; exact nil

theorem eqAppend {α} {a b c d : List α} (h1 : a = b) (h2 : c = d) : a ++ c = b ++ d := by rw [h1, h2]
theorem subAppend {α} {a b c d : List α} (h1 : a.Sublist b) (h2 : c.Sublist d) : (a ++ c).Sublist (b ++ d) :=
  h1.append h2

/-- The texts, in order. Page numbers and entries of tables of contents add their own. -/
theorem gathers_text : Gathers (textIn c!"w:t") Item.text List.Sublist := by
  refine .ofRunContent (List.Sublist.refl _) subAppend (textIn_onName _) (by decide) (by decide)
    ⟨fun _ => rfl, fun _ _ => rfl, fun _ => rfl, fun _ => rfl, fun _ => rfl, fun _ => rfl, fun _ => rfl, fun _ => rfl⟩ ?_
    (fun _ _ _ _ _ _ => List.nil_sublist _)
  intro c g f g' e
  by_cases hc : ∃ t, c = .text t
  · obtain ⟨t, rfl⟩ := hc
    simp only [RunChild.nodes, emitN, Option.some.injEq, Prod.mk.injEq] at e
    rw [← e.1]
    simp only [RunChild.items, List.flatMap_cons, List.flatMap_nil, List.append_nil, Item.text, collectForest,
      Node.collect, textIn, if_true, plainText]
    cases decodeText t <;> simp
  · have : c.items.flatMap Item.text = [] := by
      cases c with
      | text t => exact absurd ⟨t, rfl⟩ hc
      | _ => rfl
    rw [this]; exact List.nil_sublist _

/-- The deleted texts, in order. -/
theorem gathers_deletedText : Gathers (textIn c!"w:delText") Item.deletedText Eq := by
  refine .ofRunContent rfl eqAppend (textIn_onName _) (by decide) (by decide)
    ⟨fun _ => rfl, fun _ _ => rfl, fun _ => rfl, fun _ => rfl, fun _ => rfl, fun _ => rfl, fun _ => rfl, fun _ => rfl⟩ ?_ ?_
  · intro c g f g' e
    cases c with
    | deleteText t =>
      simp only [RunChild.nodes, emitN, Option.some.injEq, Prod.mk.injEq] at e
      rw [← e.1]
      simp only [RunChild.items, List.flatMap_cons, List.flatMap_nil, List.append_nil, Item.deletedText, collectForest,
        Node.collect, textIn, if_true, plainText]
      cases decodeText t <;> simp
    | _ => exact (RunChild.collect_nil (textIn_onName _) (by decide) _ (by simp only [RunChild.contentNames]; decide) _ _ _ e).symm
  · intro c hc g f g' e
    cases hc <;>
    exact (RunChild.collect_nil (textIn_onName _) (by decide) _ (by simp only [RunChild.contentNames]; decide) _ _ _ e).symm

/-- The values of an attribute as written. -/
def rawAttrIn (name attr : Str) : Str → List (Str × Str) → List Node → List Str :=
  fun n as _ => if n = name then (as.filter fun a => decide (a.1 = attr)).map Prod.snd else []

theorem attrIn_raw (name attr n as cs) :
    attrIn name attr n as cs = (rawAttrIn name attr n as cs).filterMap decodeAttr := by
  simp only [attrIn, rawAttrIn]
  split
  · simp [List.filterMap_map, Function.comp_def]
  · rfl

mutual
theorem Node.collect_attr (name attr : Str) : (x : Node) →
    x.collect (attrIn name attr) = (x.collect (rawAttrIn name attr)).filterMap decodeAttr
  | .text s => rfl
  | .elem n as cs => by
    simp only [Node.collect, List.filterMap_append, attrIn_raw, collectForest_attr name attr cs]
theorem collectForest_attr (name attr : Str) : (f : List Node) →
    collectForest (attrIn name attr) f = (collectForest (rawAttrIn name attr) f).filterMap decodeAttr
  | [] => rfl
  | x :: f => by
    simp only [collectForest, List.filterMap_append, Node.collect_attr name attr x, collectForest_attr name attr f]
end

theorem filterMap_decode (s : Str) : List.filterMap decodeAttr [s] = (decodeAttr s).toList := by
  simp only [List.filterMap_cons, List.filterMap_nil]
  cases decodeAttr s <;> rfl

theorem drawing_blip (p : Pic) :
    collectForest (attrIn c!"a:blip" c!"r:embed") (drawingNodes p) = (decodeAttr p.id).toList := by
  rw [collectForest_attr, ← filterMap_decode]
  congr 1
  obtain ⟨id, image, sz, pt, sp, spx, spy, lic, rh, ao, ph, pv, rfh, rfv, dt, db, dl, dr, rot⟩ := p
  cases pt
  · cases ao <;> cases ph <;> cases pv <;> rfl
  · cases ao <;> rfl

theorem rawAttrIn_onName (name attr : Str) : OnName name (rawAttrIn name attr) :=
  fun n _ _ hn => by simp only [rawAttrIn, if_neg hn]

/-- The relationship id of a picture, as stored. -/
def Item.pictureRaw : Item → List Str
  | .picture p => [p.id]
  | _ => []

/-- The relationship ids of the pictures, as written, in order. -/
theorem gathers_pictureRaw : Gathers (rawAttrIn c!"a:blip" c!"r:embed") Item.pictureRaw Eq := by
  refine .ofRunContent rfl eqAppend (rawAttrIn_onName _ _) (by decide) (by decide)
    ⟨fun _ => rfl, fun _ _ => rfl, fun _ => rfl, fun _ => rfl, fun _ => rfl, fun _ => rfl, fun _ => rfl, fun _ => rfl⟩ ?_ ?_
  · intro c g f g' e
    cases c with
    | picture p =>
      simp only [RunChild.nodes, emitN, Option.some.injEq, Prod.mk.injEq] at e
      rw [← e.1]
      obtain ⟨id, image, sz, pt, sp, spx, spy, lic, rh, ao, ph, pv, rfh, rfv, dt, db, dl, dr, rot⟩ := p
      cases pt
      · cases ao <;> cases ph <;> cases pv <;> rfl
      · cases ao <;> rfl
    | _ => exact (RunChild.collect_nil (rawAttrIn_onName _ _) (by decide) _ (by simp only [RunChild.contentNames]; decide) _ _ _ e).symm
  · intro c hc g f g' e
    cases hc <;>
    exact (RunChild.collect_nil (rawAttrIn_onName _ _) (by decide) _ (by simp only [RunChild.contentNames]; decide) _ _ _ e).symm

mutual
/-- Attributes of acceptable nodes can be read. -/
theorem Node.rawAttr_ok (name attr : Str) : (x : Node) → OkF [x] → ∀ s ∈ x.collect (rawAttrIn name attr),
    (decodeAttr s).isSome
  | .text s, _ => by simp [Node.collect]
  | .elem n as cs, h => by
    intro s hs
    simp only [Node.collect, List.mem_append] at hs
    rcases hs with hs | hs
    · have h1 := h (.opn n as) (by simp [tagsForest, Node.tags])
      simp only [rawAttrIn] at hs
      split at hs
      · obtain ⟨a, ha, rfl⟩ := List.mem_map.1 hs
        exact (h1.2 a (List.mem_filter.1 ha).1).2
      · simp at hs
    · exact collectForest_rawAttr_ok name attr cs (fun t ht => h t (by simp [tagsForest, Node.tags, ht])) s hs
/-- Attributes of acceptable nodes can be read. -/
theorem collectForest_rawAttr_ok (name attr : Str) : (f : List Node) → OkF f →
    ∀ s ∈ collectForest (rawAttrIn name attr) f, (decodeAttr s).isSome
  | [], _ => by simp [collectForest]
  | x :: f, h => by
    intro s hs
    simp only [collectForest, List.mem_append] at hs
    rcases hs with hs | hs
    · refine Node.rawAttr_ok name attr x (fun t ht => h t ?_) s hs
      simp only [tagsForest, List.append_nil] at ht
      simp [tagsForest, ht]
    · exact collectForest_rawAttr_ok name attr f (fun t ht => h t (by simp [tagsForest, ht])) s hs
end

theorem decodeAttr_dec (n : Nat) : decodeAttr (dec n) = some (dec n) :=
  decodeAttr_plain fun c hc => by
    have h' : ∀ c ∈ c!"0123456789", c ≠ '&' ∧ c ≠ '<' ∧ c ≠ '"' ∧ c ≠ '\r' ∧ c ≠ '\t' ∧ c ≠ '\n' := by decide
    exact h' c (dec_digits n c hc)

/-- The relationship ids of the pictures, in order. -/
theorem gathers_picture : Gathers (attrIn c!"a:blip" c!"r:embed") Item.pictureId Eq := by
  refine .ofRunContent rfl eqAppend (attrIn_onName _ _) (by decide) (by decide)
    ⟨fun _ => rfl, fun _ _ => rfl, fun _ => rfl, fun _ => rfl, fun _ => rfl, fun _ => rfl, fun _ => rfl, fun _ => rfl⟩ ?_ ?_
  · intro c g f g' e
    cases c with
    | picture p =>
      simp only [RunChild.nodes, emitN, Option.some.injEq, Prod.mk.injEq] at e
      rw [← e.1, drawing_blip]
      simp [RunChild.items, Item.pictureId]
    | _ => exact (RunChild.collect_nil (attrIn_onName _ _) (by decide) _ (by simp only [RunChild.contentNames]; decide) _ _ _ e).symm
  · intro c hc g f g' e
    cases hc <;>
    exact (RunChild.collect_nil (attrIn_onName _ _) (by decide) _ (by simp only [RunChild.contentNames]; decide) _ _ _ e).symm

theorem attrIn_dec (name attr : Str) (n : Nat) :
    attrIn name attr name [(attr, dec n)] [] = [dec n] := by
  simp only [attrIn, if_true, List.filter_cons, decide_true, List.filter_nil, List.filterMap_cons, List.filterMap_nil]
  rw [decodeAttr_dec]

/-- The ids of the footnote references, in order. -/
theorem gathers_footnote : Gathers (attrIn c!"w:footnoteReference" c!"w:id") Item.footnoteId Eq := by
  refine .ofRunContent rfl eqAppend (attrIn_onName _ _) (by decide) (by decide)
    ⟨fun _ => rfl, fun _ _ => rfl, fun _ => rfl, fun _ => rfl, fun _ => rfl, fun _ => rfl, fun _ => rfl, fun _ => rfl⟩ ?_ ?_
  · intro c g f g' e
    cases c with
    | footnoteReference i s ps =>
      simp only [RunChild.nodes, emitN, Option.some.injEq, Prod.mk.injEq] at e
      rw [← e.1]
      simp only [leafN, collectForest, Node.collect, attrIn_dec]
      rfl
    | _ => exact (RunChild.collect_nil (attrIn_onName _ _) (by decide) _ (by simp only [RunChild.contentNames]; decide) _ _ _ e).symm
  · intro c hc g f g' e
    cases hc <;>
    exact (RunChild.collect_nil (attrIn_onName _ _) (by decide) _ (by simp only [RunChild.contentNames]; decide) _ _ _ e).symm

/-- No `w:footnote` in running text. -/
theorem gathers_footnoteElem : Gathers (attrIn c!"w:footnote" c!"w:id") (fun _ => []) Eq := by
  refine .ofRunContent rfl eqAppend (attrIn_onName _ _) (by decide) (by decide)
    ⟨fun _ => rfl, fun _ _ => rfl, fun _ => rfl, fun _ => rfl, fun _ => rfl, fun _ => rfl, fun _ => rfl, fun _ => rfl⟩ ?_ ?_
  · intro c g f g' e
    have h0 : ∀ l : List Item, l.flatMap (fun _ => ([] : List Str)) = [] := by intro l; induction l <;> simp_all
    rw [h0]
    cases c <;> exact (RunChild.collect_nil (attrIn_onName _ _) (by decide) _ (by simp only [RunChild.contentNames]; decide) _ _ _ e).symm
  · intro c hc g f g' e
    cases hc <;>
    exact (RunChild.collect_nil (attrIn_onName _ _) (by decide) _ (by simp only [RunChild.contentNames]; decide) _ _ _ e).symm

/-- No `w:comment` in running text. -/
theorem gathers_commentElem : Gathers (attrIn c!"w:comment" c!"w:id") (fun _ => []) Eq := by
  refine .ofRunContent rfl eqAppend (attrIn_onName _ _) (by decide) (by decide)
    ⟨fun _ => rfl, fun _ _ => rfl, fun _ => rfl, fun _ => rfl, fun _ => rfl, fun _ => rfl, fun _ => rfl, fun _ => rfl⟩ ?_ ?_
  · intro c g f g' e
    have h0 : ∀ l : List Item, l.flatMap (fun _ => ([] : List Str)) = [] := by intro l; induction l <;> simp_all
    rw [h0]
    cases c <;> exact (RunChild.collect_nil (attrIn_onName _ _) (by decide) _ (by simp only [RunChild.contentNames]; decide) _ _ _ e).symm
  · intro c hc g f g' e
    cases hc <;>
    exact (RunChild.collect_nil (attrIn_onName _ _) (by decide) _ (by simp only [RunChild.contentNames]; decide) _ _ _ e).symm

/-- The ids of the starting comment ranges, in order. -/
theorem gathers_comment : Gathers (attrIn c!"w:commentRangeStart" c!"w:id") Item.commentId Eq where
  nil := rfl
  append := eqAppend
  quiet := (attrIn_onName _ _).quiet (by decide)
  run := fun _ _ => rfl
  runGen := fun _ => rfl
  runChild := by
    intro c g f g' e
    cases c with
    | commentStart i c =>
      simp only [RunChild.nodes, emitN, Option.some.injEq, Prod.mk.injEq] at e
      rw [← e.1]
      simp only [commentStartNodes, leafN, collectForest, Node.collect, attrIn_dec]
      rfl
    | _ => exact (RunChild.collect_nil (attrIn_onName _ _) (by decide) _ (by simp only [RunChild.contentNames]; decide) _ _ _ e).symm
  gen := by
    intro c hc g f g' e
    cases hc <;>
    exact (RunChild.collect_nil (attrIn_onName _ _) (by decide) _ (by simp only [RunChild.contentNames]; decide) _ _ _ e).symm
  commentStart := fun i c => by rw [attrIn_dec]; rfl
  commentEnd := fun _ => rfl
  bookmarkStart := fun _ _ => rfl
  bookmarkEnd := fun _ => rfl
  hyperlink := fun _ _ => rfl
  hyperlinkGen := fun _ _ => rfl
  sdt := fun _ _ => rfl
  sdtGen := fun _ => rfl
  sdtContent := fun _ => rfl
  paragraph := fun _ _ => rfl
  paragraphGen := fun _ _ => rfl
  table := fun _ _ => rfl
  row := fun _ => rfl
  cell := fun _ _ _ _ _ => rfl
  toc := fun _ => rfl

/-- The relationship ids of the external hyperlinks, in order. -/
theorem gathers_hyperlink : Gathers (attrIn c!"w:hyperlink" c!"r:id") Item.linkId Eq where
  nil := rfl
  append := eqAppend
  quiet := (attrIn_onName _ _).quiet (by decide)
  run := fun _ _ => rfl
  runGen := fun _ => rfl
  runChild := by
    intro c g f g' e
    cases c with
    | _ => exact (RunChild.collect_nil (attrIn_onName _ _) (by decide) _ (by simp only [RunChild.contentNames]; decide) _ _ _ e).symm
  gen := by
    intro c hc g f g' e
    cases hc <;>
    exact (RunChild.collect_nil (attrIn_onName _ _) (by decide) _ (by simp only [RunChild.contentNames]; decide) _ _ _ e).symm
  commentStart := fun _ _ => rfl
  commentEnd := fun _ => rfl
  bookmarkStart := fun _ _ => rfl
  bookmarkEnd := fun _ => rfl
  hyperlink := by
    intro h cs
    obtain ⟨l, hi, ch⟩ := h
    cases l with
    | anchor a => rfl
    | external rid p =>
      rw [attrIn_raw, Item.linkId, ← filterMap_decode]
      rfl
  hyperlinkGen := fun _ _ => rfl
  sdt := fun _ _ => rfl
  sdtGen := fun _ => rfl
  sdtContent := fun _ => rfl
  paragraph := fun _ _ => rfl
  paragraphGen := fun _ _ => rfl
  table := fun _ _ => rfl
  row := fun _ => rfl
  cell := fun _ _ _ _ _ => rfl
  toc := fun _ => rfl

/-- The ids of the paragraphs, in order. Paragraphs the writer adds have ids of their own. -/
theorem gathers_paragraph : Gathers (attrIn c!"w:p" c!"w14:paraId") Item.paragraphId List.Sublist where
  nil := List.nil_sublist _
  append := subAppend
  quiet := (attrIn_onName _ _).quiet (by decide)
  run := fun _ _ => List.nil_sublist _
  runGen := fun _ => List.nil_sublist _
  runChild := by
    intro c g f g' e
    cases c <;> exact List.nil_sublist _
  gen := fun _ _ _ _ _ _ => List.nil_sublist _
  commentStart := fun _ _ => List.nil_sublist _
  commentEnd := fun _ => List.nil_sublist _
  bookmarkStart := fun _ _ => List.nil_sublist _
  bookmarkEnd := fun _ => List.nil_sublist _
  hyperlink := fun _ _ => List.nil_sublist _
  hyperlinkGen := fun _ _ => List.nil_sublist _
  sdt := fun _ _ => List.nil_sublist _
  sdtGen := fun _ => List.nil_sublist _
  sdtContent := fun _ => List.nil_sublist _
  paragraph := by
    intro p cs
    rw [attrIn_raw, Item.paragraphId, ← filterMap_decode]
    exact List.Sublist.refl _
  paragraphGen := fun _ _ => List.nil_sublist _
  table := fun _ _ => List.nil_sublist _
  row := fun _ => List.nil_sublist _
  cell := fun _ _ _ _ _ => List.nil_sublist _
  toc := fun _ => List.nil_sublist _

end Docx
