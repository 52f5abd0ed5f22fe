import Verif.Lemmas.WrittenComplete
import Verif.Props.C63_Written

/-!
# C65: reading succeeds
-/

namespace Docx.Props

open Docx Docx.Spec Docx.Xml

/-- **C65.** If an archive meets the conditions of C63 and C64, and moreover the parts that are asked for are there, numbers are numbers
where the readers do not go on without, and bookmarks have ids and names, then reading gives a document. -/
theorem C65_succeeds (e : FileEnv) (es : List Entry) (h : Tidy es) (hh : Harmless e.x es) (hc : Complete e.x es) :
    ∃ k, ∀ n, k ≤ n → ∃ r, readDocx e n es = .ok r := by
  obtain ⟨k, hk⟩ := comes_docx e h
  refine ⟨k, fun n hn => ?_⟩
  have := hk n hn
  cases hr : readDocx e n es with
  | ok r => exact ⟨r, rfl⟩
  | err =>
    rw [hr] at this
    exact absurd hc this
  | panic =>
    rw [hr] at this
    exact absurd hh this
  | running =>
    rw [hr] at this
    exact this.elim

/-- **C65.** A package that was written can be read, whatever the document holds, if the strings that are not escaped can be copied into
XML, the numbers are not too large for the types they have, and no reader would panic or give up at the elements in its custom items. -/
theorem C65_written (cs : List Call) (d : DocxFile) (env : Env) (w : World) (es : List Entry) (e : FileEnv)
    (hc : DocxFile.new.calls cs = some d) (hl : ∀ l, (env.links l).Perm l) (hp : ∀ l, (env.props l).Perm l) (hm : Made d.document)
    (hm' : MadePictures d.document) (hs : AllCopied d)
    (hi : ∀ i ∈ d.customItems, Calm e.x (readEvents (formatAll i)) ∧ Sure e.x (readEvents (formatAll i)))
    (h : Packed env d w es) (hr : NumbersFit es) : ∃ k, ∀ n, k ≤ n → ∃ r, readDocx e n es = .ok r :=
  C65_succeeds e es (packed_tidy hc hl hp hm hm' hs h) (packed_harmless hc hl hp hm hm' hs (fun i h => (hi i h).1) h)
    (packed_complete hc hl hp hm hm' hs (fun i h => (hi i h).2) h hr)

/-! ## Without these conditions -/

/-- Whether reading gives an error. -/
def errs {α : Type} : Got α → Bool
  | .err => true
  | _ => false

/-- **C65.** Reading gives an error if there is no main document, no content types, or no part the main document refers to for styles, at the
width of a page that is not a number, and at a bookmark without a name. -/
theorem C65_errors :
    readDocx aReader 20 [⟨c!"[Content_Types].xml", .text c!"<Types/>"⟩, ⟨c!"_rels/.rels", .text c!"<Relationships/>"⟩,
      ⟨c!"word/_rels/document.xml.rels", .text c!"<Relationships/>"⟩] = .err ∧
    readDocx aReader 20 [⟨c!"_rels/.rels", .text c!"<Relationships/>"⟩] = .err ∧
    readDocx aReader 20 (smallArchive stylesRels c!"<w:document/>" []) = .err ∧
    readDocx aReader 20 (smallArchive c!"<Relationships/>"
      c!"<w:document><w:body><w:sectPr><w:pgSz w:w=\"wide\"/></w:sectPr></w:body></w:document>" []) = .err ∧
    readDocx aReader 20 (smallArchive c!"<Relationships/>"
      c!"<w:document><w:body><w:bookmarkStart w:id=\"1\"/></w:body></w:document>" []) = .err := by
  have key : ∀ g : Got ReadFile, errs g = true → g = .err := by
    intro g h
    cases g <;> first | rfl | cases h
  exact ⟨key _ (by decide +kernel), key _ (by decide +kernel), key _ (by decide +kernel), key _ (by decide +kernel), key _ (by decide +kernel)⟩

/-! ## Witness -/

def Need.inRangeB (k : Need) (v : Str) : Bool :=
  match k, natOf v with
  | .whole, some n => decide (n < 2 ^ 64)
  | .small, some n => decide (n < 2 ^ 32)
  | _, _ => true

theorem inRangeB_spec {k : Need} {v : Str} (h : Need.inRangeB k v = true) : k.inRange v := by
  cases k with
  | number => trivial
  | measure => trivial
  | whole =>
    rintro n rfl
    simpa [Need.inRangeB, natOf_dec] using h
  | small =>
    rintro n rfl
    simpa [Need.inRangeB, natOf_dec] using h

/-- Whether no number is too large, and which elements no reader gives up at because it needs nothing of them. -/
def rangeB : REvent → Bool
  | .start q as =>
    (as.all fun a => (needs (elementOf q.loc)).all fun n => decide (n.1 ≠ a.1.loc) || Need.inRangeB n.2 a.2) &&
    (match as.head?, needsFirst (elementOf q.loc) with
     | some a, some n => Need.inRangeB n a.2
     | _, _ => true)
  | _ => true

theorem rangeB_spec {e : REvent} (h : rangeB e = true) : InRange e := by
  cases e with
  | start q as =>
    simp only [rangeB, Bool.and_eq_true, List.all_eq_true, Bool.or_eq_true, decide_eq_true_eq] at h
    refine ⟨fun a ha n hn => ?_, fun a ha n hn => ?_⟩
    · rcases h.1 a ha _ hn with h' | h'
      · exact absurd rfl h'
      · exact inRangeB_spec h'
    · have h2 := h.2
      rw [Option.mem_def] at ha hn
      rw [ha, hn] at h2
      exact inRangeB_spec h2
  | _ => trivial

def tagFitB : Tag → Bool
  | .opn n as =>
    !heedName n || ((as.all fun a => (needs (elementOf (splitQName n).loc)).all fun k => decide (k.1 ≠ (splitQName a.1).loc) ||
      (decodeAttr a.2).all (Need.inRangeB k.2)) &&
    (match as with
     | [] => true
     | a :: _ => (needsFirst (elementOf (splitQName n).loc)).all fun k => (decodeAttr a.2).all (Need.inRangeB k)))
  | _ => true

/-- No number in the tree is too large. -/
def TreeFit (f : List Node) : Prop := ((tagsForest f).all tagFitB) = true

theorem tag_fit {n : Str} {as : List (Str × Str)} (h : tagFitB (.opn n as) = true) : InRange (.start (splitQName n) (expectAttrs as)) := by
  unfold tagFitB at h
  rw [Bool.or_eq_true] at h
  rcases h with h | h
  · simp only [heedName, Bool.not_eq_true', Bool.or_eq_false_iff, Bool.not_eq_false', List.isEmpty_iff, firstName, Option.isSome_eq_false_iff,
      Option.isNone_iff_eq_none] at h
    refine ⟨fun a _ k hk => ?_, fun a _ k hk => ?_⟩
    · rw [h.1.1] at hk; cases hk
    · rw [h.1.2] at hk; cases hk
  · rw [Bool.and_eq_true] at h
    simp only [List.all_eq_true, Bool.or_eq_true, decide_eq_true_eq, Option.all_eq_true] at h
    refine ⟨fun b hb k hk => ?_, fun b hb k hk => ?_⟩
    · obtain ⟨a, ha, e1, e2⟩ := expectAttrs_from hb
      rw [e1] at hk
      rcases h.1 a ha _ hk with h' | h'
      · exact absurd rfl h'
      · exact inRangeB_spec (h' _ e2)
    · cases as with
      | nil => cases hb
      | cons a as =>
        unfold expectAttrs at hb
        split at hb
        · next v' hv =>
          cases hb
          have h2 := h.2
          simp only [Option.all_eq_true] at h2
          exact inRangeB_spec (h2 k hk _ hv)
        · cases hb

theorem expect_fit {ts : List Tag} {st : List Str} {acc : Option Str} (h : ts.all tagFitB = true) : ∀ e ∈ expect st acc ts, InRange e := by
  intro e he
  cases e with
  | start q as =>
    obtain ⟨n, as', h', rfl, rfl⟩ := expect_starts _ _ _ _ _ he
    exact tag_fit (List.all_eq_true.1 h _ h')
  | _ => trivial

theorem imageRels_fit (o : List (Str × Str)) : TreeFit (imageRelsN o) := by
  have h1 : heedName c!"Relationships" = false := by decide +kernel
  have h2 : heedName c!"Relationship" = false := by decide +kernel
  have h3 : ∀ l : List (Str × Str), (tagsForest (l.flatMap fun r => relationshipN r.1 (officeRel c!"image") r.2)).all tagFitB = true := by
    intro l
    induction l with
    | nil => rfl
    | cons r l ih =>
      rw [List.flatMap_cons, tagsForest_append, List.all_append, ih, Bool.and_true]
      simp only [relationshipN, leafN, tagsForest, Node.tags, List.append_nil, List.all_cons, List.all_nil, tagFitB, h2, Bool.not_false, Bool.true_or,
        Bool.and_true, List.nil_append]
  unfold TreeFit imageRelsN relationshipsN
  simp only [tagsForest, Node.tags, List.append_nil, List.all_cons, List.all_append, List.all_nil, tagFitB, h1, h3, Bool.not_false, Bool.true_or,
    Bool.and_true]

/-- The numbers of a written package fit, if those in its trees do. -/
theorem packed_fit {cs : List Call} {d : DocxFile} {env : Env} {w : World} {es : List Entry} (hc : DocxFile.new.calls cs = some d)
    (hl : ∀ l, (env.links l).Perm l) (hp : ∀ l, (env.props l).Perm l) (hm : Made d.document) (hm' : MadePictures d.document)
    (hs : AllCopied d) (h : Packed env d w es)
    (ht : TreesHave TreeFit (fun s => ∀ e ∈ readEvents s, InRange e) env (d.preparePackage env w).1) : NumbersFit es := by
  have hf := packed_fromTree hm' h (fun _ h => h.1) ((trees_ok hc hl hp hm hs h).and ht) (fun o ho => ⟨imageRels_accept o ho, imageRels_fit o⟩)
  intro e he s hs
  obtain ⟨t, ht, rfl⟩ := withoutBom_text hs
  rcases hf e he t ht with ⟨name, as, body, hg, hd, hh, _⟩ | ⟨_, _, hc⟩
  · rw [dropBom_opens hh, hd]
    exact expect_fit hg.2
  · rw [hc.1.2]
    exact hc.2

def fitB (f : List Node) : Bool := (tagsForest f).all tagFitB

def fitN (n : N) (g : Gen) : Bool :=
  match n g with
  | some (f, _) => fitB f
  | none => true

/-- All the numbers in the trees. -/
def treesFitB (q : DocxFile) (g : Gen) : Bool :=
  fitB q.contentType.nodes && fitB q.rels.nodes && fitB q.core.nodes && fitB (customPropsN q.custom) && fitB q.documentRels.nodes &&
  fitN q.document.nodes g && fitN q.styles.nodes g && fitB q.settings.nodes && fitN (commentsN q.comments) g && fitN q.numberings.nodes g &&
  fitB (commentsExtendedN q.commentsExtended) && fitN (footnotesN q.footnotes) g && (q.document.headers.all fun h => fitN (h.nodes c!"w:hdr") g) &&
  (q.document.footers.all fun h => fitN (h.nodes c!"w:ftr") g) && fitB (taskpanesRelsN q.taskpanesRels) && (q.webExtensions.all fun e => fitB e.nodes) &&
  (q.customItemRels.all fun n => fitB (customItemRelsN n)) && (q.customItemProps.all fun i => fitB (customItemPropertyN i)) &&
  (q.customItems.all fun x => (readEvents (formatAll x)).all rangeB)

open Lean Elab Tactic Meta in
/-- `rfl`, checked by the kernel only. -/
elab "kernel_rfl" : tactic => do
  let g ← getMainGoal
  let t ← instantiateMVars (← g.getType)
  let some (ty, a, _) := t.eq? | throwError "no equation"
  let u ← getLevel ty
  g.assign (mkApp2 (mkConst ``Eq.refl [u]) ty a)

theorem many_fit (g : Gen) : (DocxFile.new.calls manyCalls).all (fun d => treesFitB (d.preparePackage anEnv {}).1 g) = true := by
  kernel_rfl

theorem fitN_spec {n : N} (h : ∀ g, fitN n g = true) : ∀ g f g', n g = some (f, g') → TreeFit f := by
  intro g f g' e
  have := h g
  unfold fitN at this
  rw [e] at this
  exact this

theorem trees_fit {q : DocxFile} (h : ∀ g, treesFitB q g = true) :
    TreesHave TreeFit (fun s => ∀ e ∈ readEvents s, InRange e) anEnv q := by
  simp only [treesFitB, Bool.and_eq_true, List.all_eq_true] at h
  have h0 := h {}
  exact {
    types := h0.1.1.1.1.1.1.1.1.1.1.1.1.1.1.1.1.1.1
    rels := h0.1.1.1.1.1.1.1.1.1.1.1.1.1.1.1.1.1.2
    app := by unfold TreeFit; decide +kernel
    core := h0.1.1.1.1.1.1.1.1.1.1.1.1.1.1.1.1.2
    custom := h0.1.1.1.1.1.1.1.1.1.1.1.1.1.1.1.2
    documentRels := h0.1.1.1.1.1.1.1.1.1.1.1.1.1.1.2
    document := fitN_spec fun g => (h g).1.1.1.1.1.1.1.1.1.1.1.1.1.2
    styles := fitN_spec fun g => (h g).1.1.1.1.1.1.1.1.1.1.1.1.2
    settings := h0.1.1.1.1.1.1.1.1.1.1.1.2
    fontTable := by unfold TreeFit; decide +kernel
    comments := fitN_spec fun g => (h g).1.1.1.1.1.1.1.1.1.1.2
    numbering := fitN_spec fun g => (h g).1.1.1.1.1.1.1.1.1.2
    commentsExtended := h0.1.1.1.1.1.1.1.1.2
    footnotes := fitN_spec fun g => (h g).1.1.1.1.1.1.1.2
    headers := fun x hx => fitN_spec fun g => (h g).1.1.1.1.1.1.2 x hx
    footers := fun x hx => fitN_spec fun g => (h g).1.1.1.1.1.2 x hx
    taskpanes := by unfold TreeFit; decide +kernel
    taskpanesRels := h0.1.1.1.1.2
    webExtensions := fun e he => h0.1.1.1.2 e he
    itemRels := fun n hn => h0.1.1.2 n hn
    itemProps := fun i hi => h0.1.2 i hi
    items := fun x hx e he => rangeB_spec (h0.2 x hx e he) }

theorem many_trees {d : DocxFile} (hd : DocxFile.new.calls manyCalls = some d) :
    TreesHave TreeFit (fun s => ∀ e ∈ readEvents s, InRange e) anEnv (d.preparePackage anEnv {}).1 :=
  trees_fit fun g => by
    have h := many_fit g
    rw [hd] at h
    exact h

/-- Elements that no reader needs anything of. -/
def needlessB : List REvent → Bool
  | [] => true
  | .start q _ :: es => (needs (elementOf q.loc)).isEmpty && (needsFirst (elementOf q.loc)).isNone &&
      decide (elementOf q.loc ≠ .bookmarkStart ∧ elementOf q.loc ≠ .bookmarkEnd) && needlessB es
  | _ :: es => needlessB es

theorem needlessB_spec (x : ReadEnv) : ∀ (es : List REvent), needlessB es = true → Sure x es
  | [], _ => fun _ h => (by cases h)
  | .start q as :: es, h => by
    simp only [needlessB, Bool.and_eq_true, decide_eq_true_eq, List.isEmpty_iff, Option.isNone_iff_eq_none] at h
    obtain ⟨⟨⟨h1, h2⟩, h3, h4⟩, h5⟩ := h
    intro e he
    rcases List.mem_cons.1 he with rfl | he
    · refine ⟨fun _ _ k hk => ?_, fun _ _ k hk => ?_, fun h => absurd h h3, fun h => absurd h h4⟩
      · rw [h1] at hk; cases hk
      · rw [h2] at hk; cases hk
    · exact needlessB_spec x es h5 e he
  | .«end» _ :: es, h | .chars _ :: es, h | .whitespace _ :: es, h | .endDocument :: es, h | .error :: es, h => by
    intro e he
    rcases List.mem_cons.1 he with rfl | he
    · trivial
    · exact needlessB_spec x es h e he

theorem many_items_sure : (DocxFile.new.calls manyCalls).all (fun d => d.customItems.all fun i => needlessB (readEvents (formatAll i))) = true := by
  decide +kernel

/-- The file of `many_meets` meets the hypotheses of `C65_written`. -/
example (e : FileEnv) : ∃ d es, DocxFile.new.calls manyCalls = some d ∧ Packed anEnv d {} es ∧ d.customItems.length = 1 ∧
    ∃ k, ∀ n, k ≤ n → ∃ r, readDocx e n es = .ok r := by
  obtain ⟨d, es, h1, hm, hm', hs, h, _, hi⟩ := many_meets
  have ha := many_items
  have hb := many_items_sure
  rw [h1] at ha hb
  have hl : ∀ l : List (Str × Str), (anEnv.links l).Perm l := fun _ => .refl _
  have hp : ∀ l : List (Str × Str), (anEnv.props l).Perm l := fun _ => .refl _
  exact ⟨d, es, h1, h, hi, C65_written manyCalls d anEnv {} es e h1 hl hp hm hm' hs
    (fun i hi => ⟨carelessB_spec _ _ (List.all_eq_true.1 ha i hi), needlessB_spec _ _ (List.all_eq_true.1 hb i hi)⟩) h
    (packed_fit h1 hl hp hm hm' hs h (many_trees h1))⟩

end Docx.Props
