import Verif.Lemmas.Package

/-!
# `Docx::build` followed by `XMLDocx::pack` makes the entries of `Docx::pack`
-/

namespace Docx

open Docx.Spec Docx.Xml Docx.Props

theorem buildPart_text {p : Part} {g g' : Gen} {s : Str} (h : buildPart p g = some (s, g')) : PartText p s := by
  unfold buildPart at h
  split at h
  · rename_i s' g1 e
    simp only [Option.some.injEq, Prod.mk.injEq] at h
    exact ⟨g, g1, by rw [e, h.1]⟩
  · exact absurd h (by simp)

theorem buildPart_writes {p : Part} (h : p.Writes) (g : Gen) : ∃ s g', buildPart p g = some (s, g') := by
  obtain ⟨s, g', e⟩ := h g
  exact ⟨s, g', by simp only [buildPart, e]⟩

theorem buildParts_text : ∀ (ps : List Part) (g g' : Gen) (l : List Str), buildParts ps g = some (l, g') →
    List.Forall₂ PartText ps l
  | [], g, g', l, h => by
    simp only [buildParts, Option.some.injEq, Prod.mk.injEq] at h
    rw [← h.1]; exact .nil
  | p :: ps, g, g', l, h => by
    simp only [buildParts] at h
    split at h
    · exact absurd h (by simp)
    · rename_i s g1 e
      split at h
      · exact absurd h (by simp)
      · rename_i l' g2 e'
        simp only [Option.some.injEq, Prod.mk.injEq] at h
        rw [← h.1]
        exact .cons (buildPart_text e) (buildParts_text ps _ _ _ e')

theorem buildParts_writes : ∀ (ps : List Part), (∀ p ∈ ps, Part.Writes p) → ∀ g, ∃ l g', buildParts ps g = some (l, g')
  | [], _, g => ⟨[], g, rfl⟩
  | p :: ps, h, g => by
    obtain ⟨s, g1, e⟩ := buildPart_writes (h p (by simp)) g
    obtain ⟨l, g2, e'⟩ := buildParts_writes ps (fun p hp => h p (by simp [hp])) g1
    exact ⟨s :: l, g2, by simp only [buildParts, e, e']⟩

theorem buildTaskpanes_text {b : Bool} {g g' : Gen} {o : Option Str} (h : buildTaskpanes b g = some (o, g')) :
    (b = false ∧ o = none) ∨ (b = true ∧ ∃ s, o = some s ∧ PartText taskpanesPart s) := by
  cases b with
  | false =>
    simp only [buildTaskpanes, Option.some.injEq, Prod.mk.injEq] at h
    exact .inl ⟨rfl, h.1.symm⟩
  | true =>
    simp only [buildTaskpanes, Option.map_eq_some_iff, Prod.mk.injEq] at h
    obtain ⟨⟨s, g1⟩, e, h1, _⟩ := h
    exact .inr ⟨rfl, s, h1.symm, buildPart_text e⟩

theorem forall₂_map_text {α : Type} {f : α → Part} {l : List α} {ts : List Str}
    (h : List.Forall₂ PartText (l.map f) ts) : List.Forall₂ (fun a s => PartText (f a) s) l ts := by
  rwa [List.forall₂_map_left_iff] at h

theorem zipWebExtensions_fits : ∀ (es : List WebExtension) (ts : List Str) (i : Nat),
    List.Forall₂ (fun e s => PartText (webExtensionPart e) s) es ts →
    List.Forall₂ ZipStep.Fits (webExtensionSteps i es) (zipWebExtensions i ts)
  | [], ts, i, h => by cases h; exact .nil
  | e :: es, t :: ts, i, .cons h hs => by
    obtain ⟨g, g', h⟩ := h
    exact .cons ⟨t, g, g', rfl, h⟩ (zipWebExtensions_fits es ts (i + 1) hs)

theorem forall₂_getElem? {α β : Type} {R : α → β → Prop} {l : List α} {m : List β} (h : List.Forall₂ R l m) {i : Nat} {b : β}
    (e : m[i]? = some b) : ∃ a, l[i]? = some a ∧ R a b := by
  induction h generalizing i with
  | nil => simp at e
  | @cons a b' l m hab _ ih =>
    cases i with
    | zero => simp only [List.getElem?_cons_zero, Option.some.injEq] at e; exact ⟨a, rfl, e ▸ hab⟩
    | succ i => simpa using ih (by simpa using e)

theorem zipCustomItems_fits (d : DocxFile) (x : XmlDocx)
    (hr : List.Forall₂ (fun n s => PartText (customItemRelsPart n) s) d.customItemRels x.customItemRels)
    (hp : List.Forall₂ (fun n s => PartText (customItemPropsPart n) s) d.customItemProps x.customItemProps) :
    ∀ (xs : List (List XmlData)) (ts : List Str) (i : Nat) (es : List Entry),
      List.Forall₂ (fun a s => PartText (customItemPart a) s) xs ts → zipCustomItems x i ts = some es →
      List.Forall₂ ZipStep.Fits (customItemSteps d i xs) es
  | [], ts, i, es, h, e => by
    cases h
    simp only [zipCustomItems, Option.some.injEq] at e
    rw [← e]; exact .nil
  | a :: xs, t :: ts, i, es, .cons ha has, e => by
    simp only [zipCustomItems, Option.bind_eq_bind, Option.bind_eq_some_iff, Option.pure_def, Option.some.injEq] at e
    obtain ⟨r, er, p, ep, l, el, rfl⟩ := e
    obtain ⟨n, en, hn⟩ := forall₂_getElem? hr er
    obtain ⟨m, em, hm⟩ := forall₂_getElem? hp ep
    obtain ⟨g1, g1', e1⟩ := hn
    obtain ⟨g2, g2', e2⟩ := hm
    obtain ⟨g3, g3', e3⟩ := ha
    simp only [customItemSteps, List.cons_append, List.nil_append]
    refine .cons ⟨r, g1, g1', rfl, ?_⟩ (.cons ⟨t, g3, g3', rfl, e3⟩ (.cons ⟨p, g2, g2', rfl, ?_⟩
      (zipCustomItems_fits d x hr hp xs ts (i + 1) l has el)))
    · simpa only [indexed, en] using e1
    · simpa only [indexed, em] using e2

/-- What `build` returns for the prepared document. -/
structure Built (env : Env) (d : DocxFile) (p : PackageMetadata) (x : XmlDocx) : Prop where
  contentType : PartText d.contentTypesPart x.contentType
  rels : PartText d.relsPart x.rels
  app : PartText appPart x.app
  core : PartText d.corePart x.core
  custom : PartText (d.customPart env) x.custom
  styles : PartText d.stylesPart x.styles
  document : PartText d.document.write x.document
  comments : PartText (writeComments d.comments) x.comments
  documentRels : PartText d.documentRelsPart x.documentRels
  settings : PartText d.settingsPart x.settings
  fontTable : PartText fontTablePart x.fontTable
  numberings : PartText d.numberingPart x.numberings
  commentsExtended : PartText d.commentsExtendedPart x.commentsExtended
  taskpanes : (d.taskpanes = false ∧ x.taskpanes = none) ∨ (d.taskpanes = true ∧ ∃ s, x.taskpanes = some s ∧ PartText taskpanesPart s)
  taskpanesRels : PartText d.taskpanesRelsPart x.taskpanesRels
  footnotes : PartText (writeFootnotes d.footnotes) x.footnotes
  media : x.media = p.media
  headers : List.Forall₂ (fun h s => PartText (Header.writeHeader h) s) d.document.headers x.headers
  footers : List.Forall₂ (fun h s => PartText (Header.writeFooter h) s) d.document.footers x.footers
  headerRels : ∃ g, buildSparse [] p.headerRels g = some (x.headerRels, g)
  footerRels : ∃ g, buildSparse [] p.footerRels g = some (x.footerRels, g)
  webExtensions : List.Forall₂ (fun e s => PartText (webExtensionPart e) s) d.webExtensions x.webExtensions
  customItems : List.Forall₂ (fun e s => PartText (customItemPart e) s) d.customItems x.customItems
  customItemRels : List.Forall₂ (fun e s => PartText (customItemRelsPart e) s) d.customItemRels x.customItemRels
  customItemProps : List.Forall₂ (fun e s => PartText (customItemPropsPart e) s) d.customItemProps x.customItemProps

theorem buildSparse_gen : ∀ (rs : List (Nat × List (Str × Str))) (parts : List Str) (g g' : Gen) (l : List Str),
    buildSparse parts rs g = some (l, g') → g' = g
  | [], parts, g, g', l, h => by
    simp only [buildSparse, Option.some.injEq, Prod.mk.injEq] at h
    exact h.2.symm
  | (i, r) :: rs, parts, g, g', l, h => by
    simp only [buildSparse, buildPart, imageRels_const r g] at h
    exact buildSparse_gen rs _ _ _ _ h

theorem build_built {env : Env} {d : DocxFile} {p : PackageMetadata} {l : BuiltLists} {x : XmlDocx} {g g1 g2 : Gen}
    (h1 : d.buildLists p g = some (l, g1)) (h2 : d.buildRest env p l g1 = some (x, g2)) : Built env d p x := by
  simp only [DocxFile.buildLists, Option.bind_eq_bind, Option.bind_eq_some_iff, Option.pure_def, Option.some.injEq,
    Prod.mk.injEq, Prod.exists] at h1
  obtain ⟨a1, b1, e1, a2, b2, e2, a3, b3, e3, a4, b4, e4, a5, b5, e5, a6, b6, e6, a7, b7, e7, a8, b8, e8, rfl, rfl⟩ := h1
  simp only [DocxFile.buildRest, Option.bind_eq_bind, Option.bind_eq_some_iff, Option.pure_def, Option.some.injEq,
    Prod.mk.injEq, Prod.exists] at h2
  obtain ⟨c1, d1, f1, c2, d2, f2, c3, d3, f3, c4, d4, f4, c5, d5, f5, c6, d6, f6, c7, d7, f7, c8, d8, f8, c9, d9, f9,
    c10, d10, f10, c11, d11, f11, c12, d12, f12, c13, d13, f13, c14, d14, f14, c15, d15, f15, c16, d16, f16, rfl, rfl⟩ := h2
  have k7 := buildSparse_gen _ _ _ _ _ e7
  have k8 := buildSparse_gen _ _ _ _ _ e8
  subst k7
  subst k8
  exact
    { contentType := buildPart_text f1, rels := buildPart_text f2, app := buildPart_text f3, core := buildPart_text f4,
      custom := buildPart_text f5, styles := buildPart_text f6, document := buildPart_text f7, comments := buildPart_text f8,
      documentRels := buildPart_text f9, settings := buildPart_text f10, fontTable := buildPart_text f11,
      numberings := buildPart_text f12, commentsExtended := buildPart_text f13, taskpanes := buildTaskpanes_text f14,
      taskpanesRels := buildPart_text f15, footnotes := buildPart_text f16, media := rfl,
      headers := forall₂_map_text (buildParts_text _ _ _ _ e5), footers := forall₂_map_text (buildParts_text _ _ _ _ e6),
      headerRels := ⟨_, e7⟩, footerRels := ⟨_, e8⟩,
      webExtensions := forall₂_map_text (buildParts_text _ _ _ _ e1), customItems := forall₂_map_text (buildParts_text _ _ _ _ e2),
      customItemProps := forall₂_map_text (buildParts_text _ _ _ _ e3), customItemRels := forall₂_map_text (buildParts_text _ _ _ _ e4) }

theorem PartText.fits {p : Part} {s n : Str} (h : PartText p s) : ZipStep.Fits (.write n p) ⟨n, .text s⟩ := by
  obtain ⟨g, g', e⟩ := h
  exact ⟨s, g, g', rfl, e⟩

/-- The relationships belong to the headers and footers of the document. -/
structure RelsFit (d : DocxFile) (p : PackageMetadata) : Prop where
  headers : ∃ out, p.headerRels = sparse out ∧ d.document.headers.length = out.length
  footers : ∃ out, p.footerRels = sparse out ∧ d.document.footers.length = out.length

theorem numbered_fits {kind : Str} {write : Header → Part} {hs : List Header} {rels : List (Nat × List (Str × Str))}
    {ts T : List Str} (hr : ∃ out, rels = sparse out ∧ hs.length = out.length)
    (ht : List.Forall₂ (fun h s => PartText (write h) s) hs ts) (hT : ∃ g, buildSparse [] rels g = some (T, g)) :
    List.Forall₂ ZipStep.Fits (partSteps kind write 0 hs rels) (zipParts kind T 0 ts) := by
  obtain ⟨out, rfl, hl⟩ := hr
  obtain ⟨g, hg⟩ := hT
  rw [sparse_eq] at hg ⊢
  obtain ⟨T', e, hT'⟩ := buildSparse_spec out 0 [] g (by simp)
  rw [e] at hg
  simp only [Option.some.injEq, Prod.mk.injEq, and_true] at hg
  subst hg
  rw [partSteps_eq kind write hs out 0 hl]
  refine zipParts_fits kind write T' hs out ts 0 hl ht fun k _ => ?_
  have := hT' k
  simpa using this

theorem pack_fits {env : Env} {d : DocxFile} {p : PackageMetadata} {x : XmlDocx} {es : List Entry} (hb : Built env d p x)
    (hr : RelsFit d p) (h : x.pack = some es) : List.Forall₂ ZipStep.Fits (zipDocxSteps env d p) es := by
  simp only [XmlDocx.pack, Option.bind_eq_bind, Option.bind_eq_some_iff, Option.pure_def, Option.some.injEq] at h
  obtain ⟨items, hi, rfl⟩ := h
  have hitems := zipCustomItems_fits d x hb.customItemRels hb.customItemProps _ _ 0 _ hb.customItems hi
  unfold zipDocxSteps
  refine List.rel_append (List.rel_append (List.rel_append (List.rel_append (List.rel_append (List.rel_append
    ?_ ?_) ?_) ?_) ?_) ?_) hitems
  · exact .cons rfl (.cons rfl (.cons rfl (.cons rfl (.cons hb.contentType.fits (.cons hb.rels.fits (.cons hb.app.fits
      (.cons hb.core.fits (.cons hb.custom.fits (.cons hb.documentRels.fits (.cons hb.document.fits (.cons hb.styles.fits
      (.cons hb.settings.fits (.cons hb.fontTable.fits (.cons hb.comments.fits (.cons hb.numberings.fits
      (.cons hb.commentsExtended.fits (.cons hb.footnotes.fits .nil)))))))))))))))))
  · exact numbered_fits hr.headers hb.headers hb.headerRels
  · exact numbered_fits hr.footers hb.footers hb.footerRels
  · rw [hb.media]
    split
    · exact .nil
    · refine .cons rfl ?_
      induction p.media with
      | nil => exact .nil
      | cons m ms ih => exact .cons rfl ih
  · unfold zipTaskpanes
    rcases hb.taskpanes with ⟨h1, h2⟩ | ⟨h1, s, h2, h3⟩
    · rw [h1, h2]; exact .nil
    · rw [h1, h2]
      simp only [if_true]
      refine List.rel_append ?_ (zipWebExtensions_fits _ _ 0 hb.webExtensions)
      exact .cons rfl (.cons h3.fits (.cons rfl (.cons hb.taskpanesRels.fits .nil)))
  · have : (x.customItems = []) ↔ (d.customItems = []) := by
      have := hb.customItems.length_eq
      rw [← List.length_eq_zero_iff, ← List.length_eq_zero_iff, this]
    by_cases h : d.customItems = []
    · rw [if_pos h, if_pos (this.2 h)]; exact .nil
    · rw [if_neg h, if_neg (fun h' => h (this.1 h'))]; exact .cons rfl .nil

theorem buildTaskpanes_writes (b : Bool) (g : Gen) : ∃ o g', buildTaskpanes b g = some (o, g') := by
  cases b with
  | false => exact ⟨none, g, rfl⟩
  | true =>
    obtain ⟨s, g', e⟩ := buildPart_writes taskpanes_const.writes g
    exact ⟨some s, g', by simp only [buildTaskpanes, e, Option.map_some]⟩

theorem buildSparse_writes : ∀ (rs : List (Nat × List (Str × Str))) (parts : List Str) (g : Gen),
    ∃ T, buildSparse parts rs g = some (T, g)
  | [], parts, g => ⟨parts, rfl⟩
  | (i, r) :: rs, parts, g => by
    simp only [buildSparse, buildPart, imageRels_const r g]
    exact buildSparse_writes rs _ g

theorem partSteps_parts (kind : Str) (write : Header → Part) : ∀ (hs : List Header) (i : Nat) (rs : List (Nat × List (Str × Str))),
    ∀ h ∈ hs, ∃ n, ZipStep.write n (write h) ∈ partSteps kind write i hs rs
  | [], i, rs, h, hh => by simp at hh
  | a :: hs, i, [], h, hh => by
    simp only [partSteps]
    rcases List.mem_cons.1 hh with rfl | hh
    · exact ⟨_, List.mem_cons_self⟩
    · obtain ⟨n, hn⟩ := partSteps_parts kind write hs (i + 1) [] h hh
      exact ⟨n, List.mem_cons_of_mem _ hn⟩
  | a :: hs, i, (j, r) :: rs, h, hh => by
    simp only [partSteps]
    rcases List.mem_cons.1 hh with rfl | hh
    · exact ⟨_, List.mem_cons_self⟩
    · split
      · obtain ⟨n, hn⟩ := partSteps_parts kind write hs (i + 1) rs h hh
        exact ⟨n, List.mem_cons_of_mem _ (List.mem_cons_of_mem _ hn)⟩
      · obtain ⟨n, hn⟩ := partSteps_parts kind write hs (i + 1) ((j, r) :: rs) h hh
        exact ⟨n, List.mem_cons_of_mem _ hn⟩

theorem indexed_writes {α : Type} {l : List α} {i : Nat} {f : α → Part} (h : (indexed l i f).Writes) : ∃ a, l[i]? = some a := by
  obtain ⟨s, g', e⟩ := h {}
  unfold indexed at e
  cases h : l[i]? with
  | none => rw [h] at e; exact absurd e (by simp)
  | some a => exact ⟨a, rfl⟩

theorem zipCustomItems_some (d : DocxFile) (x : XmlDocx) (hr : d.customItemRels.length = x.customItemRels.length)
    (hp : d.customItemProps.length = x.customItemProps.length) : ∀ (xs : List (List XmlData)) (ts : List Str) (i : Nat),
    xs.length = ts.length → (∀ n p, ZipStep.write n p ∈ customItemSteps d i xs → p.Writes) → ∃ es, zipCustomItems x i ts = some es
  | [], [], i, _, _ => ⟨[], rfl⟩
  | [], _ :: _, i, h, _ => by simp at h
  | _ :: _, [], i, h, _ => by simp at h
  | a :: xs, t :: ts, i, h, hw => by
    simp only [customItemSteps, List.cons_append, List.nil_append] at hw
    obtain ⟨r, er⟩ := indexed_writes (hw _ _ (.head _))
    obtain ⟨q, eq⟩ := indexed_writes (hw _ _ (.tail _ (.tail _ (.head _))))
    obtain ⟨es, e⟩ := zipCustomItems_some d x hr hp xs ts (i + 1) (by simpa using h)
      (fun n p hp => hw n p (.tail _ (.tail _ (.tail _ hp))))
    have h1 : i < x.customItemRels.length := by rw [← hr]; exact (List.getElem?_eq_some_iff.1 er).1
    have h2 : i < x.customItemProps.length := by rw [← hp]; exact (List.getElem?_eq_some_iff.1 eq).1
    simp only [zipCustomItems, List.getElem?_eq_getElem h1, List.getElem?_eq_getElem h2, e, Option.bind_eq_bind,
      Option.bind_some, Option.pure_def]
    exact ⟨_, rfl⟩

theorem buildLists_writes {d : DocxFile} {p : PackageMetadata}
    (hh : ∀ q ∈ d.document.headers.map Header.writeHeader, Part.Writes q)
    (hft : ∀ q ∈ d.document.footers.map Header.writeFooter, Part.Writes q) (g : Gen) :
    ∃ l g1, d.buildLists p g = some (l, g1) := by
  obtain ⟨a1, b1, e1⟩ := buildParts_writes (d.webExtensions.map webExtensionPart) (by
    intro q hq; obtain ⟨e, _, rfl⟩ := List.mem_map.1 hq; exact (webExtension_const e).writes) g
  obtain ⟨a2, b2, e2⟩ := buildParts_writes (d.customItems.map customItemPart) (by
    intro q hq; obtain ⟨e, _, rfl⟩ := List.mem_map.1 hq; exact (customItem_const e).writes) b1
  obtain ⟨a3, b3, e3⟩ := buildParts_writes (d.customItemProps.map customItemPropsPart) (by
    intro q hq; obtain ⟨e, _, rfl⟩ := List.mem_map.1 hq; exact (customItemProps_const e).writes) b2
  obtain ⟨a4, b4, e4⟩ := buildParts_writes (d.customItemRels.map customItemRelsPart) (by
    intro q hq; obtain ⟨e, _, rfl⟩ := List.mem_map.1 hq; exact (customItemRels_const e).writes) b3
  obtain ⟨a5, b5, e5⟩ := buildParts_writes (d.document.headers.map Header.writeHeader) hh b4
  obtain ⟨a6, b6, e6⟩ := buildParts_writes (d.document.footers.map Header.writeFooter) hft b5
  obtain ⟨a7, e7⟩ := buildSparse_writes p.headerRels [] b6
  obtain ⟨a8, e8⟩ := buildSparse_writes p.footerRels [] b6
  refine ⟨⟨a1, a2, a3, a4, a5, a6, a7, a8⟩, b6, ?_⟩
  simp only [DocxFile.buildLists, Option.bind_eq_bind, Option.bind_eq_some_iff, Option.pure_def, Prod.exists]
  exact ⟨_, _, e1, _, _, e2, _, _, e3, _, _, e4, _, _, e5, _, _, e6, _, _, e7, _, _, e8, rfl⟩

theorem buildRest_writes {env : Env} {d : DocxFile} {p : PackageMetadata} (hd : Part.Writes d.document.write)
    (hc : Part.Writes (writeComments d.comments)) (hf : Part.Writes (writeFootnotes d.footnotes)) (l : BuiltLists) (g : Gen) :
    ∃ x g2, d.buildRest env p l g = some (x, g2) := by
  obtain ⟨c1, d1, f1⟩ := buildPart_writes (contentTypes_const d).writes g
  obtain ⟨c2, d2, f2⟩ := buildPart_writes (rels_const d).writes d1
  obtain ⟨c3, d3, f3⟩ := buildPart_writes app_const.writes d2
  obtain ⟨c4, d4, f4⟩ := buildPart_writes (core_const d).writes d3
  obtain ⟨c5, d5, f5⟩ := buildPart_writes (custom_const env d).writes d4
  obtain ⟨c6, d6, f6⟩ := buildPart_writes (styles_writes d) d5
  obtain ⟨c7, d7, f7⟩ := buildPart_writes hd d6
  obtain ⟨c8, d8, f8⟩ := buildPart_writes hc d7
  obtain ⟨c9, d9, f9⟩ := buildPart_writes (documentRels_const d).writes d8
  obtain ⟨c10, d10, f10⟩ := buildPart_writes (settings_const d).writes d9
  obtain ⟨c11, d11, f11⟩ := buildPart_writes fontTable_const.writes d10
  obtain ⟨c12, d12, f12⟩ := buildPart_writes (numbering_writes d) d11
  obtain ⟨c13, d13, f13⟩ := buildPart_writes (commentsExtended_const d).writes d12
  obtain ⟨c14, d14, f14⟩ := buildTaskpanes_writes d.taskpanes d13
  obtain ⟨c15, d15, f15⟩ := buildPart_writes (taskpanesRels_const d).writes d14
  obtain ⟨c16, d16, f16⟩ := buildPart_writes hf d15
  have h : ∃ r, d.buildRest env p l g = some r := by
    let x : XmlDocx :=
      { contentType := c1, rels := c2, app := c3, core := c4, custom := c5, styles := c6, document := c7, comments := c8
        documentRels := c9, settings := c10, fontTable := c11, numberings := c12, media := p.media, headers := l.headers
        headerRels := l.headerRels, footers := l.footers, footerRels := l.footerRels, commentsExtended := c13
        taskpanes := c14, taskpanesRels := c15, webExtensions := l.webExtensions, customItems := l.customItems
        customItemRels := l.customItemRels, customItemProps := l.customItemProps, footnotes := c16 }
    refine ⟨(x, d16), ?_⟩
    simp only [DocxFile.buildRest, Option.bind_eq_bind, Option.bind_eq_some_iff, Option.pure_def, Prod.exists]
    exact ⟨_, _, f1, _, _, f2, _, _, f3, _, _, f4, _, _, f5, _, _, f6, _, _, f7, _, _, f8, _, _, f9, _, _, f10, _, _, f11,
      _, _, f12, _, _, f13, _, _, f14, _, _, f15, _, _, f16, rfl⟩
  obtain ⟨⟨x, g2⟩, h⟩ := h
  exact ⟨x, g2, h⟩

theorem build_writes {env : Env} {d : DocxFile} {p : PackageMetadata}
    (hw : ∀ n q, ZipStep.write n q ∈ zipDocxSteps env d p → q.Writes) (g : Gen) :
    ∃ l g1 x g2 es, d.buildLists p g = some (l, g1) ∧ d.buildRest env p l g1 = some (x, g2) ∧ x.pack = some es := by
  unfold zipDocxSteps at hw
  have h1 := fun n q h => hw n q (List.mem_append_left _ (List.mem_append_left _ (List.mem_append_left _ (List.mem_append_left _
    (List.mem_append_left _ (List.mem_append_left _ h))))))
  have h2 := fun n q h => hw n q (List.mem_append_left _ (List.mem_append_left _ (List.mem_append_left _ (List.mem_append_left _
    (List.mem_append_left _ (List.mem_append_right _ h))))))
  have h3 := fun n q h => hw n q (List.mem_append_left _ (List.mem_append_left _ (List.mem_append_left _ (List.mem_append_left _
    (List.mem_append_right _ h)))))
  have hi := fun n q h => hw n q (List.mem_append_right _ h)
  clear hw
  have hd : Part.Writes d.document.write := h1 c!"word/document.xml" _
    (.tail _ (.tail _ (.tail _ (.tail _ (.tail _ (.tail _ (.tail _ (.tail _ (.tail _ (.tail _ (.head _)))))))))))
  have hc : Part.Writes (writeComments d.comments) := h1 c!"word/comments.xml" _
    (.tail _ (.tail _ (.tail _ (.tail _ (.tail _ (.tail _ (.tail _ (.tail _ (.tail _ (.tail _ (.tail _ (.tail _ (.tail _ (.tail _ (.head _)))))))))))))))
  have hf : Part.Writes (writeFootnotes d.footnotes) := h1 c!"word/footnotes.xml" _
    (.tail _ (.tail _ (.tail _ (.tail _ (.tail _ (.tail _ (.tail _ (.tail _ (.tail _ (.tail _ (.tail _ (.tail _ (.tail _ (.tail _ (.tail _ (.tail _ (.tail _ (.head _))))))))))))))))))
  clear h1
  have hh : ∀ q ∈ d.document.headers.map Header.writeHeader, Part.Writes q := by
    intro q hq
    rw [List.mem_map] at hq
    obtain ⟨h, hh, rfl⟩ := hq
    obtain ⟨n, hn⟩ := partSteps_parts c!"header" Header.writeHeader d.document.headers 0 p.headerRels h hh
    exact h2 n _ hn
  have hft : ∀ q ∈ d.document.footers.map Header.writeFooter, Part.Writes q := by
    intro q hq
    rw [List.mem_map] at hq
    obtain ⟨h, hh, rfl⟩ := hq
    obtain ⟨n, hn⟩ := partSteps_parts c!"footer" Header.writeFooter d.document.footers 0 p.footerRels h hh
    exact h3 n _ hn
  obtain ⟨l, g1, hl⟩ := buildLists_writes (p := p) hh hft g
  obtain ⟨x, g2, hx⟩ := buildRest_writes (env := env) (p := p) hd hc hf l g1
  have hb := build_built hl hx
  obtain ⟨items, hitems⟩ := zipCustomItems_some d x hb.customItemRels.length_eq hb.customItemProps.length_eq d.customItems
    x.customItems 0 hb.customItems.length_eq hi
  have hpack : ∃ es, x.pack = some es := by
    simp only [XmlDocx.pack, hitems, Option.bind_eq_bind, Option.bind_some, Option.pure_def]
    exact ⟨_, rfl⟩
  obtain ⟨es, hes⟩ := hpack
  exact ⟨_, _, x, g2, es, hl, hx, hes⟩

/-! ## The prepared document -/

theorem headers_eq (d : Document) : d.headers = headersOf d := by
  unfold Document.headers headersOf Spec.sectionProperties childSectionProperties SectionProperty.headers
  rw [List.flatMap_cons]
  congr 1
  · cases d.sectionProperty.header <;> cases d.sectionProperty.firstHeader <;> cases d.sectionProperty.evenHeader <;> rfl
  · congr 1
    funext p
    cases p.header <;> cases p.firstHeader <;> cases p.evenHeader <;> rfl

theorem footers_eq (d : Document) : d.footers = footersOf d := by
  unfold Document.footers footersOf Spec.sectionProperties childSectionProperties SectionProperty.footers
  rw [List.flatMap_cons]
  congr 1
  · cases d.sectionProperty.footer <;> cases d.sectionProperty.firstFooter <;> cases d.sectionProperty.evenFooter <;> rfl
  · congr 1
    funext p
    cases p.footer <;> cases p.firstFooter <;> cases p.evenFooter <;> rfl

/-- The prepared document is the one the images were taken out of. -/
theorem preparePackage_document (env : Env) (d : DocxFile) (w : World) :
    (d.preparePackage env w).1.document = (collectImages env.crc (d.prepareForBuild env w).1.document).document := by
  unfold DocxFile.preparePackage
  generalize d.prepareForBuild env w = p
  generalize hi : collectImages env.crc p.1.document = i
  simp only [hi]
  split <;> split <;> rfl

/-- The package parts that come from the images. -/
theorem preparePackage_images (env : Env) (d : DocxFile) (w : World) :
    (d.preparePackage env w).2.1 =
      ⟨(collectImages env.crc (d.prepareForBuild env w).1.document).media,
        (collectImages env.crc (d.prepareForBuild env w).1.document).headerRels,
        (collectImages env.crc (d.prepareForBuild env w).1.document).footerRels⟩ := by
  unfold DocxFile.preparePackage
  generalize d.prepareForBuild env w = p
  generalize hi : collectImages env.crc p.1.document = i
  simp only [hi]

theorem preparePackage_rels (env : Env) (d : DocxFile) (w : World) :
    RelsFit (d.preparePackage env w).1 (d.preparePackage env w).2.1 := by
  have h := collectImages_spec env.crc (d.prepareForBuild env w).1.document
  have hd := preparePackage_document env d w
  have hi := preparePackage_images env d w
  generalize collectImages env.crc (d.prepareForBuild env w).1.document = i at h hd hi
  generalize (d.prepareForBuild env w).1.document = o at h
  generalize d.preparePackage env w = q at hd hi
  obtain ⟨_, _, _, _, ⟨h1, out1, e1, l1, _⟩, ⟨h2, out2, e2, l2, _⟩, _⟩ := h
  refine ⟨⟨out1, ?_, ?_⟩, ⟨out2, ?_, ?_⟩⟩
  · rw [hi]; exact e1
  · rw [hd, headers_eq, h1, l1]
  · rw [hi]; exact e2
  · rw [hd, footers_eq, h2, l2]

end Docx
