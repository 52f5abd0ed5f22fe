import Verif.Lemmas.PackageExact
import Verif.Lemmas.Digits
import Mathlib.Data.List.Nodup

/-!
# The names of the archive entries
-/

namespace Docx

open Docx.Spec Docx.Xml Docx.Props

/-- Two strings of which neither begins with the other. -/
def clash (p q : Str) : Bool := p.take (min p.length q.length) != q.take (min p.length q.length)

theorem clash_ne {p q : Str} (h : clash p q = true) {s : Str} (hp : p <+: s) (hq : q <+: s) : False := by
  obtain ⟨a, rfl⟩ := hp
  obtain ⟨b, hb⟩ := hq
  have h1 : (p ++ a).take (min p.length q.length) = p.take (min p.length q.length) := by
    rw [List.take_append_of_le_length (Nat.min_le_left _ _)]
  have h2 : (q ++ b).take (min p.length q.length) = q.take (min p.length q.length) := by
    rw [List.take_append_of_le_length (Nat.min_le_right _ _)]
  rw [hb, h1] at h2
  simp [clash, h2] at h

/-- Every string begins with one of the prefixes. -/
def Begin (ps : List Str) (l : List Str) : Prop := ∀ s ∈ l, ∃ p ∈ ps, p <+: s

theorem Begin.disjoint {ps qs l m : List Str} (h1 : Begin ps l) (h2 : Begin qs m)
    (h : (ps.all fun p => qs.all fun q => clash p q) = true) : ∀ s ∈ l, s ∉ m := by
  intro s hs hm
  obtain ⟨p, hp, h3⟩ := h1 s hs
  obtain ⟨q, hq, h4⟩ := h2 s hm
  rw [List.all_eq_true] at h
  have := h p hp
  rw [List.all_eq_true] at this
  exact clash_ne (this q hq) h3 h4

theorem Begin.append {ps qs l m : List Str} (h1 : Begin ps l) (h2 : Begin qs m) : Begin (ps ++ qs) (l ++ m) := by
  intro s hs
  rcases List.mem_append.1 hs with hs | hs
  · obtain ⟨p, hp, h⟩ := h1 s hs; exact ⟨p, by simp [hp], h⟩
  · obtain ⟨p, hp, h⟩ := h2 s hs; exact ⟨p, by simp [hp], h⟩

theorem numbered_inj {p q : Str} {m n : Nat} (h : p ++ dec m ++ q = p ++ dec n ++ q) : m = n := by
  rw [List.append_cancel_right_eq, List.append_cancel_left_eq] at h
  exact dec_inj h

theorem partName_inj {kind : Str} {m n : Nat} (h : partName kind m = partName kind n) : m = n := numbered_inj h
theorem partRelsName_inj {kind : Str} {m n : Nat} (h : partRelsName kind m = partRelsName kind n) : m = n := numbered_inj h

theorem numbered_prefix (p q : Str) (n : Nat) : p <+: p ++ dec n ++ q := by
  rw [List.append_assoc]; exact List.prefix_append _ _

/-- The names of the numbered parts. -/
theorem partSteps_names (kind : Str) (write : Header → Part) :
    ∀ (hs : List Header) (i : Nat) (rs : List (Nat × List (Str × Str))), ∀ s ∈ partSteps kind write i hs rs,
      ∃ n, i < n ∧ (s.name = partName kind n ∨ s.name = partRelsName kind n)
  | [], i, rs, s, h => by simp [partSteps] at h
  | a :: hs, i, [], s, h => by
    simp only [partSteps] at h
    rcases List.mem_cons.1 h with rfl | h
    · exact ⟨i + 1, by omega, .inl rfl⟩
    · obtain ⟨n, hn, e⟩ := partSteps_names kind write hs (i + 1) [] s h
      exact ⟨n, by omega, e⟩
  | a :: hs, i, (j, r) :: rs, s, h => by
    simp only [partSteps] at h
    rcases List.mem_cons.1 h with rfl | h
    · exact ⟨i + 1, by omega, .inl rfl⟩
    · split at h
      · rcases List.mem_cons.1 h with rfl | h
        · exact ⟨i + 1, by omega, .inr rfl⟩
        · obtain ⟨n, hn, e⟩ := partSteps_names kind write hs (i + 1) rs s h
          exact ⟨n, by omega, e⟩
      · obtain ⟨n, hn, e⟩ := partSteps_names kind write hs (i + 1) _ s h
        exact ⟨n, by omega, e⟩

theorem partSteps_nodup (kind : Str) (write : Header → Part) (hk : ∀ a b, partName kind a ≠ partRelsName kind b) :
    ∀ (hs : List Header) (i : Nat) (rs : List (Nat × List (Str × Str))), ((partSteps kind write i hs rs).map ZipStep.name).Nodup
  | [], i, rs => by simp [partSteps]
  | a :: hs, i, [] => by
    simp only [partSteps, List.map_cons, List.nodup_cons]
    refine ⟨?_, partSteps_nodup kind write hk hs _ _⟩
    intro h
    rw [List.mem_map] at h
    obtain ⟨s, hs', e⟩ := h
    obtain ⟨n, hn, e'⟩ := partSteps_names kind write _ _ _ s hs'
    rcases e' with e' | e' <;> rw [e'] at e
    · have := partName_inj e; omega
    · exact hk _ _ e.symm
  | a :: hs, i, (j, r) :: rs => by
    simp only [partSteps, List.map_cons, List.nodup_cons]
    have key : ∀ rs', partName kind (i + 1) ∉ (partSteps kind write (i + 1) hs rs').map ZipStep.name := by
      intro rs' h
      rw [List.mem_map] at h
      obtain ⟨s, hs', e⟩ := h
      obtain ⟨n, hn, e'⟩ := partSteps_names kind write _ _ _ s hs'
      rcases e' with e' | e' <;> rw [e'] at e
      · have := partName_inj e; omega
      · exact hk _ _ e.symm
    split
    · refine ⟨?_, ?_⟩
      · rw [List.map_cons, List.mem_cons]
        rintro (h | h)
        · exact hk _ _ h
        · exact key _ h
      · rw [List.map_cons, List.nodup_cons]
        refine ⟨?_, partSteps_nodup kind write hk hs _ _⟩
        intro h
        rw [List.mem_map] at h
        obtain ⟨s, hs', e⟩ := h
        obtain ⟨n, hn, e'⟩ := partSteps_names kind write _ _ _ s hs'
        rcases e' with e' | e' <;> rw [e'] at e
        · exact hk _ _ e
        · have := partRelsName_inj e; omega
    · exact ⟨key _, partSteps_nodup kind write hk hs _ _⟩

theorem partSteps_begin (kind : Str) (write : Header → Part) (hs : List Header) (i : Nat) (rs : List (Nat × List (Str × Str))) :
    Begin [c!"word/" ++ kind, c!"word/_rels/" ++ kind] ((partSteps kind write i hs rs).map ZipStep.name) := by
  intro s h
  rw [List.mem_map] at h
  obtain ⟨x, hx, rfl⟩ := h
  obtain ⟨n, _, e⟩ := partSteps_names kind write _ _ _ x hx
  rcases e with e | e <;> rw [e]
  · exact ⟨_, .head _, numbered_prefix _ _ _⟩
  · exact ⟨_, .tail _ (.head _), numbered_prefix _ _ _⟩

theorem numbered_ne {p q p' q' : Str} (hc : clash p q = true) (a b : Nat) : p ++ dec a ++ p' ≠ q ++ dec b ++ q' := fun h =>
  clash_ne hc (numbered_prefix p p' a) (by rw [h]; exact numbered_prefix q q' b)

theorem header_names_differ (a b : Nat) : partName c!"header" a ≠ partRelsName c!"header" b :=
  numbered_ne (by decide) a b

theorem footer_names_differ (a b : Nat) : partName c!"footer" a ≠ partRelsName c!"footer" b :=
  numbered_ne (by decide) a b

/-! Web extensions. -/

theorem webExtensionSteps_names : ∀ (es : List WebExtension) (i : Nat), ∀ s ∈ webExtensionSteps i es,
    ∃ n, i < n ∧ s.name = webExtensionName n
  | [], i, s, h => by simp [webExtensionSteps] at h
  | e :: es, i, s, h => by
    simp only [webExtensionSteps] at h
    rcases List.mem_cons.1 h with rfl | h
    · exact ⟨i + 1, by omega, rfl⟩
    · obtain ⟨n, hn, e⟩ := webExtensionSteps_names es (i + 1) s h
      exact ⟨n, by omega, e⟩

theorem webExtensionSteps_nodup : ∀ (es : List WebExtension) (i : Nat), ((webExtensionSteps i es).map ZipStep.name).Nodup
  | [], i => by simp [webExtensionSteps]
  | e :: es, i => by
    simp only [webExtensionSteps, List.map_cons, List.nodup_cons]
    refine ⟨?_, webExtensionSteps_nodup es _⟩
    intro h
    rw [List.mem_map] at h
    obtain ⟨s, hs', e⟩ := h
    obtain ⟨n, hn, e'⟩ := webExtensionSteps_names _ _ s hs'
    rw [e'] at e
    have := numbered_inj e
    omega

theorem webExtensionSteps_begin (es : List WebExtension) (i : Nat) :
    Begin [c!"word/webextensions/webextension"] ((webExtensionSteps i es).map ZipStep.name) := by
  intro s h
  rw [List.mem_map] at h
  obtain ⟨x, hx, rfl⟩ := h
  obtain ⟨n, _, e⟩ := webExtensionSteps_names _ _ x hx
  rw [e]
  exact ⟨_, .head _, numbered_prefix _ _ _⟩

/-! Custom items. -/

theorem customItemSteps_names (d : DocxFile) : ∀ (xs : List (List XmlData)) (i : Nat), ∀ s ∈ customItemSteps d i xs,
    ∃ n, i < n ∧ (s.name = itemRelsName n ∨ s.name = itemName n ∨ s.name = itemPropsName n)
  | [], i, s, h => by simp [customItemSteps] at h
  | x :: xs, i, s, h => by
    simp only [customItemSteps, List.cons_append, List.nil_append] at h
    rcases List.mem_cons.1 h with rfl | h
    · exact ⟨i + 1, by omega, .inl rfl⟩
    rcases List.mem_cons.1 h with rfl | h
    · exact ⟨i + 1, by omega, .inr (.inl rfl)⟩
    rcases List.mem_cons.1 h with rfl | h
    · exact ⟨i + 1, by omega, .inr (.inr rfl)⟩
    obtain ⟨n, hn, e⟩ := customItemSteps_names d xs (i + 1) s h
    exact ⟨n, by omega, e⟩

theorem item_rels_ne (a b : Nat) : itemRelsName a ≠ itemName b :=
  numbered_ne (by decide) a b
theorem item_rels_props_ne (a b : Nat) : itemRelsName a ≠ itemPropsName b :=
  numbered_ne (by decide) a b
theorem item_props_ne (a b : Nat) : itemName a ≠ itemPropsName b := by
  intro h
  unfold itemName itemPropsName at h
  rw [show c!"customXml/itemProps" = c!"customXml/item" ++ c!"Props" from by decide, List.append_assoc, List.append_assoc,
    List.append_assoc, List.append_cancel_left_eq] at h
  cases e : dec a with
  | nil => exact dec_ne_nil _ e
  | cons c r =>
    have hc := dec_digits a c (by rw [e]; simp)
    rw [e] at h
    have : c = 'P' := by
      have := congrArg List.head? h
      simpa using this
    rw [this] at hc
    revert hc
    decide

theorem customItemSteps_nodup (d : DocxFile) : ∀ (xs : List (List XmlData)) (i : Nat), ((customItemSteps d i xs).map ZipStep.name).Nodup
  | [], i => by simp [customItemSteps]
  | x :: xs, i => by
    have later : ∀ n, i + 1 = n → itemRelsName n ∉ (customItemSteps d (i + 1) xs).map ZipStep.name ∧
        itemName n ∉ (customItemSteps d (i + 1) xs).map ZipStep.name ∧
        itemPropsName n ∉ (customItemSteps d (i + 1) xs).map ZipStep.name := by
      intro n hn
      refine ⟨?_, ?_, ?_⟩ <;> intro h <;> rw [List.mem_map] at h <;> obtain ⟨s, hs', e⟩ := h <;>
        obtain ⟨m, hm, e'⟩ := customItemSteps_names d _ _ s hs'
      · rcases e' with e' | e' | e' <;> rw [e'] at e
        · have := numbered_inj e; omega
        · exact item_rels_ne _ _ e.symm
        · exact item_rels_props_ne _ _ e.symm
      · rcases e' with e' | e' | e' <;> rw [e'] at e
        · exact item_rels_ne _ _ e
        · have := numbered_inj e; omega
        · exact item_props_ne _ _ e.symm
      · rcases e' with e' | e' | e' <;> rw [e'] at e
        · exact item_rels_props_ne _ _ e
        · exact item_props_ne _ _ e
        · have := numbered_inj e; omega
    obtain ⟨h1, h2, h3⟩ := later (i + 1) rfl
    simp only [customItemSteps, List.cons_append, List.nil_append, List.map_cons, List.nodup_cons, List.mem_cons, not_or]
    exact ⟨⟨item_rels_ne _ _, item_rels_props_ne _ _, h1⟩, ⟨item_props_ne _ _, h2⟩, h3, customItemSteps_nodup d xs _⟩

theorem customItemSteps_begin (d : DocxFile) (xs : List (List XmlData)) (i : Nat) :
    Begin [c!"customXml/_rels/item", c!"customXml/item"] ((customItemSteps d i xs).map ZipStep.name) := by
  intro s h
  rw [List.mem_map] at h
  obtain ⟨x, hx, rfl⟩ := h
  obtain ⟨n, _, e⟩ := customItemSteps_names d _ _ x hx
  rcases e with e | e | e <;> rw [e]
  · exact ⟨_, .head _, numbered_prefix _ _ _⟩
  · exact ⟨_, .tail _ (.head _), numbered_prefix _ _ _⟩
  · refine ⟨_, .tail _ (.head _), ?_⟩
    unfold itemPropsName
    rw [show c!"customXml/itemProps" = c!"customXml/item" ++ c!"Props" from by decide, List.append_assoc, List.append_assoc]
    exact List.prefix_append _ _

/-! All of them. -/

/-- What the names of the entries after the fixed ones begin with. -/
def otherPrefixes : List Str :=
  [c!"word/header", c!"word/_rels/header", c!"word/footer", c!"word/_rels/footer", c!"word/media/", c!"word/webextensions/",
    c!"customXml/"]

theorem nodup_append' {l m : List Str} (h1 : l.Nodup) (h2 : m.Nodup) (h : ∀ s ∈ l, s ∉ m) : (l ++ m).Nodup :=
  List.nodup_append.2 ⟨h1, h2, fun a ha b hb e => h a ha (e ▸ hb)⟩

/-- The media names. -/
def mediaSteps (p : PackageMetadata) : List ZipStep :=
  if p.media = [] then [] else .directory c!"word/media/" :: p.media.map fun m => .store (mediaName m.1) m.2

theorem mediaName_ne (s : Str) : mediaName s ≠ c!"word/media/" := by
  intro e
  unfold mediaName at e
  generalize hp : c!".png" = p at e
  rw [List.append_assoc, List.append_right_eq_self, List.append_eq_nil_iff] at e
  rw [e.2] at hp
  exact absurd hp (by decide)

theorem mediaSteps_nodup (p : PackageMetadata) (h : (p.media.map Prod.fst).Nodup) : ((mediaSteps p).map ZipStep.name).Nodup := by
  unfold mediaSteps
  split
  · exact List.nodup_nil
  · rw [List.map_cons, List.nodup_cons, List.map_map]
    constructor
    · intro hm
      rw [List.mem_map] at hm
      obtain ⟨m, _, e⟩ := hm
      exact mediaName_ne m.1 e
    · have : (ZipStep.name ∘ fun m : Str × Bytes => ZipStep.store (mediaName m.1) m.2) = mediaName ∘ Prod.fst := rfl
      rw [this, ← List.map_map]
      refine List.Nodup.map ?_ h
      intro a b e
      unfold mediaName at e
      rwa [List.append_cancel_right_eq, List.append_cancel_left_eq] at e

theorem mediaSteps_begin (p : PackageMetadata) : Begin [c!"word/media/"] ((mediaSteps p).map ZipStep.name) := by
  intro s hs
  refine ⟨_, .head _, ?_⟩
  unfold mediaSteps at hs
  split at hs
  · simp at hs
  · rw [List.map_cons, List.mem_cons, List.map_map, List.mem_map] at hs
    rcases hs with rfl | ⟨m, _, rfl⟩
    · exact List.prefix_refl _
    · show _ <+: mediaName m.1
      unfold mediaName
      rw [List.append_assoc]
      exact List.prefix_append _ _

/-- The web extension steps. -/
def taskpanesSteps (d : DocxFile) : List ZipStep :=
  if d.taskpanes then
    [ .directory c!"word/webextensions/",
      .write c!"word/webextensions/taskpanes.xml" taskpanesPart,
      .directory c!"word/webextensions/_rels/",
      .write c!"word/webextensions/_rels/taskpanes.xml.rels" d.taskpanesRelsPart ]
    ++ webExtensionSteps 0 d.webExtensions
  else []

theorem taskpanesSteps_nodup (d : DocxFile) : ((taskpanesSteps d).map ZipStep.name).Nodup := by
  unfold taskpanesSteps
  split
  · rw [List.map_append]
    refine nodup_append' (by simp only [List.map_cons, ZipStep.name, List.map_nil]; decide) (webExtensionSteps_nodup _ _) ?_
    intro s hs hm
    obtain ⟨q, hq, hpre⟩ := webExtensionSteps_begin d.webExtensions 0 s hm
    simp only [List.mem_singleton] at hq
    subst hq
    have : ∀ s ∈ [c!"word/webextensions/", c!"word/webextensions/taskpanes.xml", c!"word/webextensions/_rels/",
        c!"word/webextensions/_rels/taskpanes.xml.rels"], ¬ c!"word/webextensions/webextension" <+: s := by decide
    exact this s hs hpre
  · exact List.nodup_nil

theorem taskpanesSteps_begin (d : DocxFile) : Begin [c!"word/webextensions/"] ((taskpanesSteps d).map ZipStep.name) := by
  intro s hs
  refine ⟨_, .head _, ?_⟩
  unfold taskpanesSteps at hs
  split at hs
  · rw [List.map_append, List.mem_append] at hs
    rcases hs with hs | hs
    · have : ∀ s ∈ [c!"word/webextensions/", c!"word/webextensions/taskpanes.xml", c!"word/webextensions/_rels/",
        c!"word/webextensions/_rels/taskpanes.xml.rels"], c!"word/webextensions/" <+: s := by decide
      exact this s hs
    · obtain ⟨q, hq, hpre⟩ := webExtensionSteps_begin d.webExtensions 0 s hs
      simp only [List.mem_singleton] at hq
      subst hq
      exact List.IsPrefix.trans (by decide) hpre
  · simp at hs

/-- The custom item steps. -/
def itemSteps (d : DocxFile) : List ZipStep :=
  (if d.customItems = [] then [] else [.directory c!"customXml/_rels/"]) ++ customItemSteps d 0 d.customItems

theorem itemSteps_nodup (d : DocxFile) : ((itemSteps d).map ZipStep.name).Nodup := by
  unfold itemSteps
  rw [List.map_append]
  refine nodup_append' (by split <;> simp) (customItemSteps_nodup _ _ _) ?_
  intro s hs hm
  split at hs
  · simp at hs
  · obtain ⟨q, hq, hpre⟩ := customItemSteps_begin d d.customItems 0 s hm
    simp only [List.map_cons, List.map_nil, List.mem_singleton, ZipStep.name] at hs
    subst hs
    have : ∀ q ∈ [c!"customXml/_rels/item", c!"customXml/item"], ¬ q <+: c!"customXml/_rels/" := by decide
    exact this q hq hpre

theorem itemSteps_begin (d : DocxFile) : Begin [c!"customXml/"] ((itemSteps d).map ZipStep.name) := by
  intro s hs
  refine ⟨_, .head _, ?_⟩
  unfold itemSteps at hs
  rw [List.map_append, List.mem_append] at hs
  rcases hs with hs | hs
  · split at hs
    · simp at hs
    · simp only [List.map_cons, List.map_nil, List.mem_singleton, ZipStep.name] at hs
      subst hs
      decide
  · obtain ⟨q, hq, hpre⟩ := customItemSteps_begin d d.customItems 0 s hs
    have : ∀ q ∈ [c!"customXml/_rels/item", c!"customXml/item"], c!"customXml/" <+: q := by decide
    exact (this q hq).trans hpre

theorem otherSteps_eq (d : DocxFile) (p : PackageMetadata) : otherSteps d p =
    partSteps c!"header" Header.writeHeader 0 d.document.headers p.headerRels ++
    (partSteps c!"footer" Header.writeFooter 0 d.document.footers p.footerRels ++
    (mediaSteps p ++ (taskpanesSteps d ++ itemSteps d))) := by
  unfold otherSteps mediaSteps taskpanesSteps itemSteps
  simp only [List.append_assoc]

/-- The names of the entries every package begins with. -/
def fixedNames : List Str :=
  [ c!"word/", c!"word/_rels/", c!"_rels/", c!"docProps/", c!"[Content_Types].xml", c!"_rels/.rels", c!"docProps/app.xml",
    c!"docProps/core.xml", c!"docProps/custom.xml", c!"word/_rels/document.xml.rels", c!"word/document.xml",
    c!"word/styles.xml", c!"word/settings.xml", c!"word/fontTable.xml", c!"word/comments.xml", c!"word/numbering.xml",
    c!"word/commentsExtended.xml", c!"word/footnotes.xml" ]

theorem fixedSteps_names (env : Env) (d : DocxFile) : (fixedSteps env d).map ZipStep.name = fixedNames := rfl

theorem names_nodup (env : Env) (d : DocxFile) (p : PackageMetadata) (h : (p.media.map Prod.fst).Nodup) :
    ((zipDocxSteps env d p).map ZipStep.name).Nodup := by
  rw [zipDocxSteps_split, otherSteps_eq, List.map_append, List.map_append, List.map_append, List.map_append, List.map_append,
    fixedSteps_names]
  have b1 := partSteps_begin c!"header" Header.writeHeader d.document.headers 0 p.headerRels
  have b2 := partSteps_begin c!"footer" Header.writeFooter d.document.footers 0 p.footerRels
  have b3 := mediaSteps_begin p
  have b4 := taskpanesSteps_begin d
  have b5 := itemSteps_begin d
  have b45 := b4.append b5
  have b345 := b3.append b45
  have b2345 := b2.append b345
  have b := b1.append b2345
  refine nodup_append' (by decide) (nodup_append' (partSteps_nodup _ _ header_names_differ _ _ _)
    (nodup_append' (partSteps_nodup _ _ footer_names_differ _ _ _) (nodup_append' (mediaSteps_nodup p h)
      (nodup_append' (taskpanesSteps_nodup d) (itemSteps_nodup d) ?_) ?_) ?_) ?_) ?_
  · exact b4.disjoint b5 (by decide)
  · exact b3.disjoint b45 (by decide)
  · exact b2.disjoint b345 (by decide)
  · exact b1.disjoint b2345 (by decide)
  · intro s hs hm
    obtain ⟨q, hq, hpre⟩ := b s hm
    have : ∀ s ∈ fixedNames, ∀ q ∈ [c!"word/" ++ c!"header", c!"word/_rels/" ++ c!"header"] ++
        ([c!"word/" ++ c!"footer", c!"word/_rels/" ++ c!"footer"] ++ ([c!"word/media/"] ++ ([c!"word/webextensions/"] ++
        [c!"customXml/"]))), ¬ q <+: s := by decide
    exact this s hs q hq hpre

end Docx
