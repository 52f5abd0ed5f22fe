import Verif.Spec.PackageXml
import Verif.Lemmas.BuildOk
import Verif.Lemmas.BuildTotal

/-!
# The small parts: written as specified, always writable, readable when their strings are
-/

namespace Docx

open Docx.Spec

set_option linter.unusedSimpArgs false

@[simp] theorem textEl_flat (name : Str) (as : List (Str × Str)) (s : Str) :
    tagsForest (textEl name as s) = childEl name as s := rfl

@[simp] theorem defaultType_flat (a b : Str) : tagsForest (defaultTypeN a b) = defaultType a b := rfl
@[simp] theorem overrideType_flat (a b : Str) : tagsForest (overrideTypeN a b) = overrideType a b := rfl

theorem ContentTypes.flat (c : ContentTypes) : tagsForest c.nodes = c.tags := by
  simp [-String.reduceToList, ContentTypes.nodes, ContentTypes.tags]

@[simp] theorem relationship_flat (a b c : Str) : tagsForest (relationshipN a b c) = relationshipTags a b c := rfl
@[simp] theorem relationshipWithMode_flat (a b c d : Str) :
    tagsForest (relationshipWithModeN a b c d) = relationshipWithModeTags a b c d := rfl
@[simp] theorem relationships_flat (body : List Node) :
    tagsForest (relationshipsN body) = relationshipsTags (tagsForest body) := by
  simp [-String.reduceToList, relationshipsN, relationshipsTags]

theorem Rels.flat (r : Rels) : tagsForest r.nodes = r.tags := by
  simp [-String.reduceToList, Rels.nodes, Rels.tags]
theorem DocumentRels.flat (r : DocumentRels) : tagsForest r.nodes = r.tags := by
  simp [-String.reduceToList, DocumentRels.nodes, DocumentRels.tags]
theorem imageRels_flat (l : List (Str × Str)) : tagsForest (imageRelsN l) = imageRelsTags l := by
  simp [-String.reduceToList, imageRelsN, imageRelsTags]
theorem customItemRels_flat (n : Nat) : tagsForest (customItemRelsN n) = customItemRelsTags n := by
  simp [-String.reduceToList, customItemRelsN, customItemRelsTags]
theorem taskpanesRels_flat (l : List (Str × Str × Str)) : tagsForest (taskpanesRelsN l) = taskpanesRelsTags l := by
  simp [-String.reduceToList, taskpanesRelsN, taskpanesRelsTags]
theorem taskpanes_flat : tagsForest taskpanesN = taskpanesTags := by
  simp [-String.reduceToList, taskpanesN, taskpanesTags]
theorem WebExtension.flat (w : WebExtension) : tagsForest w.nodes = w.tags := by
  simp [-String.reduceToList, WebExtension.nodes, WebExtension.tags]
theorem customItemProperty_flat (id : Str) : tagsForest (customItemPropertyN id) = customItemPropertyTags id := by
  simp [-String.reduceToList, customItemPropertyN, customItemPropertyTags, leaf]
@[simp] theorem compatSetting_flat (a b : Str) : tagsForest (compatSettingN a b) = compatSettingTags a b := rfl
@[simp] theorem Settings.compat_flat (s : Settings) : tagsForest s.compatNodes = s.compatTags := by
  simp [-String.reduceToList, Settings.compatNodes, Settings.compatTags]
theorem Settings.flat (s : Settings) : tagsForest s.nodes = s.tags := by
  simp [-String.reduceToList, Settings.nodes, Settings.tags]
@[simp] theorem font_flat (a b c : Str) (p : FontPitchType) : tagsForest (fontN a b c p) = fontTags a b c p := by
  simp [-String.reduceToList, fontN, fontTags]
theorem fontTable_flat : tagsForest fontTableN = fontTableTags := by
  simp [-String.reduceToList, fontTableN, fontTableTags]
@[simp] theorem CommentExtended.flat (c : CommentExtended) : tagsForest c.nodes = c.tags := by
  simp [-String.reduceToList, CommentExtended.nodes, CommentExtended.tags]
theorem commentsExtended_flat (l : List CommentExtended) : tagsForest (commentsExtendedN l) = commentsExtendedTags l := by
  simp [-String.reduceToList, commentsExtendedN, commentsExtendedTags]
theorem appProps_flat : tagsForest appPropsN = appPropsTags := rfl
theorem CoreProps.flat (p : CoreProps) : tagsForest p.nodes = p.tags := by
  simp [-String.reduceToList, CoreProps.nodes, CoreProps.tags]
theorem customProps_flat (l : List (Str × Str)) : tagsForest (customPropsN l) = customPropsTags l := by
  simp [-String.reduceToList, customPropsN, customPropsTags]

@[simp] theorem DocDefaults_build_flat (d : DocDefaults) : flat d.nodes = d.build := by
  simp [-String.reduceToList, DocDefaults.nodes, DocDefaults.build, cat]
@[simp] theorem Style_build_flat (s : Style) : flat s.nodes = s.build := by
  simp [-String.reduceToList, Style.nodes, Style.build, cat]
@[simp] theorem Styles_build_flat (s : Styles) : flat s.nodes = s.build := by
  simp [-String.reduceToList, Styles.nodes, Styles.build, cat]
@[simp] theorem Level_build_flat (l : Level) : flat l.nodes = l.build := by
  simp [-String.reduceToList, Level.nodes, Level.build, cat]
@[simp] theorem AbstractNumbering_build_flat (a : AbstractNumbering) : flat a.nodes = a.build := by
  simp [-String.reduceToList, AbstractNumbering.nodes, AbstractNumbering.build, cat]
@[simp] theorem LevelOverride_build_flat (o : LevelOverride) : flat o.nodes = o.build := by
  simp [-String.reduceToList, LevelOverride.nodes, LevelOverride.build, cat]
@[simp] theorem Numbering_build_flat (n : Numbering) : flat n.nodes = n.build := by
  simp [-String.reduceToList, Numbering.nodes, Numbering.build, cat]
@[simp] theorem Numberings_build_flat (n : Numberings) : flat n.nodes = n.build := by
  simp [-String.reduceToList, Numberings.nodes, Numberings.build, cat]

/-! Totality. -/

theorem Total.each {α} {f : α → N} (h : ∀ a, Total (f a) true) (l : List α) : Total (eachN f l) true := by
  induction l with
  | nil => exact Total.eachNil
  | cons a l ih => exact (Total.thenN (h a) ih).congr rfl

theorem DocDefaults.total (d : DocDefaults) : Total d.nodes true := by
  have h1 := d.runProperty.total
  have h2 := d.paragraphProperty.total
  unfold DocDefaults.nodes
  exact Total.congr (by total) (by simp)
theorem Style.total (s : Style) : Total s.nodes true := by
  have h1 := s.runProperty.total
  have h2 := s.paragraphProperty.total
  unfold Style.nodes
  exact Total.congr (by total) (by simp)
theorem Styles.total (s : Styles) : Total s.nodes true := by
  have h1 := s.docDefaults.total
  have h2 := normalStyle.total
  have h3 := Total.each Style.total s.styles
  unfold Styles.nodes
  exact Total.congr (by total) (by simp)
theorem Level.total (s : Level) : Total s.nodes true := by
  have h1 := s.runProperty.total
  have h2 := s.paragraphProperty.total
  unfold Level.nodes
  exact Total.congr (by total) (by simp)
theorem AbstractNumbering.total (a : AbstractNumbering) : Total a.nodes true := by
  have h3 := Total.each Level.total a.levels
  unfold AbstractNumbering.nodes
  exact Total.congr (by total) (by simp)
theorem LevelOverride.total (o : LevelOverride) : Total o.nodes true := by
  have h3 := Level.total
  unfold LevelOverride.nodes
  exact Total.congr (Total.elemN (Total.catCons (Total.optNB h3) (by total))) (by simp)
theorem Numbering.total (n : Numbering) : Total n.nodes true := by
  have h3 := Total.each LevelOverride.total n.overrides
  unfold Numbering.nodes
  exact Total.congr (by total) (by simp)
theorem Numberings.total (n : Numberings) : Total n.nodes true := by
  have h1 := defaultNumbering.total
  have h2 := Total.each AbstractNumbering.total n.abstractNums
  have h3 := ({ id := 1, abstractNumId := 1 } : Numbering).total
  have h4 := Total.each Numbering.total n.numberings
  unfold Numberings.nodes
  exact Total.congr (by total) (by simp)

/-! What the writers write can be read. -/

theorem StyleType.attr (t : StyleType) : AttrOk t.toStr := attrOk_lit (by cases t <;> decide)
theorem LevelSuffixType.attr (t : LevelSuffixType) : AttrOk t.toStr := attrOk_lit (by cases t <;> decide)
theorem CharacterSpacingValues.attr (t : CharacterSpacingValues) : Stored t.toStr := stored_lit (by cases t <;> decide)
theorem FontPitchType.attr (t : FontPitchType) : AttrOk t.toStr := attrOk_lit (by cases t <;> decide)

theorem AttrOk.append {a b : Str} (ha : AttrOk a) (hb : AttrOk b) : AttrOk (a ++ b) := by
  unfold AttrOk decodeAttr at *
  split at ha
  · simp at ha
  · split at hb
    · simp at hb
    · rename_i h1 h2
      rw [if_neg (by simp [h1, h2]), List.map_append]
      obtain ⟨x, hx⟩ := Option.isSome_iff_exists.1 ha
      obtain ⟨y, hy⟩ := Option.isSome_iff_exists.1 hb
      unfold decodeText at *
      rw [decodeFrom_append _ _ _ x hx, hy]
      rfl

theorem Stored.append {a b : Str} (ha : Stored a) (hb : Stored b) : Stored (a ++ b) :=
  ⟨(TextOk.append ha.textOk hb.textOk).1, AttrOk.append ha.attr hb.attr, by simp [ha.2.2, hb.2.2]⟩

theorem stored_lit_append {a b : Str} (ha : plainB a = true) (hb : Stored b) : Stored (a ++ b) :=
  Stored.append (stored_lit ha) hb
theorem stored_append_lit {a b : Str} (ha : Stored a) (hb : plainB b = true) : Stored (a ++ b) :=
  Stored.append ha (stored_lit hb)

theorem DocDefaults.ok (d : DocDefaults) (h1 : AllS d.runProperty.strings) (h2 : AllS d.paragraphProperty.strings) :
    OkN d.nodes := by
  have e1 := d.runProperty.ok h1
  have e2 := d.paragraphProperty.ok h2
  unfold DocDefaults.nodes
  okRules

theorem Style.ok (s : Style) (h : AllS s.strings) : OkN s.nodes := by
  unfold Style.strings at h
  okStrings h
  obtain ⟨⟨⟨⟨⟨⟨⟨⟨h1, h2⟩, h3⟩, h4⟩, h5⟩, h6⟩, h7⟩, h8⟩, h9⟩ := h
  have e1 := s.runProperty.ok h3
  have e2 := s.paragraphProperty.ok h4
  have e3 := s.tableCellProperty.ok h5
  have e4 := s.tableProperty.ok h6
  have e5 := StyleType.attr s.styleType
  unfold Style.nodes
  okRules
  all_goals grind

theorem normalStyle_ok : OkN normalStyle.nodes := normalStyle.ok (show ∀ s ∈ _, _ by decide +kernel)

theorem Styles.ok (s : Styles) (h : AllS s.strings) : OkN s.nodes := by
  unfold Styles.strings at h
  okStrings h
  obtain ⟨⟨h1, h2⟩, h3⟩ := h
  rw [AllS_flatMap] at h3
  have e1 := s.docDefaults.ok h1 h2
  have e2 := normalStyle_ok
  have e3 := OkN.each fun a ha => Style.ok a (h3 a ha)
  unfold Styles.nodes stylesAttrs
  okRules

theorem Level.ok (l : Level) (h : AllS l.strings) : OkN l.nodes := by
  unfold Level.strings at h
  okStrings h
  obtain ⟨⟨⟨⟨h1, h2, h3⟩, h4⟩, h5⟩, h6⟩ := h
  have e1 := l.runProperty.ok h5
  have e2 := l.paragraphProperty.ok h4
  have e5 := LevelSuffixType.attr l.suffix
  unfold Level.nodes
  okRules
  all_goals first
    | grind
    | (refine OkF.iteElse .nil (.val (by decide) e5))

theorem AbstractNumbering.ok (a : AbstractNumbering) (h : AllS a.strings) : OkN a.nodes := by
  unfold AbstractNumbering.strings at h
  okStrings h
  rw [AllS_flatMap] at h
  have e3 := OkN.each fun l hl => Level.ok l (h.2 l hl)
  unfold AbstractNumbering.nodes
  okRules
  all_goals grind

theorem LevelOverride.ok (o : LevelOverride) (h : AllS o.strings) : OkN o.nodes := by
  unfold LevelOverride.strings at h
  okStrings h
  unfold LevelOverride.nodes
  okRules
  exact Level.ok _ (by grind)

theorem Numbering.ok (n : Numbering) (h : AllS n.strings) : OkN n.nodes := by
  unfold Numbering.strings at h
  rw [AllS_flatMap] at h
  have e3 := OkN.each fun l hl => LevelOverride.ok l (h l hl)
  unfold Numbering.nodes
  okRules

theorem Numberings.ok (n : Numberings) (h : AllS n.strings) : OkN n.nodes := by
  unfold Numberings.strings at h
  okStrings h
  rw [AllS_flatMap, AllS_flatMap] at h
  have e1 := defaultNumbering.ok (show ∀ s ∈ _, _ by decide +kernel)
  have e2 := OkN.each fun l hl => AbstractNumbering.ok l (h.1 l hl)
  have e3 := ({ id := 1, abstractNumId := 1 } : Numbering).ok (show ∀ s ∈ _, _ by decide +kernel)
  have e4 := OkN.each fun l hl => Numbering.ok l (h.2 l hl)
  unfold Numberings.nodes numberingAttrs
  okRules

theorem ContentTypes.ok (c : ContentTypes) (h : AllS c.strings) : OkF c.nodes := by
  unfold ContentTypes.strings at h
  rw [AllS_flatMap] at h
  have e : OkF (c.types.flatMap fun t => overrideTypeN t.1 t.2) := by
    refine OkF.flatMap fun a ha => ?_
    have h1 := h a ha
    okStrings h1
    unfold overrideTypeN
    okRules
    all_goals grind
  unfold ContentTypes.nodes defaultTypeN
  okRules

theorem relationship_ok {a b c : Str} (ha : Stored a) (hb : Stored b) (hc : Stored c) : OkF (relationshipN a b c) := by
  unfold relationshipN
  okRules
theorem relationshipWithMode_ok {a b c d : Str} (ha : Stored a) (hb : Stored b) (hc : Stored c) (hd : Stored d) :
    OkF (relationshipWithModeN a b c d) := by
  unfold relationshipWithModeN
  okRules
theorem relationships_ok {body : List Node} (h : OkF body) : OkF (relationshipsN body) := by
  unfold relationshipsN
  okRules

theorem Rels.ok (r : Rels) (h : AllS r.strings) : OkF r.nodes := by
  unfold Rels.strings at h
  rw [AllS_flatMap] at h
  refine relationships_ok (OkF.flatMap fun a ha => ?_)
  have h1 := h a ha
  okStrings h1
  exact relationship_ok h1.2.1 h1.1 h1.2.2

theorem officeRel_stored {s : Str} (h : Stored s) : Stored (officeRel s) :=
  Stored.append (stored_lit (by decide)) h

theorem DocumentRels.ok (r : DocumentRels) (h : AllS r.strings) : OkF r.nodes := by
  unfold DocumentRels.strings at h
  okStrings h
  rw [AllS_flatMap, AllS_flatMap] at h
  have hi : ∀ n, Stored (dec n) := dec_stored
  unfold DocumentRels.nodes
  refine relationships_ok ?_
  repeat' with_reducible apply OkF.append
  all_goals first
    | with_reducible apply OkF.ite
    | skip
  all_goals first
    | exact relationship_ok (stored_lit (by decide)) (stored_lit (by decide)) (stored_lit (by decide))
    | (refine OkF.flatMap fun i _ => relationship_ok ?_ (stored_lit (by decide)) ?_
       · first | exact Stored.append (stored_lit (by decide)) (hi _)
       · exact stored_append_lit (Stored.append (stored_lit (by decide)) (hi _)) (by decide))
    | skip
  · refine OkF.flatMap fun x hx => ?_
    have h1 := h.1 x hx
    okStrings h1
    exact relationship_ok h1.1 (stored_lit (by decide)) h1.2
  · refine OkF.flatMap fun x hx => ?_
    have h1 := h.2 x hx
    okStrings h1
    exact relationshipWithMode_ok h1.1 (stored_lit (by decide)) h1.2.1 h1.2.2

theorem imageRels_ok (l : List (Str × Str)) (h : AllS (l.flatMap fun x => [x.1, x.2])) : OkF (imageRelsN l) := by
  rw [AllS_flatMap] at h
  refine relationships_ok (OkF.flatMap fun x hx => ?_)
  have h1 := h x hx
  okStrings h1
  exact relationship_ok h1.1 (stored_lit (by decide)) h1.2

theorem customItemRels_ok (n : Nat) : OkF (customItemRelsN n) :=
  relationships_ok (OkF.flatMap fun i _ => relationship_ok (Stored.append (stored_lit (by decide)) (dec_stored _))
    (stored_lit (by decide)) (stored_append_lit (Stored.append (stored_lit (by decide)) (dec_stored _)) (by decide)))

theorem taskpanesRels_ok (l : List (Str × Str × Str)) (h : AllS (l.flatMap fun x => [x.1, x.2.1, x.2.2])) :
    OkF (taskpanesRelsN l) := by
  rw [AllS_flatMap] at h
  refine relationships_ok (OkF.flatMap fun x hx => ?_)
  have h1 := h x hx
  okStrings h1
  exact relationship_ok h1.2.1 h1.1 h1.2.2

theorem taskpanes_ok : OkF taskpanesN := by
  have h : AttrOk [] := by decide
  unfold taskpanesN
  okRules

theorem braces_ok {s : Str} (h : Stored s) : Stored (c!"{" ++ s ++ c!"}") :=
  stored_append_lit (Stored.append (stored_lit (by decide)) h) (by decide)

theorem WebExtension.ok (w : WebExtension) (h : AllS w.strings) : OkF w.nodes := by
  unfold WebExtension.strings at h
  okStrings h
  rw [AllS_flatMap] at h
  obtain ⟨⟨h1, h2, h3, h4, h5⟩, h6⟩ := h
  have e1 := braces_ok h1
  have e2 : OkF (w.properties.flatMap fun p => leafN c!"we:property" [(c!"name", p.1), (c!"value", p.2)]) := by
    refine OkF.flatMap fun x hx => ?_
    have h1 := h6 x hx
    okStrings h1
    okRules
    all_goals grind
  unfold WebExtension.nodes
  okRules

theorem customItemProperty_ok (id : Str) (h : Stored id) : OkF (customItemPropertyN id) := by
  have e1 := braces_ok h
  unfold customItemPropertyN
  okRules

theorem compatSetting_ok {a b : Str} (ha : Stored a) (hb : Stored b) : OkF (compatSettingN a b) := by
  unfold compatSettingN
  okRules

theorem Settings.ok (s : Settings) (h : AllS s.strings) : OkF s.nodes := by
  unfold Settings.strings at h
  okStrings h
  rw [AllS_flatMap] at h
  have e1 : OkF (s.docVars.flatMap fun v => leafN c!"w:docVar" [(c!"w:name", v.1), (c!"w:val", v.2)]) := by
    refine OkF.flatMap fun x hx => ?_
    have h1 := h.2 x hx
    okStrings h1
    okRules
    all_goals grind
  have e2 : OkF s.compatNodes := by
    unfold Settings.compatNodes
    have e : ∀ a b : Str, plainB a = true → plainB b = true → OkF (compatSettingN a b) :=
      fun a b ha hb => compatSetting_ok (stored_lit ha) (stored_lit hb)
    have e1 := CharacterSpacingValues.attr
    okRules
    all_goals first
      | exact (e1 _)
      | (apply e <;> decide)
  have e3 := fun i hi => braces_ok (h.1 i hi)
  have e4 : OkF (if s.docVars.isEmpty then [] else
      [.elem c!"w:docVars" [] (s.docVars.flatMap fun v => leafN c!"w:docVar" [(c!"w:name", v.1), (c!"w:val", v.2)])]) :=
    OkF.iteElse .nil (.elem (by decide) .nil e1)
  unfold Settings.nodes settingsAttrs
  okRules
  exact e3 _ ‹_›

theorem fontTable_ok : OkF fontTableN := by
  have e := FontPitchType.attr .variable
  unfold fontTableN fontN
  okRules

theorem CommentExtended.ok (c : CommentExtended) (h : AllS c.strings) : OkF c.nodes := by
  unfold CommentExtended.strings at h
  okStrings h
  unfold CommentExtended.nodes
  okRules
  all_goals grind

theorem commentsExtended_ok (l : List CommentExtended) (h : AllS (l.flatMap CommentExtended.strings)) :
    OkF (commentsExtendedN l) := by
  rw [AllS_flatMap] at h
  have e := OkF.flatMap fun a ha => CommentExtended.ok a (h a ha)
  unfold commentsExtendedN commentsExtendedAttrs
  okRules

theorem appProps_ok : OkF appPropsN := by
  unfold appPropsN
  okRules

theorem textEl_ok {name : Str} {as : List (Str × Str)} {s : Str} (hn : NameOk name) (ha : AttrsOk as) (h : Stored s) :
    OkF (textEl name as s) := .elem hn ha (.text h.textOk)

theorem getD_stored {o : Option Str} {d : Str} (h : ∀ s, o = some s → Stored s) (hd : plainB d = true) :
    Stored (o.getD d) := by
  cases o with
  | none => exact stored_lit hd
  | some s => exact h s rfl

theorem CoreProps.ok (p : CoreProps) (h : AllS p.strings) : OkF p.nodes := by
  unfold CoreProps.strings at h
  okStrings h
  obtain ⟨⟨⟨⟨⟨⟨⟨h1, h2⟩, h3⟩, h4⟩, h5⟩, h6⟩, h7⟩, h8⟩ := h
  unfold CoreProps.nodes corePropsAttrs
  okRules
  all_goals first
    | exact textEl_ok (nameOk_lit (by decide)) (.cons (by decide) (attrOk_lit (by decide)) .nil) (getD_stored (by assumption) (by decide))
    | exact textEl_ok (nameOk_lit (by decide)) .nil (getD_stored (by assumption) (by decide))
    | exact textEl_ok (nameOk_lit (by decide)) .nil (dec_stored _)
    | exact textEl_ok (nameOk_lit (by decide)) .nil (by grind)

theorem customProps_ok (l : List (Str × Str)) (h : AllS (l.flatMap fun x => [x.1, x.2])) : OkF (customPropsN l) := by
  rw [AllS_flatMap] at h
  have e : OkF (l.zipIdx.flatMap fun x =>
      [.elem c!"property" [(c!"fmtid", c!"{D5CDD505-2E9C-101B-9397-08002B2CF9AE}"), (c!"pid", dec (x.2 + 2)), (c!"name", x.1.1)]
        (textEl c!"vt:lpwstr" [] x.1.2)]) := by
    refine OkF.flatMap fun x hx => ?_
    have h1 := h x.1 (List.fst_mem_of_mem_zipIdx hx)
    okStrings h1
    have e1 := textEl_ok (nameOk_lit (s := c!"vt:lpwstr") (by decide)) .nil h1.2
    okRules
    all_goals grind
  unfold customPropsN
  okRules

end Docx
