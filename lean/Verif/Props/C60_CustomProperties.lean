import Verif.Lemmas.ReadMore
import Verif.Lemmas.ReadRelsDoc
import Verif.Lemmas.KeptBody
import Verif.Lemmas.Threads
import Verif.Lemmas.HeldParts
import Verif.Lemmas.Witness
import Verif.Spec.PartsRead

/-!
# C60: custom properties survive writing and reading
-/

namespace Docx.Props
open Docx.Spec Docx.Xml

theorem attachHeader_custom (h : Option Header) (f) (x : DocxFile × SectionProperty) : (attachHeader h f x).1.custom = x.1.custom := by
  cases h <;> rfl
theorem attachFooter_custom (h : Option Header) (f) (x : DocxFile × SectionProperty) : (attachFooter h f x).1.custom = x.1.custom := by
  cases h <;> rfl

theorem calls_custom (cs : List Call) : ∀ (d d' : DocxFile), d.calls cs = some d' →
    d'.custom = (cs.filterMap propertySet).foldl (fun m p => hashInsert p.1 p.2 m) d.custom := by
  induction cs with
  | nil => intro d d' h; cases h; rfl
  | cons c cs ih =>
    intro d d' h
    rw [DocxFile.calls] at h
    cases e : d.call c with
    | none => rw [e] at h; cases h
    | some d1 =>
      rw [e] at h
      rw [ih d1 d' h]
      have : d1.custom = (match propertySet c with | some p => hashInsert p.1 p.2 d.custom | none => d.custom) := by
        clear ih h
        cases c
        case addCustomItem id xml =>
          simp only [DocxFile.call] at e
          split at e <;> cases e
          rfl
        all_goals
          simp only [DocxFile.call, Option.some.injEq] at e
          subst e
          first
          | rfl
          | (simp only [DocxFile.addSection, DocxFile.attachParts, propertySet, attachFooter_custom, attachHeader_custom]; rfl)
      rw [this]
      cases hp : propertySet c with
      | none => rw [List.filterMap_cons_none hp]
      | some p => rw [List.filterMap_cons_some hp]; rfl

/-- The value last given to a name. -/
def lastGiven (l : List (Str × Str)) (name : Str) : Option Str := ((l.filter fun p => decide (p.1 = name)).map Prod.snd).getLast?

theorem mem_folded (l : List (Str × Str)) (name v : Str) : ∀ m : List (Str × Str),
    (name, v) ∈ l.foldl (fun m p => hashInsert p.1 p.2 m) m ↔ lastGiven l name = some v ∨ (lastGiven l name = none ∧ (name, v) ∈ m) := by
  induction l with
  | nil => intro m; simp [lastGiven]
  | cons p l ih =>
    intro m
    obtain ⟨k, w⟩ := p
    rw [List.foldl_cons, ih, hashInsert_mem]
    by_cases h : k = name
    · have : lastGiven ((k, w) :: l) name = (lastGiven l name).or (some w) := by
        rw [lastGiven, List.filter_cons_of_pos (by simpa using h), List.map_cons, lastGiven]
        generalize (l.filter _).map Prod.snd = q
        cases q <;> simp [List.getLast?_cons]
      rw [this]
      subst h
      cases lastGiven l k <;> simp [eq_comm]
    · have : lastGiven ((k, w) :: l) name = lastGiven l name := by
        rw [lastGiven, List.filter_cons_of_neg (by simpa using h), lastGiven]
      have h' : name ≠ k := fun e => h e.symm
      rw [this]
      simp [h']

theorem keys_folded (l : List (Str × Str)) : ∀ m : List (Str × Str), (m.map Prod.fst).Nodup →
    ((l.foldl (fun m p => hashInsert p.1 p.2 m) m).map Prod.fst).Nodup := by
  induction l with
  | nil => exact fun m h => h
  | cons p l ih => exact fun m h => ih _ (hashInsert_nodup _ _ _ h)

theorem putProperty_eq (m : List (Str × Str)) (k v : Str) : putProperty m k v = if blankText v then m else hashInsert k v m := by
  unfold putProperty blankText
  congr 1
  simp [or_assoc]

/-- Properties with different names, read back. -/
theorem mem_reread (l : List (Str × Str)) (hk : (l.map Prod.fst).Nodup) (hp : ∀ v ∈ l, PlainValue v.1 ∧ PlainValue v.2) (name v : Str) :
    (name, v) ∈ rereadProps l ↔ (name, v) ∈ l ∧ blankText v = false := by
  suffices h : ∀ (l : List (Str × Str)), (l.map Prod.fst).Nodup → (∀ v ∈ l, PlainValue v.1 ∧ PlainValue v.2) → ∀ m : List (Str × Str),
      (∀ p ∈ m, ∀ q ∈ l, p.1 ≠ q.1) →
      ((name, v) ∈ l.foldl (fun m v => putProperty m (seen v.1) ((decodeText v.2).getD [])) m ↔
        ((name, v) ∈ l ∧ blankText v = false) ∨ (name, v) ∈ m) from by
    rw [rereadProps, h l hk hp [] (fun _ h => by cases h)]
    simp
  clear hk hp l
  intro l
  induction l with
  | nil => intro _ _ m _; simp
  | cons a l ih =>
    intro hk hp m hd
    obtain ⟨k, w⟩ := a
    rw [List.map_cons, List.nodup_cons] at hk
    have h1 := hp _ (.head _)
    have e1 : seen k = k := Spec.PlainValue.seen h1.1
    have e2 : (decodeText w).getD [] = w := by
      rw [show decodeText w = some w from decodeFrom_plainString w (fun hc => (h1.2 _ hc).1 rfl) (fun hc => (h1.2 _ hc).2.1 rfl)]
      rfl
    have hl : ∀ q ∈ l, k ≠ q.1 := fun q hq e => hk.1 (by rw [show (k, w).1 = q.1 from e]; exact List.mem_map_of_mem hq)
    have hm : ∀ p ∈ m, p.1 ≠ k := fun p hp => hd p hp _ (.head _)
    rw [List.foldl_cons]
    dsimp only
    rw [e1, e2, putProperty_eq, ih hk.2 (fun v hv => hp v (.tail _ hv))]
    · cases hb : blankText w with
      | true =>
        simp only [if_true, List.mem_cons, Prod.mk.injEq]
        constructor
        · rintro (⟨h, h'⟩ | h)
          · exact .inl ⟨.inr h, h'⟩
          · exact .inr h
        · rintro (⟨⟨rfl, rfl⟩ | h, h'⟩ | h)
          · rw [hb] at h'; cases h'
          · exact .inl ⟨h, h'⟩
          · exact .inr h
      | false =>
        simp only [Bool.false_eq_true, if_false, hashInsert_mem, List.mem_cons, Prod.mk.injEq]
        constructor
        · rintro (⟨h, h'⟩ | ⟨rfl, rfl⟩ | ⟨h, h'⟩)
          · exact .inl ⟨.inr h, h'⟩
          · exact .inl ⟨.inl ⟨rfl, rfl⟩, hb⟩
          · exact .inr h
        · rintro (⟨⟨rfl, rfl⟩ | h, h'⟩ | h)
          · exact .inr (.inl ⟨rfl, rfl⟩)
          · exact .inl ⟨h, h'⟩
          · exact .inr (.inr ⟨h, hm _ h⟩)
    · intro p hp q hq
      split at hp
      · exact hd p hp q (.tail _ hq)
      · rcases (hashInsert_mem _ _ _ _).1 hp with rfl | hp
        · exact hl q hq
        · exact hd p hp.1 q (.tail _ hq)

/-- The part for custom properties is read, and what is read has the property `good`. -/
def PropertiesReadAs (x : ReadEnv) (es : List Entry) (good : List (Str × Str) → Prop) : Prop :=
  ∃ text, ⟨c!"docProps/custom.xml", .text text⟩ ∈ es ∧ ∃ k, ∀ n, k ≤ n → ∃ m, readCustomProps x n text = .ok m [] ∧ good m

theorem packed_custom (x : ReadEnv) {cs : List Call} {d : DocxFile} {env : Env} {w : World} {es : List Entry}
    (hc : DocxFile.new.calls cs = some d) (he : ∀ l, (env.props l).Perm l) (h : Packed env d w es)
    (hs : AllS (d.custom.flatMap fun v => [v.1, v.2])) :
    PropertiesReadAs x es fun m => m = rereadProps (env.props d.custom) := by
  obtain ⟨s, g, g', h1, h2⟩ := fits_write (packed_fits h) (step_custom _ _ _)
  have hcst := custom_const env (d.preparePackage env w).1
  have e : s = constText (some true) (customPropsN (env.props d.custom)) := by
    have := hcst g
    rw [h1] at this
    rw [(preparePackage_same env d w).2.2.1] at this
    simp only [Option.some.injEq, Prod.mk.injEq, Except.ok.injEq] at this
    exact this.1
  have hs' : AllS ((env.props d.custom).flatMap fun v => [v.1, v.2]) := by
    intro t ht
    obtain ⟨v, hv, ht⟩ := List.mem_flatMap.1 ht
    exact hs t (List.mem_flatMap.2 ⟨v, (he d.custom).mem_iff.1 hv, ht⟩)
  obtain ⟨k, hk⟩ := reads_props (x := x) _ hs'
  exact ⟨s, h2, k, fun n hn => ⟨_, by rw [e]; exact hk n hn, rfl⟩⟩

theorem custom_given {cs : List Call} {d : DocxFile} (hc : DocxFile.new.calls cs = some d) (name v : Str) :
    (name, v) ∈ d.custom ↔ lastProperty cs name = some v := by
  rw [calls_custom cs _ _ hc, mem_folded]
  rw [show DocxFile.new.custom = [] from rfl]
  simp [lastGiven, lastProperty]

/-- **C60.** A custom property is read back from a packed file exactly if it was set, with the value it was last given; one whose
value is blank is not there. `env.props` is the order a hash map has at the time, whatever that is. -/
theorem C60_properties (x : ReadEnv) (cs : List Call) (d : DocxFile) (env : Env) (w : World) (es : List Entry)
    (hc : DocxFile.new.calls cs = some d) (he : ∀ l, (env.props l).Perm l) (h : Packed env d w es)
    (hp : ∀ name value, Call.customProperty name value ∈ cs → PlainValue name ∧ PlainValue value) :
    PropertiesReadAs x es fun m => ∀ name value, (name, value) ∈ m ↔ lastProperty cs name = some value ∧ blankText value = false := by
  have hpl : ∀ v ∈ d.custom, PlainValue v.1 ∧ PlainValue v.2 := by
    intro v hv
    have := (custom_given hc v.1 v.2).1 hv
    have hm := List.mem_of_getLast? this
    obtain ⟨q, hq, e⟩ := List.mem_map.1 hm
    obtain ⟨hq, hq'⟩ := List.mem_filter.1 hq
    obtain ⟨c, hc', hq⟩ := List.mem_filterMap.1 hq
    obtain ⟨key, item, rfl, rfl⟩ : ∃ key item, c = .customProperty key item ∧ q = (key, item) := by
      cases c <;> cases hq
      exact ⟨_, _, rfl, rfl⟩
    have e' : key = v.1 := by simpa using hq'
    rw [← e', ← e]
    exact hp _ _ hc'
  obtain ⟨t, h1, k, hk⟩ := packed_custom x hc he h (fun s hs => by
    obtain ⟨v, hv, hs⟩ := List.mem_flatMap.1 hs
    simp only [List.mem_cons, List.not_mem_nil, or_false] at hs
    rcases hs with rfl | rfl
    · exact stored_of_plain (hpl v hv).1
    · exact stored_of_plain (hpl v hv).2)
  refine ⟨t, h1, k, fun n hn => ?_⟩
  obtain ⟨m, h2, rfl⟩ := hk n hn
  refine ⟨_, h2, fun name value => ?_⟩
  have hperm := he d.custom
  have hkeys : ((env.props d.custom).map Prod.fst).Nodup := by
    rw [(hperm.map Prod.fst).nodup_iff, calls_custom cs _ _ hc]
    exact keys_folded _ _ (by rw [show DocxFile.new.custom = [] from rfl]; exact .nil)
  rw [mem_reread _ hkeys (fun v hv => hpl v (hperm.mem_iff.1 hv)), hperm.mem_iff, custom_given hc]

theorem properties_unique {x : ReadEnv} {env : Env} {d : DocxFile} {w : World} {es : List Entry} (h : Packed env d w es)
    {a b : List (Str × Str) → Prop} (ha : PropertiesReadAs x es a) (hb : PropertiesReadAs x es b) : ∃ m, a m ∧ b m := by
  obtain ⟨t, h1, k, hk⟩ := ha
  obtain ⟨t', h1', k', hk'⟩ := hb
  have := entry_unique (packed_nodup h) h1 h1'
  cases this
  obtain ⟨u, e1, e2⟩ := hk (max k k') (Nat.le_max_left _ _)
  obtain ⟨v, f1, f2⟩ := hk' (max k k') (Nat.le_max_right _ _)
  rw [e1] at f1
  cases f1
  exact ⟨u, e2, f2⟩

/-- **C60, in part.** All properties come back exactly if none was last given a blank value. Full statement: always. -/
theorem C60_same_partial (x : ReadEnv) (cs : List Call) (d : DocxFile) (env : Env) (w : World) (es : List Entry)
    (hc : DocxFile.new.calls cs = some d) (he : ∀ l, (env.props l).Perm l) (h : Packed env d w es)
    (hp : ∀ name value, Call.customProperty name value ∈ cs → PlainValue name ∧ PlainValue value) :
    (PropertiesReadAs x es fun m => ∀ name value, (name, value) ∈ m ↔ lastProperty cs name = some value) ↔
      ∀ name value, lastProperty cs name = some value → blankText value = false := by
  have hr := C60_properties x cs d env w es hc he h hp
  constructor
  · intro hi name value hl
    obtain ⟨m, h1, h2⟩ := properties_unique h hr hi
    exact ((h1 name value).1 ((h2 name value).2 hl)).2
  · intro ha
    obtain ⟨t, h1, k, hk⟩ := hr
    refine ⟨t, h1, k, fun n hn => ?_⟩
    obtain ⟨m, h2, h3⟩ := hk n hn
    exact ⟨m, h2, fun name value => (h3 name value).trans ⟨And.left, fun hl => ⟨hl, ha name value hl⟩⟩⟩

/-- **C60 fails** for values that show a reference: they are written as they are, so `&lt;` is read as `<`. -/
theorem C60_fails_reference (x : ReadEnv) (d : DocxFile) (env : Env) (w : World) (es : List Entry)
    (hc : DocxFile.new.calls [.customProperty c!"sign" c!"&lt;"] = some d) (he : ∀ l, (env.props l).Perm l) (h : Packed env d w es) :
    PropertiesReadAs x es fun m => m = [(c!"sign", c!"<")] := by
  have hd : d.custom = [(c!"sign", c!"&lt;")] := calls_custom _ _ _ hc
  obtain ⟨t, h1, k, hk⟩ := packed_custom x hc he h (by
    rw [hd]
    intro s hs
    simp only [List.flatMap_cons, List.flatMap_nil, List.append_nil, List.mem_cons, List.not_mem_nil, or_false] at hs
    rcases hs with rfl | rfl
    · exact stored_of_plain (plain_lit (by decide))
    · exact ⟨by decide, by decide, by decide⟩)
  refine ⟨t, h1, k, fun n hn => ?_⟩
  obtain ⟨m, h2, rfl⟩ := hk n hn
  refine ⟨_, h2, ?_⟩
  rw [hd, List.perm_singleton.1 (he [(c!"sign", c!"&lt;")])]
  decide +kernel

private def propertyCalls : List Call :=
  [.customProperty c!"author" c!"Ann", .customProperty c!"year" c!"2023", .customProperty c!"note" c!"", .customProperty c!"year" c!"2024"]

private theorem property_pack : packs (fun _ _ => true) propertyCalls = true := by decide +kernel

/-- A packed file meets the hypotheses of `C60_properties`; one property was set twice, one is blank. -/
example : ∃ d es, DocxFile.new.calls propertyCalls = some d ∧ (∀ l, (anEnv.props l).Perm l) ∧ Packed anEnv d {} es ∧
    (∀ name value, Call.customProperty name value ∈ propertyCalls → PlainValue name ∧ PlainValue value) ∧
    lastProperty propertyCalls c!"year" = some c!"2024" ∧ lastProperty propertyCalls c!"author" = some c!"Ann" ∧
    lastProperty propertyCalls c!"note" = some [] := by
  obtain ⟨d, es, h1, h2, _⟩ := packs_spec property_pack
  refine ⟨d, es, h1, fun l => .refl _, h2, fun name value hm => ?_, by decide, by decide, by decide⟩
  simp only [propertyCalls, List.mem_cons, List.not_mem_nil, or_false, Call.customProperty.injEq] at hm
  rcases hm with ⟨rfl, rfl⟩ | ⟨rfl, rfl⟩ | ⟨rfl, rfl⟩ | ⟨rfl, rfl⟩ <;> exact ⟨plain_lit (by decide), plain_lit (by decide)⟩

private theorem reference_pack : packs (fun _ _ => true) [.customProperty c!"sign" c!"&lt;"] = true := by decide +kernel

/-- A packed file meets the hypotheses of `C60_fails_reference`. -/
example : ∃ d es, DocxFile.new.calls [.customProperty c!"sign" c!"&lt;"] = some d ∧ (∀ l, (anEnv.props l).Perm l) ∧ Packed anEnv d {} es := by
  obtain ⟨d, es, h1, h2, _⟩ := packs_spec reference_pack
  exact ⟨d, es, h1, fun l => .refl _, h2⟩

end Docx.Props
