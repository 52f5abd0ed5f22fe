import Verif.Model.ReadTypes
import Verif.Lemmas.Types
import Verif.Lemmas.Witness
import Verif.Props.C23_Numbering

/-!
# C34: content types that are written and content types that are read
-/

namespace Docx.Props

open Docx Docx.Spec Docx.Xml

/-- An element with two attributes. -/
def pairN (name k1 k2 : Str) (x : Str × Str) : Node := .elem name [(k1, x.1), (k2, x.2)] []

private theorem readTypes_pairs (name k1 k2 top : Str) (l : List (Str × Str)) (h : ∀ x ∈ l, Plain x.1 ∧ Plain x.2) (ts : List Tag)
    (t : List (Str × Str)) :
    readTypes (expect [top] none (tagsForest (l.map (pairN name k1 k2)) ++ ts)) 1 t =
      readTypes (expect [top] none ts) 1 (l.foldl (fun t x => insertType x.2 x.1 t) t) := by
  induction l generalizing t with
  | nil => rfl
  | cons x l ih =>
    obtain ⟨h1, h2⟩ := h x (.head _)
    simp only [List.map_cons, pairN, tagsForest, Node.tags, List.nil_append, List.cons_append, expect, expectText, readTypes, if_true,
      expectAttrs, h1.decode, h2.decode, List.foldl_cons]
    exact ih (fun y hy => h y (.tail _ hy)) _

/-- The extensions that get a content type, and the types. -/
def defaultTypes : List (Str × Str) :=
  [ (c!"png", c!"image/png"), (c!"jpeg", c!"image/jpeg"), (c!"jpg", c!"image/jpg"), (c!"bmp", c!"image/bmp"), (c!"gif", c!"image/gif"),
    (c!"rels", c!"application/vnd.openxmlformats-package.relationships+xml"), (c!"xml", c!"application/xml") ]

private theorem nodes_eq (c : ContentTypes) :
    c.nodes = [.elem c!"Types" [(c!"xmlns", c!"http://schemas.openxmlformats.org/package/2006/content-types")]
      ((defaultTypes.map Prod.swap).map (pairN c!"Default" c!"ContentType" c!"Extension") ++
        c.types.map (pairN c!"Override" c!"PartName" c!"ContentType"))] := by
  have : (c.types.flatMap fun t => overrideTypeN t.1 t.2) = c.types.map (pairN c!"Override" c!"PartName" c!"ContentType") := by
    generalize c.types = l
    induction l with
    | nil => rfl
    | cons x l ih => rw [List.flatMap_cons, ih]; rfl
  unfold ContentTypes.nodes
  rw [this]
  rfl

/-- What is read from a written table: the type of every extension, and for every part a type whose part name is the type of the part and
whose type is the name of the part. -/
def swappedTypes (l : List (Str × Str)) : List (Str × Str) :=
  (defaultTypes ++ l.map Prod.swap).foldl (fun t x => insertType x.1 x.2 t) []

private theorem readTypes_written (c : ContentTypes) (h : ∀ x ∈ c.types, Plain x.1 ∧ Plain x.2) :
    contentTypesFromXml (constText none c.nodes) = some (swappedTypes c.types) := by
  have hs : AllS c.strings := by
    intro s hs
    unfold ContentTypes.strings at hs
    obtain ⟨x, hx, h1⟩ := List.mem_flatMap.1 hs
    simp only [List.mem_cons, List.not_mem_nil, or_false] at h1
    rcases h1 with rfl | rfl
    · exact (h x hx).1.stored
    · exact (h x hx).2.stored
  have hd : ∀ x ∈ defaultTypes.map Prod.swap, Plain x.1 ∧ Plain x.2 := by
    intro x hx
    have : ∀ x ∈ defaultTypes.map Prod.swap, plainB x.1 = true ∧ plainB x.2 = true := by decide
    exact ⟨plain_lit (this x hx).1, plain_lit (this x hx).2⟩
  rw [contentTypesFromXml, constText_reads none (c.ok hs), nodes_eq]
  simp only [tagsForest, Node.tags, List.append_nil, List.cons_append, expect, expectText, List.nil_append, readTypes]
  rw [if_neg (by decide), show (0 : Int) + 1 = 1 from rfl, tagsForest_append, List.append_assoc, readTypes_pairs _ _ _ _ _ hd, readTypes_pairs _ _ _ _ _ h]
  simp only [expect, expectText, List.nil_append, readTypes, swappedTypes, List.foldl_append, List.foldl_map, Prod.fst_swap, Prod.snd_swap]

/-- **C34: what reading the table of a written package gives.** For every package, the table that is read has, besides the types of
extensions, every pair the wrong way round. -/
theorem C34_read (cs : List Call) (d : DocxFile) (env : Env) (w : World) (es : List Entry) (hc : DocxFile.new.calls cs = some d)
    (h : Packed env d w es) :
    ∃ s, ⟨c!"[Content_Types].xml", .text s⟩ ∈ es ∧ contentTypesFromXml s = some (swappedTypes (overridesIn (readEvents s))) := by
  have hf := packed_fits h
  have hb := (preparePackage_books env d w).1
  generalize d.preparePackage env w = q at hf hb
  have hp : ∀ x ∈ q.1.contentType.types, Plain x.1 ∧ Plain x.2 := by
    have h1 := (calls_sound hc).typed
    have h2 := (calls_typed hc).kinds
    have h3 : ∀ x ∈ d.contentType.types, Plain x.1 ∧ Plain x.2 := fun x hx => ⟨plain_typed (h1 x hx), plain_type (h2 x hx)⟩
    rw [hb]
    split
    · exact h3
    · intro x hx
      rcases insertType_keys _ _ _ _ hx with rfl | hx
      · exact ⟨plain_lit (s := c!"/word/footnotes.xml") (by decide), plain_lit (s := wordType c!"footnotes") (by decide)⟩
      · exact h3 x hx
  exact ⟨_, fits_const hf (step_contentTypes _ _ _) (contentTypes_const _), by
    rw [contentTypes_read _ hp]; exact readTypes_written _ hp⟩

private theorem foldl_keys (l : List (Str × Str)) : ∀ (t : List (Str × Str)) (x : Str × Str),
    x ∈ l.foldl (fun t x => insertType x.1 x.2 t) t → x ∈ t ∨ x ∈ l := by
  induction l with
  | nil => intro t x h; exact .inl h
  | cons y l ih =>
    intro t x h
    rcases ih _ _ h with h | h
    · rcases insertType_keys _ _ _ _ h with h | h
      · exact .inr (h ▸ .head _)
      · exact .inl h
    · exact .inr (.tail _ h)

/-- **C34 fails** for every written package: `/word/document.xml` has a content type in it, and none in the table that is read. -/
theorem C34_fails (cs : List Call) (d : DocxFile) (env : Env) (w : World) (es : List Entry) (hc : DocxFile.new.calls cs = some d)
    (h : Packed env d w es) :
    ∃ s t, ⟨c!"[Content_Types].xml", .text s⟩ ∈ es ∧ contentTypesFromXml s = some t ∧
      c!"/word/document.xml" ∈ (overridesIn (readEvents s)).map Prod.fst ∧ c!"/word/document.xml" ∉ t.map Prod.fst := by
  obtain ⟨s, c, h1, h2, h3⟩ := packed_types (calls_sound hc) (calls_typed hc) h
  obtain ⟨s', h1', h2'⟩ := C34_read cs d env w es hc h
  have e : s' = s := by
    have := entry_unique (packed_nodup h) h1 h1'
    cases this
    rfl
  subst e
  refine ⟨s', _, h1, h2', ?_, ?_⟩
  · rw [h2]
    have hk : c!"/word/document.xml" ∈ d.contentType.types.map Prod.fst := (calls_typed hc).defaults _ (by decide)
    rw [h3]
    split
    · exact hk
    · exact insertType_kept _ _ _ _ hk
  · intro hx
    obtain ⟨x, hx, e⟩ := List.mem_map.1 hx
    rcases foldl_keys _ _ _ hx with hx | hx
    · cases hx
    · rcases List.mem_append.1 hx with hx | hx
      · have : ∀ x ∈ defaultTypes, x.1 ≠ c!"/word/document.xml" := by decide
        exact this x hx e
      · obtain ⟨y, hy, rfl⟩ := List.mem_map.1 hx
        rw [Prod.fst_swap] at e
        rw [h2, h3] at hy
        have hk : contentTypeOf y.1 = some y.2 := by
          have h2 := (calls_typed hc).kinds
          split at hy
          · exact h2 y hy
          · rcases insertType_keys _ _ _ _ hy with rfl | hy
            · decide
            · exact h2 y hy
        have n1 : ∀ x ∈ numberedTypes, x.2 ≠ c!"/word/document.xml" := by decide
        have n2 : ∀ x ∈ partTypes, x.2 ≠ c!"/word/document.xml" := by decide
        unfold contentTypeOf at hk
        split at hk
        · rename_i z hz
          simp only [Option.some.injEq] at hk
          exact n1 z (List.mem_of_find?_eq_some hz) (hk.trans e)
        · obtain ⟨z, hz, hz2⟩ := Option.map_eq_some_iff.1 hk
          exact n2 z (List.mem_of_find?_eq_some hz) (hz2.trans e)

/-- The hypotheses of `C34_read` and `C34_fails` hold of a document with a header. -/
example : ∃ d es, DocxFile.new.calls [.header (aHeader c!"h"), .addParagraph (aParagraph c!"p")] = some d ∧ Packed anEnv d {} es := by
  have : packs (fun _ _ => true) [.header (aHeader c!"h"), .addParagraph (aParagraph c!"p")] = true := by decide +kernel
  obtain ⟨d, es, h1, h2, _⟩ := packs_spec this
  exact ⟨d, es, h1, h2⟩

/-- A table of content types as some other programs write it: the type comes first. -/
def typeFirst (l : List (Str × Str)) : List Node :=
  [.elem c!"Types" [(c!"xmlns", c!"http://schemas.openxmlformats.org/package/2006/content-types")]
    (l.map fun x => .elem c!"Override" [(c!"ContentType", x.2), (c!"PartName", x.1)] [])]

private theorem foldl_mem (l : List (Str × Str)) (hd : (l.map Prod.fst).Nodup) : ∀ (t : List (Str × Str)),
    (∀ x ∈ t, x.1 ∉ l.map Prod.fst) → ∀ x, x ∈ l.foldl (fun t x => insertType x.1 x.2 t) t ↔ x ∈ t ∨ x ∈ l := by
  induction l with
  | nil => intro t _ x; simp
  | cons y l ih =>
    intro t ht x
    have hd' := (List.nodup_cons.1 hd)
    rw [List.foldl_cons, ih hd'.2]
    · constructor
      · rintro (h | h)
        · rcases insertType_keys _ _ _ _ h with h | h
          · exact .inr (h ▸ .head _)
          · exact .inl h
        · exact .inr (.tail _ h)
      · rintro (h | h)
        · exact .inl (insertType_other _ _ _ _ h fun e => ht x h (by rw [List.map_cons, e]; exact .head _))
        · rcases List.mem_cons.1 h with rfl | h
          · exact .inl (insertType_mem _ _ _)
          · exact .inr h
    · intro z hz
      rcases insertType_keys _ _ _ _ hz with rfl | hz
      · exact hd'.1
      · exact fun e => ht z hz (.tail _ e)

/-- **C34, partial.** A table that was written with the type first is read as it stands. Missing: the tables this library writes. -/
theorem C34_type_first_partial (l : List (Str × Str)) (h : ∀ x ∈ l, Plain x.1 ∧ Plain x.2) (hd : (l.map Prod.fst).Nodup) :
    ∃ t, contentTypesFromXml (printForest (typeFirst l)) = some t ∧ ∀ x, x ∈ t ↔ x ∈ l := by
  have e : (l.map fun x => Node.elem c!"Override" [(c!"ContentType", x.2), (c!"PartName", x.1)] []) =
      (l.map Prod.swap).map (pairN c!"Override" c!"ContentType" c!"PartName") := by rw [List.map_map]; rfl
  have hn : ∀ n ∈ [c!"Types", c!"xmlns", c!"Override", c!"ContentType", c!"PartName"], NameOk n := by unfold NameOk; decide
  have hok : ∀ l : List (Str × Str), (∀ x ∈ l, Plain x.1 ∧ Plain x.2) →
      ∀ t ∈ tagsForest (l.map (pairN c!"Override" c!"ContentType" c!"PartName")), TagOk t := by
    intro l
    induction l with
    | nil => intro _ t ht; cases ht
    | cons x l ih =>
      intro h t ht
      simp only [List.map_cons, tagsForest, pairN, Node.tags, List.nil_append, List.cons_append, List.mem_cons] at ht
      rcases ht with rfl | rfl | ht
      · refine ⟨hn _ (by decide), fun a ha => ?_⟩
        simp only [List.mem_cons, List.not_mem_nil, or_false] at ha
        rcases ha with rfl | rfl
        · exact ⟨hn c!"ContentType" (by decide), by rw [(h x (.head _)).1.decode]; rfl⟩
        · exact ⟨hn c!"PartName" (by decide), by rw [(h x (.head _)).2.decode]; rfl⟩
      · trivial
      · exact ih (fun y hy => h y (.tail _ hy)) t ht
  have hw : ∀ x ∈ l.map Prod.swap, Plain x.1 ∧ Plain x.2 := by
    intro x hx
    obtain ⟨y, hy, rfl⟩ := List.mem_map.1 hx
    exact ⟨(h y hy).2, (h y hy).1⟩
  have hall : ∀ t ∈ tagsForest (typeFirst l), TagOk t := by
    intro t ht
    unfold typeFirst at ht
    rw [e] at ht
    simp only [tagsForest, Node.tags, List.append_nil, List.mem_cons, List.mem_append, List.not_mem_nil, or_false] at ht
    rcases ht with rfl | ht | rfl
    · refine ⟨hn _ (by decide), fun a ha => ?_⟩
      simp only [List.mem_cons, List.not_mem_nil, or_false] at ha
      subst ha
      exact ⟨hn _ (by decide), by decide⟩
    · exact hok _ hw t ht
    · trivial
  refine ⟨l.foldl (fun t x => insertType x.1 x.2 t) [], ?_, fun x => ?_⟩
  · rw [contentTypesFromXml, C06_read_print _ hall]
    unfold typeFirst
    rw [e]
    simp only [tagsForest, Node.tags, List.append_nil, List.cons_append, expect, expectText, List.nil_append, readTypes]
    rw [if_neg (by decide), show (0 : Int) + 1 = 1 from rfl, readTypes_pairs _ _ _ _ _ hw]
    simp only [expect, expectText, List.nil_append, readTypes, List.foldl_map, Prod.fst_swap, Prod.snd_swap]
  · rw [foldl_mem l hd [] (fun x hx => by cases hx)]
    simp

/-- Two parts, met by the hypotheses of `C34_type_first_partial`. -/
example : ∃ t, contentTypesFromXml (printForest (typeFirst [(c!"/word/document.xml", c!"t"), (c!"/a.xml", c!"u")])) = some t ∧
    ∀ x, x ∈ t ↔ x ∈ [(c!"/word/document.xml", c!"t"), (c!"/a.xml", c!"u")] :=
  C34_type_first_partial _ (fun x hx => by
    have : ∀ x ∈ [(c!"/word/document.xml", c!"t"), (c!"/a.xml", c!"u")], plainB x.1 = true ∧ plainB x.2 = true := by decide
    exact ⟨plain_lit (this x hx).1, plain_lit (this x hx).2⟩) (by decide)

/-- An element with one attribute makes the reader panic. -/
theorem C34_panics : contentTypesFromXml c!"<Types><Default Extension=\"png\"/></Types>" = none := by decide +kernel

end Docx.Props
