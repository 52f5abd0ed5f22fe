import Verif.Spec.Json
import Verif.Lemmas.Found

/-!
# The texts in the JSON form of a document are those of the document
-/

namespace Docx

open Spec

set_option linter.unusedSimpArgs false

/-- The text of an item of the part itself. -/
def textAt (w : List Place) (i : Item) : List Str :=
  if inPart w then (match i with | .runChild (.text t) => [t] | .runChild (.deleteText t) => [t] | _ => []) else []

theorem keptTexts_pick (d : Document) : keptTexts d = pick textAt (walkDocument d) := by
  unfold keptTexts
  rw [within_pick]
  congr 1
  funext w i
  unfold textAt
  split
  · cases i with
    | runChild c => cases c <;> rfl
    | _ => rfl
  · rfl

private theorem outside {w : List Place} (h : ∀ a, inPart (a ++ w) = false) : Dead textAt w := by
  intro a i
  simp [textAt, h a]

theorem dead_text_comment (w : List Place) : Dead textAt (.comment :: w) := outside fun a => by simp [inPart]
theorem dead_text_footnote (w : List Place) : Dead textAt (.footnote :: w) := outside fun a => by simp [inPart]
theorem dead_text_box (w : List Place) : Dead textAt (.textBox :: w) := outside fun a => by simp [inPart]
theorem dead_text_header (w : List Place) : Dead textAt (.header :: w) := outside fun a => by simp [inPart]
theorem dead_text_footer (w : List Place) : Dead textAt (.footer :: w) := outside fun a => by simp [inPart]

theorem inPart_push {p : Place} {w : List Place} (h : inPart w = true) (hp : p ∉ [Place.comment, .footnote, .textBox, .header, .footer]) : inPart (p :: w) = true := by
  simp only [List.mem_cons, List.not_mem_nil, or_false, not_or] at hp
  simp only [inPart, Bool.and_eq_true, decide_eq_true_eq, List.mem_cons, not_or] at h ⊢
  exact ⟨⟨⟨⟨⟨Ne.symm hp.1, h.1.1.1.1⟩, ⟨Ne.symm hp.2.1, h.1.1.1.2⟩⟩, ⟨Ne.symm hp.2.2.1, h.1.1.2⟩⟩, ⟨Ne.symm hp.2.2.2.1, h.1.2⟩⟩, ⟨Ne.symm hp.2.2.2.2, h.2⟩⟩

theorem kindOf_none {fs : List (Str × Json)} (h : ∀ f ∈ fs, f.1 ≠ c!"type") : kindOf fs = none := by
  have : fs.lookup c!"type" = none := by
    rw [List.lookup_eq_none_iff]
    intro f hf
    have := h f hf
    simpa using Ne.symm this
  rw [kindOf, this]

theorem texts_untyped {fs : List (Str × Json)} (h : kindOf fs = none) : Json.texts (.obj fs) = jsonTextsIn fs := by
  rw [Json.texts, h]
  simp

theorem texts_in {t : Str} {d : Json} (h : t ∈ containers) (hn : t ≠ c!"text" ∧ t ≠ c!"deleteText") : Json.texts (tagged t d) = Json.texts d := by
  have hk : kindOf [(c!"type", .str t), (c!"data", d)] = some t := rfl
  rw [tagged, Json.texts, hk, if_neg (by simpa only [Option.some.injEq, not_or] using hn), if_pos (by intro x hx; cases hx; exact h)]
  rw [jsonTextsIn, if_neg (by decide), jsonTextsIn, if_pos (by decide), jsonTextsIn, List.nil_append, List.append_nil]

theorem texts_out {t : Str} {d : Json} (h : t ∉ containers) (hn : t ≠ c!"text" ∧ t ≠ c!"deleteText") : Json.texts (tagged t d) = [] := by
  have hk : kindOf [(c!"type", .str t), (c!"data", d)] = some t := rfl
  rw [tagged, Json.texts, hk, if_neg (by simpa only [Option.some.injEq, not_or] using hn), if_neg (fun x => h (x t rfl))]

theorem texts_just {t : Str} (h : t ∉ containers) (hn : t ≠ c!"text" ∧ t ≠ c!"deleteText") : Json.texts (justType t) = [] := by
  have hk : kindOf [(c!"type", .str t)] = some t := rfl
  rw [justType, Json.texts, hk, if_neg (by simpa only [Option.some.injEq, not_or] using hn), if_neg (fun x => h (x t rfl))]

theorem texts_text (s : Str) : Json.texts (tagged c!"text" (textJson s)) = [s] := by
  have hk : kindOf [(c!"type", .str c!"text"), (c!"data", textJson s)] = some c!"text" := rfl
  have hl : ([(c!"type", Json.str c!"text"), (c!"data", textJson s)] : List (Str × Json)).lookup c!"data" = some (textJson s) := rfl
  have hf : Json.field c!"text" (textJson s) = some (.str s) := rfl
  rw [tagged, Json.texts, hk, if_pos (.inl rfl), hl, Option.bind_some, hf]

theorem texts_deleteText (s : Str) : Json.texts (tagged c!"deleteText" (deleteTextJson s)) = [s] := by
  have hk : kindOf [(c!"type", .str c!"deleteText"), (c!"data", deleteTextJson s)] = some c!"deleteText" := rfl
  have hl : ([(c!"type", Json.str c!"deleteText"), (c!"data", deleteTextJson s)] : List (Str × Json)).lookup c!"data" = some (deleteTextJson s) := rfl
  have hf : Json.field c!"text" (deleteTextJson s) = some (.str s) := rfl
  rw [tagged, Json.texts, hk, if_pos (.inr rfl), hl, Option.bind_some, hf]

theorem in_key {k : Str} {v : Json} {fs : List (Str × Json)} (h : k ∈ contentKeys) : jsonTextsIn ((k, v) :: fs) = Json.texts v ++ jsonTextsIn fs := by
  rw [jsonTextsIn, if_pos h]

theorem out_key {k : Str} {v : Json} {fs : List (Str × Json)} (h : k ∉ contentKeys) : jsonTextsIn ((k, v) :: fs) = jsonTextsIn fs := by
  rw [jsonTextsIn, if_neg h, List.nil_append]

theorem jsonTextsIn_append : ∀ (a b : List (Str × Json)), jsonTextsIn (a ++ b) = jsonTextsIn a ++ jsonTextsIn b
  | [], b => by rw [jsonTextsIn]; rfl
  | (k, v) :: a, b => by rw [List.cons_append, jsonTextsIn, jsonTextsIn, jsonTextsIn_append a b, List.append_assoc]

theorem jsonTextsIn_optField {α : Type} {k : Str} {f : α → Json} {a : Option α} (h : k ∉ contentKeys) : jsonTextsIn (optField k f a) = [] := by
  cases a with
  | none => rw [optField, jsonTextsIn]
  | some a => rw [optField, out_key h, jsonTextsIn]

theorem jsonTextsIn_listField {k : Str} {a : List Json} (h : k ∈ contentKeys) : jsonTextsIn (listField k a) = jsonTextsOf a := by
  cases a with
  | nil => rw [listField, jsonTextsIn, jsonTextsOf]
  | cons v a => rw [listField, in_key h, jsonTextsIn, List.append_nil, Json.texts]; exact fun h => by cases h

section

variable (P : Leaves)

mutual

theorem runJson_texts : ∀ (x : Run) (w : List Place), inPart w = true → Json.texts (runJson P x) = pick textAt (walkRun w x)
  | ⟨pr, cs⟩, w, h => by
    rw [runJson, texts_untyped (kindOf_none (by simp only [List.mem_cons, List.not_mem_nil, or_false, forall_eq_or_imp, forall_eq]; decide)), out_key (by decide), in_key (by decide), Json.texts, jsonTextsIn, List.append_nil, walkRun, runChildrenJson_texts cs _ (inPart_push (p := .run) h (by decide))]
    rw [pick_cons]; simp [textAt]

theorem runChildJson_texts : ∀ (x : RunChild) (w : List Place), inPart w = true → Json.texts (runChildJson P x) = pick textAt (walkRunChild w x)

  | .text t, w, h => by rw [runChildJson, texts_text]; simp [walkRunChild, pick_cons, pick_nil, textAt, h]

  | .sym f c, w, h => by rw [runChildJson, texts_out (by decide) (by decide)]; simp [walkRunChild, pick_cons, pick_nil, textAt]

  | .deleteText t, w, h => by rw [runChildJson, texts_deleteText]; simp [walkRunChild, pick_cons, pick_nil, textAt, h]

  | .tab, w, h => by rw [runChildJson, texts_just (by decide) (by decide)]; simp [walkRunChild, pick_cons, pick_nil, textAt]

  | .ptab t, w, h => by rw [runChildJson, texts_out (by decide) (by decide)]; simp [walkRunChild, pick_cons, pick_nil, textAt]

  | .brk t, w, h => by rw [runChildJson, texts_out (by decide) (by decide)]; simp [walkRunChild, pick_cons, pick_nil, textAt]

  | .carriageReturn, w, h => by rw [runChildJson, texts_just (by decide) (by decide)]; simp [walkRunChild, pick_cons, pick_nil, textAt]

  | .picture p, w, h => by rw [runChildJson, texts_out (by decide) (by decide)]; simp [walkRunChild, pick_cons, pick_nil, textAt]

  | .textBox bs, w, h => by rw [runChildJson, texts_out (by decide) (by decide)]; simp [walkRunChild, pick_cons, pick_nil, textAt, walkBlocks_dead bs _ (dead_text_box _)]

  | .emptyDrawing, w, h => by rw [runChildJson, texts_out (by decide) (by decide)]; simp [walkRunChild, pick_cons, pick_nil, textAt]

  | .shape s, w, h => by rw [runChildJson, texts_out (by decide) (by decide)]; simp [walkRunChild, pick_cons, pick_nil, textAt]

  | .commentStart i c, w, h => by rw [runChildJson, texts_out (by decide) (by decide)]; simp [walkRunChild, pick_cons, pick_nil, textAt, walkComment_dead c _ (dead_text_comment _)]

  | .commentEnd i, w, h => by rw [runChildJson, texts_out (by decide) (by decide)]; simp [walkRunChild, pick_cons, pick_nil, textAt]

  | .fieldChar t d, w, h => by rw [runChildJson, texts_out (by decide) (by decide)]; simp [walkRunChild, pick_cons, pick_nil, textAt]

  | .instrText i, w, h => by rw [runChildJson, texts_out (by decide) (by decide)]; simp [walkRunChild, pick_cons, pick_nil, textAt]

  | .deleteInstrText i, w, h => by rw [runChildJson, texts_out (by decide) (by decide)]; simp [walkRunChild, pick_cons, pick_nil, textAt]

  | .instrTextString s, w, h => by rw [runChildJson, texts_out (by decide) (by decide)]; simp [walkRunChild, pick_cons, pick_nil, textAt]

  | .footnoteReference i s ps, w, h => by rw [runChildJson, texts_out (by decide) (by decide)]; simp [walkRunChild, pick_cons, pick_nil, textAt, walkParagraphs_dead ps _ (dead_text_footnote _)]

  | .shading s, w, h => by rw [runChildJson, texts_out (by decide) (by decide)]; simp [walkRunChild, pick_cons, pick_nil, textAt]

theorem runChildrenJson_texts : ∀ (x : List RunChild) (w : List Place), inPart w = true → jsonTextsOf (runChildrenJson P x) = pick textAt (walkRunChildren w x)
  | [], _, _ => by rw [runChildrenJson, jsonTextsOf, walkRunChildren, pick_nil]
  | c :: cs, w, h => by rw [runChildrenJson, jsonTextsOf, walkRunChildren, pick_append, runChildJson_texts c w h, runChildrenJson_texts cs w h]

theorem blockJson_texts : ∀ (x : Block) (w : List Place), inPart w = true → Json.texts (blockJson P x) = pick textAt (walkBlock w x)

  | .paragraph p, w, h => by rw [blockJson, texts_in (by decide) (by decide), paragraphJson_texts p _ h]; simp only [walkBlock]

  | .table t, w, h => by rw [blockJson, texts_in (by decide) (by decide), tableJson_texts t _ h]; simp only [walkBlock]

theorem blocksJson_texts : ∀ (x : List Block) (w : List Place), inPart w = true → jsonTextsOf (blocksJson P x) = pick textAt (walkBlocks w x)
  | [], _, _ => by rw [blocksJson, jsonTextsOf, walkBlocks, pick_nil]
  | c :: cs, w, h => by rw [blocksJson, jsonTextsOf, walkBlocks, pick_append, blockJson_texts c w h, blocksJson_texts cs w h]

theorem deleteJson_texts : ∀ (x : Delete) (w : List Place), inPart w = true → Json.texts (deleteJson P x) = pick textAt (walkDelete w x)
  | ⟨a, d, cs⟩, w, h => by
    rw [deleteJson, texts_untyped (kindOf_none (by simp only [List.mem_cons, List.not_mem_nil, or_false, forall_eq_or_imp, forall_eq]; decide)), out_key (by decide), out_key (by decide), in_key (by decide), Json.texts, jsonTextsIn, List.append_nil, walkDelete, deleteChildrenJson_texts cs _ h]

theorem deleteChildJson_texts : ∀ (x : DeleteChild) (w : List Place), inPart w = true → Json.texts (deleteChildJson P x) = pick textAt (walkDeleteChild w x)

  | .run r, w, h => by rw [deleteChildJson, texts_in (by decide) (by decide), runJson_texts r _ h]; simp only [walkDeleteChild]

  | .commentStart i c, w, h => by rw [deleteChildJson, texts_out (by decide) (by decide)]; simp [walkDeleteChild, pick_cons, pick_nil, textAt, walkComment_dead c _ (dead_text_comment _)]

  | .commentEnd i, w, h => by rw [deleteChildJson, texts_out (by decide) (by decide)]; simp [walkDeleteChild, pick_cons, pick_nil, textAt]

theorem deleteChildrenJson_texts : ∀ (x : List DeleteChild) (w : List Place), inPart w = true → jsonTextsOf (deleteChildrenJson P x) = pick textAt (walkDeleteChildren w x)
  | [], _, _ => by rw [deleteChildrenJson, jsonTextsOf, walkDeleteChildren, pick_nil]
  | c :: cs, w, h => by rw [deleteChildrenJson, jsonTextsOf, walkDeleteChildren, pick_append, deleteChildJson_texts c w h, deleteChildrenJson_texts cs w h]

theorem insertJson_texts : ∀ (x : Insert) (w : List Place), inPart w = true → Json.texts (insertJson P x) = pick textAt (walkInsert w x)
  | ⟨a, d, cs⟩, w, h => by
    rw [insertJson, texts_untyped (kindOf_none (by simp only [List.mem_cons, List.not_mem_nil, or_false, forall_eq_or_imp, forall_eq]; decide)), in_key (by decide), Json.texts, out_key (by decide), out_key (by decide), jsonTextsIn, List.append_nil, walkInsert, insertChildrenJson_texts cs _ h]

theorem insertChildJson_texts : ∀ (x : InsertChild) (w : List Place), inPart w = true → Json.texts (insertChildJson P x) = pick textAt (walkInsertChild w x)

  | .run r, w, h => by rw [insertChildJson, texts_in (by decide) (by decide), runJson_texts r _ h]; simp only [walkInsertChild]

  | .delete d, w, h => by rw [insertChildJson, texts_in (by decide) (by decide), deleteJson_texts d _ (inPart_push (p := .delete) h (by decide))]; simp only [walkInsertChild]

  | .commentStart i c, w, h => by rw [insertChildJson, texts_out (by decide) (by decide)]; simp [walkInsertChild, pick_cons, pick_nil, textAt, walkComment_dead c _ (dead_text_comment _)]

  | .commentEnd i, w, h => by rw [insertChildJson, texts_out (by decide) (by decide)]; simp [walkInsertChild, pick_cons, pick_nil, textAt]

theorem insertChildrenJson_texts : ∀ (x : List InsertChild) (w : List Place), inPart w = true → jsonTextsOf (insertChildrenJson P x) = pick textAt (walkInsertChildren w x)
  | [], _, _ => by rw [insertChildrenJson, jsonTextsOf, walkInsertChildren, pick_nil]
  | c :: cs, w, h => by rw [insertChildrenJson, jsonTextsOf, walkInsertChildren, pick_append, insertChildJson_texts c w h, insertChildrenJson_texts cs w h]

theorem hyperlinkJson_texts : ∀ (x : Hyperlink) (w : List Place), inPart w = true → Json.texts (hyperlinkJson P x) = pick textAt (walkHyperlink w x)
  | ⟨l, y, cs⟩, w, h => by
    have e : Json.texts (hyperlinkJson P ⟨l, y, cs⟩) = jsonTextsOf (paragraphChildrenJson P cs) := by
      cases l with
      | external r p =>
        have hk : kindOf (linkFields (.external r p) ++ [(c!"history", jopt jnat y), (c!"children", .arr (paragraphChildrenJson P cs))]) = some c!"external" := rfl
        rw [hyperlinkJson, Json.texts, hk, if_neg (by decide), if_pos (by intro x hx; cases hx; decide), jsonTextsIn_append, linkFields, jsonTextsIn_append, out_key (by decide), out_key (by decide), jsonTextsIn]
        have hp : jsonTextsIn (if p = [] then [] else [(c!"path", Json.str p)]) = [] := by
          split
          · rw [jsonTextsIn]
          · rw [out_key (by decide), jsonTextsIn]
        rw [hp, out_key (by decide), in_key (by decide), Json.texts, jsonTextsIn]
        simp
      | anchor a =>
        have hk : kindOf (linkFields (.anchor a) ++ [(c!"history", jopt jnat y), (c!"children", .arr (paragraphChildrenJson P cs))]) = some c!"anchor" := rfl
        rw [hyperlinkJson, Json.texts, hk, if_neg (by decide), if_pos (by intro x hx; cases hx; decide), jsonTextsIn_append, linkFields, out_key (by decide), out_key (by decide), jsonTextsIn, out_key (by decide), in_key (by decide), Json.texts, jsonTextsIn]
        simp
    rw [e, walkHyperlink, pick_cons, paragraphChildrenJson_texts cs _ (inPart_push (p := .hyperlink) h (by decide))]
    simp [textAt]

theorem paragraphChildJson_texts : ∀ (x : ParagraphChild) (w : List Place), inPart w = true → Json.texts (paragraphChildJson P x) = pick textAt (walkParagraphChild w x)

  | .run r, w, h => by rw [paragraphChildJson, texts_in (by decide) (by decide), runJson_texts r _ h]; simp only [walkParagraphChild]

  | .insert i, w, h => by rw [paragraphChildJson, texts_in (by decide) (by decide), insertJson_texts i _ (inPart_push (p := .insert) h (by decide))]; simp only [walkParagraphChild]

  | .delete d, w, h => by rw [paragraphChildJson, texts_in (by decide) (by decide), deleteJson_texts d _ (inPart_push (p := .delete) h (by decide))]; simp only [walkParagraphChild]

  | .moveFrom d, w, h => by rw [paragraphChildJson, texts_in (by decide) (by decide), deleteJson_texts d _ (inPart_push (p := .moveFrom) h (by decide))]; simp only [walkParagraphChild]

  | .moveTo i, w, h => by rw [paragraphChildJson, texts_in (by decide) (by decide), insertJson_texts i _ (inPart_push (p := .moveTo) h (by decide))]; simp only [walkParagraphChild]

  | .hyperlink y, w, h => by rw [paragraphChildJson, texts_in (by decide) (by decide), hyperlinkJson_texts y _ h]; simp only [walkParagraphChild]

  | .bookmarkStart i n, w, h => by rw [paragraphChildJson, texts_out (by decide) (by decide)]; simp [walkParagraphChild, pick_cons, pick_nil, textAt]

  | .bookmarkEnd i, w, h => by rw [paragraphChildJson, texts_out (by decide) (by decide)]; simp [walkParagraphChild, pick_cons, pick_nil, textAt]

  | .commentStart i c, w, h => by rw [paragraphChildJson, texts_out (by decide) (by decide)]; simp [walkParagraphChild, pick_cons, pick_nil, textAt, walkComment_dead c _ (dead_text_comment _)]

  | .commentEnd i, w, h => by rw [paragraphChildJson, texts_out (by decide) (by decide)]; simp [walkParagraphChild, pick_cons, pick_nil, textAt]

  | .sdt s, w, h => by rw [paragraphChildJson, texts_in (by decide) (by decide), sdtJson_texts s _ h]; simp only [walkParagraphChild]

  | .pageNum i, w, h => by rw [paragraphChildJson, texts_out (by decide) (by decide)]; simp [walkParagraphChild, pick_cons, pick_nil, textAt]

  | .numPages i, w, h => by rw [paragraphChildJson, texts_out (by decide) (by decide)]; simp [walkParagraphChild, pick_cons, pick_nil, textAt]

theorem paragraphChildrenJson_texts : ∀ (x : List ParagraphChild) (w : List Place), inPart w = true → jsonTextsOf (paragraphChildrenJson P x) = pick textAt (walkParagraphChildren w x)
  | [], _, _ => by rw [paragraphChildrenJson, jsonTextsOf, walkParagraphChildren, pick_nil]
  | c :: cs, w, h => by rw [paragraphChildrenJson, jsonTextsOf, walkParagraphChildren, pick_append, paragraphChildJson_texts c w h, paragraphChildrenJson_texts cs w h]

theorem paragraphJson_texts : ∀ (x : Paragraph) (w : List Place), inPart w = true → Json.texts (paragraphJson P x) = pick textAt (walkParagraph w x)
  | ⟨i, cs, pr, n⟩, w, h => by
    rw [paragraphJson, texts_untyped (kindOf_none (by simp only [List.mem_cons, List.not_mem_nil, or_false, forall_eq_or_imp, forall_eq]; decide)), out_key (by decide), in_key (by decide), Json.texts, out_key (by decide), out_key (by decide), jsonTextsIn, List.append_nil, walkParagraph, paragraphChildrenJson_texts cs _ (inPart_push (p := .paragraph) h (by decide))]
    rw [pick_cons]; simp [textAt]

theorem sdtJson_texts : ∀ (x : Sdt) (w : List Place), inPart w = true → Json.texts (sdtJson P x) = pick textAt (walkSdt w x)
  | ⟨cs, pr, n⟩, w, h => by
    rw [sdtJson, texts_untyped (kindOf_none (by simp only [List.mem_cons, List.not_mem_nil, or_false, forall_eq_or_imp, forall_eq]; decide)), in_key (by decide), Json.texts, out_key (by decide), out_key (by decide), jsonTextsIn, List.append_nil, walkSdt, sdtChildrenJson_texts cs _ (inPart_push (p := .sdt) h (by decide))]
    rw [pick_cons]; simp [textAt]

theorem sdtChildJson_texts : ∀ (x : SdtChild) (w : List Place), inPart w = true → Json.texts (sdtChildJson P x) = pick textAt (walkSdtChild w x)

  | .run r, w, h => by rw [sdtChildJson, texts_in (by decide) (by decide), runJson_texts r _ h]; simp only [walkSdtChild]

  | .paragraph p, w, h => by rw [sdtChildJson, texts_in (by decide) (by decide), paragraphJson_texts p _ h]; simp only [walkSdtChild]

  | .table t, w, h => by rw [sdtChildJson, texts_in (by decide) (by decide), tableJson_texts t _ h]; simp only [walkSdtChild]

  | .bookmarkStart i n, w, h => by rw [sdtChildJson, texts_out (by decide) (by decide)]; simp [walkSdtChild, pick_cons, pick_nil, textAt]

  | .bookmarkEnd i, w, h => by rw [sdtChildJson, texts_out (by decide) (by decide)]; simp [walkSdtChild, pick_cons, pick_nil, textAt]

  | .commentStart i c, w, h => by rw [sdtChildJson, texts_out (by decide) (by decide)]; simp [walkSdtChild, pick_cons, pick_nil, textAt, walkComment_dead c _ (dead_text_comment _)]

  | .commentEnd i, w, h => by rw [sdtChildJson, texts_out (by decide) (by decide)]; simp [walkSdtChild, pick_cons, pick_nil, textAt]

  | .sdt s, w, h => by rw [sdtChildJson, texts_in (by decide) (by decide), sdtJson_texts s _ h]; simp only [walkSdtChild]

theorem sdtChildrenJson_texts : ∀ (x : List SdtChild) (w : List Place), inPart w = true → jsonTextsOf (sdtChildrenJson P x) = pick textAt (walkSdtChildren w x)
  | [], _, _ => by rw [sdtChildrenJson, jsonTextsOf, walkSdtChildren, pick_nil]
  | c :: cs, w, h => by rw [sdtChildrenJson, jsonTextsOf, walkSdtChildren, pick_append, sdtChildJson_texts c w h, sdtChildrenJson_texts cs w h]

theorem tableJson_texts : ∀ (x : Table) (w : List Place), inPart w = true → Json.texts (tableJson P x) = pick textAt (walkTable w x)
  | ⟨cs, g, n, pr⟩, w, h => by
    rw [tableJson, texts_untyped (kindOf_none (by simp only [List.mem_cons, List.not_mem_nil, or_false, forall_eq_or_imp, forall_eq]; decide)), in_key (by decide), Json.texts, out_key (by decide), out_key (by decide), out_key (by decide), jsonTextsIn, List.append_nil, walkTable, rowsJson_texts cs _ h]
    rw [pick_cons]; simp [textAt]

theorem rowJson_texts : ∀ (x : Row) (w : List Place), inPart w = true → Json.texts (rowJson P x) = pick textAt (walkRow w x)
  | ⟨cs, n, pr⟩, w, h => by
    rw [rowJson, texts_untyped (kindOf_none (by simp only [List.mem_cons, List.not_mem_nil, or_false, forall_eq_or_imp, forall_eq]; decide)), in_key (by decide), Json.texts, out_key (by decide), out_key (by decide), jsonTextsIn, List.append_nil, walkRow, cellsJson_texts cs _ h]

theorem rowsJson_texts : ∀ (x : List Row) (w : List Place), inPart w = true → jsonTextsOf (rowsJson P x) = pick textAt (walkRows w x)
  | [], _, _ => by rw [rowsJson, jsonTextsOf, walkRows, pick_nil]
  | c :: cs, w, h => by rw [rowsJson, jsonTextsOf, walkRows, pick_append, texts_in (by decide) (by decide), rowJson_texts c w h, rowsJson_texts cs w h]

theorem cellJson_texts : ∀ (x : Cell) (w : List Place), inPart w = true → Json.texts (cellJson P x) = pick textAt (walkCell w x)
  | ⟨cs, pr, n⟩, w, h => by
    rw [cellJson, texts_untyped (kindOf_none (by simp only [List.mem_cons, List.not_mem_nil, or_false, forall_eq_or_imp, forall_eq]; decide)), in_key (by decide), Json.texts, out_key (by decide), out_key (by decide), jsonTextsIn, List.append_nil, walkCell, cellContentsJson_texts cs _ (inPart_push (p := .cell) h (by decide))]
    rw [pick_cons]; simp [textAt]

theorem cellsJson_texts : ∀ (x : List Cell) (w : List Place), inPart w = true → jsonTextsOf (cellsJson P x) = pick textAt (walkCells w x)
  | [], _, _ => by rw [cellsJson, jsonTextsOf, walkCells, pick_nil]
  | c :: cs, w, h => by rw [cellsJson, jsonTextsOf, walkCells, pick_append, texts_in (by decide) (by decide), cellJson_texts c w h, cellsJson_texts cs w h]

theorem cellContentJson_texts : ∀ (x : CellContent) (w : List Place), inPart w = true → Json.texts (cellContentJson P x) = pick textAt (walkCellContent w x)

  | .paragraph p, w, h => by rw [cellContentJson, texts_in (by decide) (by decide), paragraphJson_texts p _ h]; simp only [walkCellContent]

  | .table t, w, h => by rw [cellContentJson, texts_in (by decide) (by decide), tableJson_texts t _ h]; simp only [walkCellContent]

  | .sdt s, w, h => by rw [cellContentJson, texts_in (by decide) (by decide), sdtJson_texts s _ h]; simp only [walkCellContent]

  | .toc t, w, h => by rw [cellContentJson, texts_in (by decide) (by decide), tocJson_texts t _ h]; simp only [walkCellContent]

theorem cellContentsJson_texts : ∀ (x : List CellContent) (w : List Place), inPart w = true → jsonTextsOf (cellContentsJson P x) = pick textAt (walkCellContents w x)
  | [], _, _ => by rw [cellContentsJson, jsonTextsOf, walkCellContents, pick_nil]
  | c :: cs, w, h => by rw [cellContentsJson, jsonTextsOf, walkCellContents, pick_append, cellContentJson_texts c w h, cellContentsJson_texts cs w h]

theorem tocJson_texts : ∀ (x : Toc) (w : List Place), inPart w = true → Json.texts (tocJson P x) = pick textAt (walkToc w x)
  | ⟨a, b, c, d, e, f, g, bs, as, j, k⟩, w, h => by
    have hk : ∀ y ∈ [(c!"instr", P.tocInstr a), (c!"items", .arr (b.map (tocItemJson P))), (c!"auto", .bool c), (c!"dirty", .bool d), (c!"without_sdt", .bool e), (c!"alias", jopt Json.str f), (c!"page_ref_placeholder", jopt Json.str g)] ++ listField c!"before_contents" (blocksJson P bs) ++ listField c!"after_contents" (blocksJson P as) ++ optField c!"delete" markJson j ++ optField c!"paragraph_property" P.paragraph k, y.1 ≠ c!"type" := by
      intro y hy
      simp only [List.mem_append] at hy
      rcases hy with (((hy | hy) | hy) | hy) | hy
      · revert y
        simp only [List.mem_cons, List.not_mem_nil, or_false, forall_eq_or_imp, forall_eq]
        decide
      · cases hb : blocksJson P bs with
        | nil => rw [hb] at hy; cases hy
        | cons u v => rw [hb, listField, List.mem_singleton] at hy; rw [hy]; exact (by decide : c!"before_contents" ≠ c!"type"); exact fun h => by cases h
      · cases hb : blocksJson P as with
        | nil => rw [hb] at hy; cases hy
        | cons u v => rw [hb, listField, List.mem_singleton] at hy; rw [hy]; exact (by decide : c!"after_contents" ≠ c!"type"); exact fun h => by cases h
      · cases j with
        | none => cases hy
        | some j => rw [optField, List.mem_singleton] at hy; rw [hy]; exact (by decide : c!"delete" ≠ c!"type")
      · cases k with
        | none => cases hy
        | some j => rw [optField, List.mem_singleton] at hy; rw [hy]; exact (by decide : c!"paragraph_property" ≠ c!"type")
    rw [tocJson, texts_untyped (kindOf_none hk)]
    simp only [jsonTextsIn_append, jsonTextsIn_optField (show c!"delete" ∉ contentKeys by decide), jsonTextsIn_optField (show c!"paragraph_property" ∉ contentKeys by decide),
      jsonTextsIn_listField (show c!"before_contents" ∈ contentKeys by decide), jsonTextsIn_listField (show c!"after_contents" ∈ contentKeys by decide), List.append_nil]
    rw [out_key (by decide), out_key (by decide), out_key (by decide), out_key (by decide), out_key (by decide), out_key (by decide), out_key (by decide), jsonTextsIn, List.nil_append]
    rw [blocksJson_texts bs _ (inPart_push (p := .tocBefore) h (by decide)), blocksJson_texts as _ (inPart_push (p := .tocAfter) h (by decide)), walkToc, pick_cons, pick_append]
    simp [textAt]

end

theorem jsonTextsOf_map {α : Type} (f : α → Json) (g : α → Walk) (h : ∀ a, Json.texts (f a) = pick textAt (g a)) : ∀ l : List α, jsonTextsOf (l.map f) = pick textAt (l.flatMap g)
  | [] => by rw [List.map_nil, jsonTextsOf]; rfl
  | a :: l => by rw [List.map_cons, jsonTextsOf, h a, jsonTextsOf_map f g h l, List.flatMap_cons, pick_append]

theorem walkSectionProperty_texts (p : SectionProperty) (w : List Place) : pick textAt (walkSectionProperty w p) = [] :=
  walkSectionProperty_dead p w (dead_text_header w) (dead_text_footer w)

theorem sectionChildJson_texts : ∀ (x : SectionChild) (w : List Place), inPart w = true → Json.texts (sectionChildJson P x) = pick textAt (walkSectionChild w x)

  | .paragraph p, w, h => by rw [sectionChildJson, texts_in (by decide) (by decide), paragraphJson_texts P p _ h]; simp only [walkSectionChild]

  | .table t, w, h => by rw [sectionChildJson, texts_in (by decide) (by decide), tableJson_texts P t _ h]; simp only [walkSectionChild]

  | .bookmarkStart i n, w, h => by rw [sectionChildJson, texts_out (by decide) (by decide)]; simp [walkSectionChild, pick_cons, pick_nil, textAt]

  | .bookmarkEnd i, w, h => by rw [sectionChildJson, texts_out (by decide) (by decide)]; simp [walkSectionChild, pick_cons, pick_nil, textAt]

  | .commentStart i c, w, h => by rw [sectionChildJson, texts_out (by decide) (by decide)]; simp [walkSectionChild, pick_cons, pick_nil, textAt, walkComment_dead c _ (dead_text_comment _)]

  | .commentEnd i, w, h => by rw [sectionChildJson, texts_out (by decide) (by decide)]; simp [walkSectionChild, pick_cons, pick_nil, textAt]

  | .sdt s, w, h => by rw [sectionChildJson, texts_in (by decide) (by decide), sdtJson_texts P s _ h]; simp only [walkSectionChild]

  | .toc t, w, h => by rw [sectionChildJson, texts_in (by decide) (by decide), tocJson_texts P t _ h]; simp only [walkSectionChild]

theorem sectionJson_texts (x : Section) (w : List Place) (h : inPart w = true) : Json.texts (sectionJson P x) = pick textAt (walkSection w x) := by
  rw [sectionJson, texts_untyped (kindOf_none (by simp only [List.mem_cons, List.not_mem_nil, or_false, forall_eq_or_imp, forall_eq]; decide)), out_key (by decide), in_key (by decide), Json.texts]
  rw [out_key (by decide), out_key (by decide), out_key (by decide), out_key (by decide), out_key (by decide), out_key (by decide), out_key (by decide), jsonTextsIn, List.append_nil]
  rw [jsonTextsOf_map (sectionChildJson P) (walkSectionChild (.section :: w)) fun a => sectionChildJson_texts P a _ (inPart_push h (by decide))]
  rw [walkSection, pick_append, walkSectionProperty_texts, List.append_nil]

theorem documentChildJson_texts : ∀ (x : DocumentChild) (w : List Place), inPart w = true → Json.texts (documentChildJson P x) = pick textAt (walkDocumentChild w x)

  | .paragraph p, w, h => by rw [documentChildJson, texts_in (by decide) (by decide), paragraphJson_texts P p _ h]; simp only [walkDocumentChild]

  | .table t, w, h => by rw [documentChildJson, texts_in (by decide) (by decide), tableJson_texts P t _ h]; simp only [walkDocumentChild]

  | .bookmarkStart i n, w, h => by rw [documentChildJson, texts_out (by decide) (by decide)]; simp [walkDocumentChild, pick_cons, pick_nil, textAt]

  | .bookmarkEnd i, w, h => by rw [documentChildJson, texts_out (by decide) (by decide)]; simp [walkDocumentChild, pick_cons, pick_nil, textAt]

  | .commentStart i c, w, h => by rw [documentChildJson, texts_out (by decide) (by decide)]; simp [walkDocumentChild, pick_cons, pick_nil, textAt, walkComment_dead c _ (dead_text_comment _)]

  | .commentEnd i, w, h => by rw [documentChildJson, texts_out (by decide) (by decide)]; simp [walkDocumentChild, pick_cons, pick_nil, textAt]

  | .sdt s, w, h => by rw [documentChildJson, texts_in (by decide) (by decide), sdtJson_texts P s _ h]; simp only [walkDocumentChild]

  | .toc t, w, h => by rw [documentChildJson, texts_in (by decide) (by decide), tocJson_texts P t _ h]; simp only [walkDocumentChild]

  | .section s, w, h => by rw [documentChildJson, texts_in (by decide) (by decide), sectionJson_texts P s _ h]; simp only [walkDocumentChild]

/-- The texts in the JSON form of a document are those of the document. -/
theorem documentJson_texts (d : Document) : Json.texts (documentJson P d) = keptTexts d := by
  rw [documentJson, texts_untyped (kindOf_none (by simp only [List.mem_cons, List.not_mem_nil, or_false, forall_eq_or_imp, forall_eq]; decide)), in_key (by decide), Json.texts]
  rw [out_key (by decide), out_key (by decide), jsonTextsIn, List.append_nil]
  rw [jsonTextsOf_map (documentChildJson P) (walkDocumentChild [.document]) fun a => documentChildJson_texts P a _ (by decide)]
  rw [keptTexts_pick, walkDocument, pick_append, walkSectionProperty_texts, List.append_nil]

end

end Docx
