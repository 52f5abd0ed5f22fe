import Verif.Lemmas.Entries

/-!
# What chains of builder calls keep true
-/

namespace Docx

set_option linter.unusedSimpArgs false

open Docx.Spec Docx.Xml

/-- An invariant of the builder calls is one of the chains. -/
theorem calls_inv {P : DocxFile → Prop} (hc : ∀ d c d', P d → d.call c = some d' → P d') :
    ∀ (cs : List Call) (d d' : DocxFile), P d → d.calls cs = some d' → P d'
  | [], d, d', hd, h => by
    simp only [DocxFile.calls, Option.some.injEq] at h
    exact h ▸ hd
  | c :: cs, d, d', hd, h => by
    simp only [DocxFile.calls] at h
    split at h
    · exact absurd h (by simp)
    · rename_i d1 e
      exact calls_inv hc cs d1 d' (hc d c d1 hd e) h

theorem attachParts_inv {P : DocxFile → Prop} (hh : ∀ d h, P d → P (d.countHeader h)) (hf : ∀ d h, P d → P (d.countFooter h))
    (d : DocxFile) (s : Section) (h : P (d.noteNumbering s.hasNumbering)) : P (d.attachParts s).1 := by
  have ah : ∀ (o : Option Header) (f) (x : DocxFile × SectionProperty), P x.1 → P (attachHeader o f x).1 := by
    intro o f x hx
    cases o with
    | none => exact hx
    | some o => exact hh _ _ hx
  have af : ∀ (o : Option Header) (f) (x : DocxFile × SectionProperty), P x.1 → P (attachFooter o f x).1 := by
    intro o f x hx
    cases o with
    | none => exact hx
    | some o => exact hf _ _ hx
  unfold DocxFile.attachParts
  exact af _ _ _ (af _ _ _ (af _ _ _ (ah _ _ _ (ah _ _ _ (ah _ _ _ h)))))

/-! ## The table of content types -/

/-- The keys of a sorted table. -/
def Sorted (l : List (Str × Str)) : Prop := (l.map Prod.fst).Pairwise (· < ·)

theorem str_lt_trans {a b c : Str} (h1 : a < b) (h2 : b < c) : a < c := List.lt_trans h1 h2

theorem insertType_keys (k v : Str) : ∀ (l : List (Str × Str)) (x : Str × Str), x ∈ insertType k v l → x = (k, v) ∨ x ∈ l
  | [], x, h => by simp [insertType] at h; exact .inl h
  | (k', v') :: r, x, h => by
    simp only [insertType] at h
    split at h
    · rcases List.mem_cons.1 h with h | h
      · exact .inl h
      · exact .inr (.tail _ h)
    · split at h
      · rcases List.mem_cons.1 h with h | h
        · exact .inl h
        · exact .inr h
      · rcases List.mem_cons.1 h with h | h
        · exact .inr (h ▸ .head _)
        · rcases insertType_keys k v r x h with h | h
          · exact .inl h
          · exact .inr (.tail _ h)

theorem insertType_mem (k v : Str) : ∀ (l : List (Str × Str)), (k, v) ∈ insertType k v l
  | [] => by simp [insertType]
  | (k', v') :: r => by
    simp only [insertType]
    split
    · exact .head _
    · split
      · exact .head _
      · exact .tail _ (insertType_mem k v r)

theorem insertType_other (k v : Str) : ∀ (l : List (Str × Str)) (x : Str × Str), x ∈ l → x.1 ≠ k → x ∈ insertType k v l
  | [], x, h, _ => by cases h
  | (k', v') :: r, x, h, hn => by
    simp only [insertType]
    split
    · rename_i e
      rcases List.mem_cons.1 h with h | h
      · subst h; exact absurd e.symm hn
      · exact .tail _ h
    · split
      · exact .tail _ h
      · rcases List.mem_cons.1 h with h | h
        · subst h; exact .head _
        · exact .tail _ (insertType_other k v r x h hn)

theorem insertType_sorted (k v : Str) : ∀ (l : List (Str × Str)), Sorted l → Sorted (insertType k v l)
  | [], _ => by simp [insertType, Sorted]
  | (k', v') :: r, h => by
    have h' := h
    unfold Sorted at h
    rw [List.map_cons, List.pairwise_cons] at h
    simp only [insertType]
    split
    · rename_i e
      subst e
      exact h'
    · rename_i hne
      split
      · rename_i hlt
        unfold Sorted
        rw [List.map_cons, List.pairwise_cons]
        refine ⟨fun a ha => ?_, h'⟩
        rw [List.map_cons, List.mem_cons] at ha
        rcases ha with rfl | ha
        · exact hlt
        · exact str_lt_trans hlt (h.1 a ha)
      · rename_i hnl
        unfold Sorted
        rw [List.map_cons, List.pairwise_cons]
        refine ⟨fun a ha => ?_, insertType_sorted k v r h.2⟩
        rw [List.mem_map] at ha
        obtain ⟨x, hx, rfl⟩ := ha
        rcases insertType_keys k v r x hx with rfl | hx
        · rcases List.le_iff_lt_or_eq.1 (List.not_lt.1 hnl) with h1 | h1
          · exact h1
          · exact absurd h1.symm hne
        · exact h.1 _ (List.mem_map_of_mem hx)

theorem Sorted.nodup {l : List (Str × Str)} (h : Sorted l) : (l.map Prod.fst).Nodup :=
  List.Pairwise.imp (fun hab e => by subst e; exact List.lt_irrefl _ hab) h

/-- The parts every package has a content type for. -/
def defaultParts : List Str :=
  [ c!"/_rels/.rels", c!"/docProps/app.xml", c!"/docProps/core.xml", c!"/word/_rels/document.xml.rels", c!"/word/settings.xml",
    c!"/word/fontTable.xml", c!"/word/document.xml", c!"/word/styles.xml", c!"/word/comments.xml", c!"/word/numbering.xml",
    c!"/word/commentsExtended.xml", c!"/docProps/custom.xml" ]

/-- Where a part name with a content type comes from. -/
inductive TypedPart (d : DocxFile) : Str → Prop
  | default {s} (h : s ∈ defaultParts) : TypedPart d s
  | header (n : Nat) (h : n < d.documentRels.headerCount) : TypedPart d (c!"/word/header" ++ dec (n + 1) ++ c!".xml")
  | footer (n : Nat) (h : n < d.documentRels.footerCount) : TypedPart d (c!"/word/footer" ++ dec (n + 1) ++ c!".xml")
  | taskpanes (h : d.taskpanes = true) : TypedPart d c!"/word/webextensions/taskpanes.xml"
  | webExtension (n : Nat) (h : n < d.webExtensions.length) :
      TypedPart d (c!"/word/webextensions/webextension" ++ dec (n + 1) ++ c!".xml")
  | customXml (n : Nat) (h : n < d.webExtensions.length + 1) (h' : d.customItems ≠ []) :
      TypedPart d (c!"/customXml/itemProps" ++ dec (n + 1) ++ c!".xml")

/-- What every chain of builder calls makes true of the bookkeeping. -/
structure Sound (d : DocxFile) : Prop where
  links : d.documentRels.hyperlinks = []
  footnotes : d.documentRels.hasFootnotes = false
  custom : d.documentRels.customXmlCount = d.customItems.length
  props : d.customItemProps.length = d.customItems.length
  crels : d.customItemRels = List.replicate d.customItems.length 1
  header : d.contentType.headerCount = d.documentRels.headerCount
  footer : d.contentType.footerCount = d.documentRels.footerCount
  web : d.contentType.webExtensionCount = d.webExtensions.length + 1
  sorted : Sorted d.contentType.types
  typed : ∀ x ∈ d.contentType.types, TypedPart d x.1

theorem TypedPart.mono {d d' : DocxFile} {s : Str} (h : TypedPart d s) (hh : d.documentRels.headerCount ≤ d'.documentRels.headerCount)
    (hf : d.documentRels.footerCount ≤ d'.documentRels.footerCount) (ht : d.taskpanes = true → d'.taskpanes = true)
    (hw : d.webExtensions.length ≤ d'.webExtensions.length) (hc : d.customItems ≠ [] → d'.customItems ≠ []) : TypedPart d' s := by
  cases h with
  | default h => exact .default h
  | header n h => exact .header n (by omega)
  | footer n h => exact .footer n (by omega)
  | taskpanes h => exact .taskpanes (ht h)
  | webExtension n h => exact .webExtension n (by omega)
  | customXml n h h' => exact .customXml n (by omega) (hc h')

theorem Sound.new : Sound DocxFile.new where
  links := rfl
  footnotes := rfl
  custom := rfl
  props := rfl
  crels := rfl
  header := rfl
  footer := rfl
  web := rfl
  sorted := by
    have h : ((DocxFile.new.contentType.types.map Prod.fst).Pairwise (· < ·)) := by
      show (List.map Prod.fst ({} : ContentTypes).setDefault.types).Pairwise (· < ·)
      unfold ContentTypes.setDefault
      simp only [List.foldl_cons, List.foldl_nil, ContentTypes.add]
      iterate 12 refine insertType_sorted _ _ _ ?_
      exact List.Pairwise.nil
    exact h
  typed := by
    intro x hx
    have h : ∀ (l : List (Str × Str)) (c : ContentTypes), ∀ x ∈ (l.foldl (fun c p => c.add p.1 p.2) c).types,
        x ∈ c.types ∨ x ∈ l := by
      intro l
      induction l with
      | nil => intro c x hx; exact .inl hx
      | cons a l ih =>
        intro c x hx
        rw [List.foldl_cons] at hx
        rcases ih _ x hx with h | h
        · rcases insertType_keys _ _ _ _ h with h | h
          · exact .inr (h ▸ .head _)
          · exact .inl h
        · exact .inr (.tail _ h)
    have hx' : x ∈ ({} : ContentTypes).setDefault.types := hx
    unfold ContentTypes.setDefault at hx'
    rcases h _ _ x hx' with h | h
    · cases h
    · refine .default ?_
      have := List.mem_map_of_mem (f := Prod.fst) h
      exact this

theorem Sound.note {d : DocxFile} (h : Sound d) (b : Bool) : Sound (d.noteNumbering b) where
  links := h.links
  footnotes := h.footnotes
  custom := h.custom
  props := h.props
  crels := h.crels
  header := h.header
  footer := h.footer
  web := h.web
  sorted := h.sorted
  typed x hx := (h.typed x hx).mono (Nat.le_refl _) (Nat.le_refl _) id (Nat.le_refl _) id

/-- The fields the bookkeeping is about are the same. -/
structure SameBooks (d d' : DocxFile) : Prop where
  documentRels : d'.documentRels = d.documentRels
  contentType : d'.contentType = d.contentType
  taskpanes : d'.taskpanes = d.taskpanes
  webExtensions : d'.webExtensions = d.webExtensions
  customItems : d'.customItems = d.customItems
  customItemProps : d'.customItemProps = d.customItemProps
  customItemRels : d'.customItemRels = d.customItemRels

theorem Sound.same {d d' : DocxFile} (h : Sound d) (e : SameBooks d d') : Sound d' where
  links := by rw [e.documentRels]; exact h.links
  footnotes := by rw [e.documentRels]; exact h.footnotes
  custom := by rw [e.documentRels, e.customItems]; exact h.custom
  props := by rw [e.customItems, e.customItemProps]; exact h.props
  crels := by rw [e.customItemRels, e.customItems]; exact h.crels
  header := by rw [e.documentRels, e.contentType]; exact h.header
  footer := by rw [e.documentRels, e.contentType]; exact h.footer
  web := by rw [e.contentType, e.webExtensions]; exact h.web
  sorted := by rw [e.contentType]; exact h.sorted
  typed := by
    intro x hx
    rw [e.contentType] at hx
    refine (h.typed x hx).mono ?_ ?_ ?_ ?_ ?_
    · rw [e.documentRels]; exact Nat.le_refl _
    · rw [e.documentRels]; exact Nat.le_refl _
    · rw [e.taskpanes]; exact id
    · rw [e.webExtensions]; exact Nat.le_refl _
    · rw [e.customItems]; exact id

theorem Sound.countHeader {d : DocxFile} (h : Sound d) (x : Header) : Sound (d.countHeader x) where
  links := h.links
  footnotes := h.footnotes
  custom := h.custom
  props := h.props
  crels := h.crels
  header := congrArg (· + 1) h.header
  footer := h.footer
  web := h.web
  sorted := insertType_sorted _ _ _ h.sorted
  typed := by
    intro y hy
    rcases insertType_keys _ _ _ _ hy with rfl | hy
    · rw [h.header]
      exact .header _ (Nat.lt_succ_self _)
    · exact (h.typed y hy).mono (Nat.le_succ _) (Nat.le_refl _) id (Nat.le_refl _) id

theorem Sound.countFooter {d : DocxFile} (h : Sound d) (x : Header) : Sound (d.countFooter x) where
  links := h.links
  footnotes := h.footnotes
  custom := h.custom
  props := h.props
  crels := h.crels
  header := h.header
  footer := congrArg (· + 1) h.footer
  web := h.web
  sorted := insertType_sorted _ _ _ h.sorted
  typed := by
    intro y hy
    rcases insertType_keys _ _ _ _ hy with rfl | hy
    · rw [h.footer]
      exact .footer _ (Nat.lt_succ_self _)
    · exact (h.typed y hy).mono (Nat.le_refl _) (Nat.le_succ _) id (Nat.le_refl _) id

theorem Sound.taskpanes {d : DocxFile} (h : Sound d) : Sound d.addTaskpanes where
  links := h.links
  footnotes := h.footnotes
  custom := h.custom
  props := h.props
  crels := h.crels
  header := h.header
  footer := h.footer
  web := h.web
  sorted := insertType_sorted _ _ _ h.sorted
  typed := by
    intro y hy
    rcases insertType_keys _ _ _ _ hy with rfl | hy
    · exact .taskpanes rfl
    · exact (h.typed y hy).mono (Nat.le_refl _) (Nat.le_refl _) (fun _ => rfl) (Nat.le_refl _) id

theorem Sound.webExtension {d : DocxFile} (h : Sound d) (e : WebExtension) : Sound (d.addWebExtension e) where
  links := h.links
  footnotes := h.footnotes
  custom := h.custom
  props := h.props
  crels := h.crels
  header := h.header
  footer := h.footer
  web := by
    show d.contentType.webExtensionCount + 1 = (d.webExtensions ++ [e]).length + 1
    rw [h.web, List.length_append]
    rfl
  sorted := insertType_sorted _ _ _ h.sorted
  typed := by
    intro y hy
    rcases insertType_keys _ _ _ _ hy with rfl | hy
    · rw [h.web]
      exact .webExtension _ (by simp [DocxFile.addWebExtension])
    · exact (h.typed y hy).mono (Nat.le_refl _) (Nat.le_refl _) id (by simp [DocxFile.addWebExtension]) id

theorem Sound.customItem {d : DocxFile} (h : Sound d) (id : Str) (x : List XmlData) : Sound (d.addCustomItem id x) where
  links := h.links
  footnotes := h.footnotes
  custom := by
    show d.documentRels.customXmlCount + 1 = (d.customItems ++ [x]).length
    rw [h.custom, List.length_append]
    rfl
  props := by
    show (d.customItemProps ++ [id]).length = (d.customItems ++ [x]).length
    rw [List.length_append, List.length_append, h.props]
    rfl
  crels := by
    show d.customItemRels ++ [1] = List.replicate (d.customItems ++ [x]).length 1
    rw [h.crels, List.length_append]
    exact List.replicate_succ'.symm
  header := h.header
  footer := h.footer
  web := h.web
  sorted := insertType_sorted _ _ _ h.sorted
  typed := by
    intro y hy
    rcases insertType_keys _ _ _ _ hy with rfl | hy
    · rw [h.web]
      exact .customXml _ (Nat.lt_succ_self _) (by simp [DocxFile.addCustomItem])
    · exact (h.typed y hy).mono (Nat.le_refl _) (Nat.le_refl _) (fun h => h) (Nat.le_refl _)
        (by intro _; simp [DocxFile.addCustomItem])

theorem Sound.section {d : DocxFile} (h : Sound d) (s : Section) : Sound (d.addSection s) := by
  have h1 : Sound (d.attachParts s).1 := attachParts_inv (fun _ _ h => h.countHeader _) (fun _ _ h => h.countFooter _) d s (h.note _)
  exact h1.same ⟨rfl, rfl, rfl, rfl, rfl, rfl, rfl⟩

theorem Sound.call (d : DocxFile) (c : Call) (d' : DocxFile) (h : Sound d) (e : d.call c = some d') : Sound d' := by
  cases c with
  | document x =>
    simp only [DocxFile.call, Option.some.injEq] at e
    rw [← e]
    exact (h.note _).same ⟨rfl, rfl, rfl, rfl, rfl, rfl, rfl⟩
  | addParagraph p =>
    simp only [DocxFile.call, Option.some.injEq] at e
    rw [← e]
    exact (h.note _).same ⟨rfl, rfl, rfl, rfl, rfl, rfl, rfl⟩
  | addTable p =>
    simp only [DocxFile.call, Option.some.injEq] at e
    rw [← e]
    exact (h.note _).same ⟨rfl, rfl, rfl, rfl, rfl, rfl, rfl⟩
  | addSdt p =>
    simp only [DocxFile.call, Option.some.injEq] at e
    rw [← e]
    exact (h.note _).same ⟨rfl, rfl, rfl, rfl, rfl, rfl, rfl⟩
  | addSection s =>
    simp only [DocxFile.call, Option.some.injEq] at e
    rw [← e]
    exact h.section s
  | header x =>
    simp only [DocxFile.call, Option.some.injEq] at e
    rw [← e]
    exact (h.countHeader x).same ⟨rfl, rfl, rfl, rfl, rfl, rfl, rfl⟩
  | firstHeader x =>
    simp only [DocxFile.call, Option.some.injEq] at e
    rw [← e]
    exact (h.countHeader x).same ⟨rfl, rfl, rfl, rfl, rfl, rfl, rfl⟩
  | evenHeader x =>
    simp only [DocxFile.call, Option.some.injEq] at e
    rw [← e]
    exact (h.countHeader x).same ⟨rfl, rfl, rfl, rfl, rfl, rfl, rfl⟩
  | footer x =>
    simp only [DocxFile.call, Option.some.injEq] at e
    rw [← e]
    exact (h.countFooter x).same ⟨rfl, rfl, rfl, rfl, rfl, rfl, rfl⟩
  | firstFooter x =>
    simp only [DocxFile.call, Option.some.injEq] at e
    rw [← e]
    exact (h.countFooter x).same ⟨rfl, rfl, rfl, rfl, rfl, rfl, rfl⟩
  | evenFooter x =>
    simp only [DocxFile.call, Option.some.injEq] at e
    rw [← e]
    exact (h.countFooter x).same ⟨rfl, rfl, rfl, rfl, rfl, rfl, rfl⟩
  | taskpanes =>
    simp only [DocxFile.call, Option.some.injEq] at e
    rw [← e]
    exact h.taskpanes
  | webExtension x =>
    simp only [DocxFile.call, Option.some.injEq] at e
    rw [← e]
    exact h.webExtension x
  | addCustomItem i x =>
    simp only [DocxFile.call] at e
    split at e
    · simp only [Option.some.injEq] at e
      rw [← e]
      exact h.customItem _ _
    · exact absurd e (by simp)
  | _ =>
    simp only [DocxFile.call, Option.some.injEq] at e
    rw [← e]
    exact h.same ⟨rfl, rfl, rfl, rfl, rfl, rfl, rfl⟩

/-- No call says that there are comments: building does. -/
theorem call_unflagged (d : DocxFile) (c : Call) (d' : DocxFile) (h : d.documentRels.hasComments = false) (e : d.call c = some d') :
    d'.documentRels.hasComments = false := by
  cases c with
  | addSection s =>
    simp only [DocxFile.call, Option.some.injEq] at e
    rw [← e]
    exact attachParts_inv (P := fun d => d.documentRels.hasComments = false) (fun _ _ h => h) (fun _ _ h => h) d s h
  | addCustomItem i x =>
    simp only [DocxFile.call] at e
    split at e
    · simp only [Option.some.injEq] at e
      rw [← e]
      exact h
    · exact absurd e (by simp)
  | _ =>
    simp only [DocxFile.call, Option.some.injEq] at e
    rw [← e]
    exact h

theorem calls_unflagged {cs : List Call} {d : DocxFile} (h : DocxFile.new.calls cs = some d) : d.documentRels.hasComments = false :=
  calls_inv call_unflagged cs _ _ rfl h

/-- Every document made with the builder has sound bookkeeping. -/
theorem calls_sound {cs : List Call} {d : DocxFile} (h : DocxFile.new.calls cs = some d) : Sound d :=
  calls_inv Sound.call cs _ _ Sound.new h

end Docx
