import Verif.Props.C65_Succeeds
import Verif.Props.C79_JsLinks

/-!
# C65: what was put together in JavaScript can be read
-/

namespace Docx.Props

open Docx Docx.Spec Docx.Xml

variable (lib : ImageLib)

/-- What content does not touch. -/
def besideContent (d : DocxFile) :=
  (sectionProperties d.document, d.styles, d.numberings, d.settings, d.core, d.custom, d.webExtensions, d.customItemProps, d.customItems)

theorem js_beside : ∀ (cs : List JsChild) (d : DocxFile) (n : Ids), besideContent (jsItems lib d cs n).1 = besideContent d
  | [], d, n => by rw [jsItems]
  | c :: cs, d, n => by
    rw [jsItems, js_beside cs]
    cases c <;>
      simp [JsChild.build, besideContent, sectionProperties, DocxFile.addParagraph, DocxFile.addBookmarkStart, DocxFile.addBookmarkEnd, DocxFile.addToc,
        DocxFile.noteNumbering, Document.addParagraph, Document.addTable,
        Document.addBookmarkStart, Document.addBookmarkEnd, Document.addToc]

theorem js_beside_new (d : JsDocx) (n : Ids) : besideContent (d.build lib n).1 = besideContent DocxFile.new := by
  rw [← js_beside lib d.children DocxFile.new n]
  rfl

theorem js_parts (d : JsDocx) (n : Ids) (side : Side) : side.ofDocument (d.build lib n).1.document = [] := by
  have hb := js_beside_new lib d n
  simp only [besideContent, Prod.mk.injEq] at hb
  cases side <;> simp only [Side.ofDocument, headersOf, footersOf, hb.1] <;> rfl

/-- **C65.** Whatever content a program in JavaScript puts into a document, in whatever state the counters are: the file can be read, if the
strings that are not escaped can be copied into XML and the numbers are not too large for the types they have. -/
theorem C65_javascript (d : JsDocx) (n : Ids) (env : Env) (w : World) (es : List Entry) (e : FileEnv) (ht : ∀ t ∈ jsTocs d, TocMade t)
    (hl : ∀ l, (env.links l).Perm l) (hp : ∀ l, (env.props l).Perm l) (hs : Copied (d.build lib n).1)
    (h : Packed env (d.build lib n).1 w es) (hr : NumbersFit es) : ∃ k, ∀ n, k ≤ n → ∃ r, readDocx e n es = .ok r := by
  obtain ⟨cs, hc⟩ := js_calls lib d n
  have hm := js_made lib d n ht
  have hb := js_beside_new lib d n
  simp only [besideContent, Prod.mk.injEq] at hb
  obtain ⟨b1, b2, b3, b4, b5, b6, b7, b8, b9⟩ := hb
  refine C65_written cs _ env w es e hc hl hp hm ⟨hm.pictures, fun side x hx => by rw [js_parts] at hx; cases hx⟩ ?_ ?_ h hr
  · have hn : allCopiedB DocxFile.new = true := by decide +kernel
    have hn := allCopiedB_spec hn
    exact { toCopied := hs, styles := b2 ▸ hn.styles, numberings := b3 ▸ hn.numberings, settings := b4 ▸ hn.settings, core := b5 ▸ hn.core,
            custom := b6 ▸ hn.custom, webExtensions := b7 ▸ hn.webExtensions, itemIds := b8 ▸ hn.itemIds, items := b9 ▸ hn.items }
  · rw [b9]
    intro i hi
    cases hi

/-! ## Example -/

/-- A link, a comment, a table with a picture and a bookmark. -/
def jsReadable : JsDocx :=
  { children := [
      .bookmarkStart 1 c!"here",
      .paragraph { children := [
        .hyperlink c!"http://x" .external [.run { children := [.text c!"a < b"] }],
        .comment { id := 1, children := [{ children := [.run { children := [.text c!"why?"] }] }] }] },
      .bookmarkEnd 1,
      .table { rows := [{ cells := [{ children := [.paragraph { children := [.run { children := [.image { data := [2] }] }] }] }] }] }] }

theorem jsReadable_ok : (writableB (jsReadable.build sampleLib ⟨1, 1, 1⟩).1 && allCopiedB (jsReadable.build sampleLib ⟨1, 1, 1⟩).1
    && decide ((jsReadable.build sampleLib ⟨1, 1, 1⟩).1.customItems.length = 0)) = true := by
  decide +kernel

theorem jsReadable_fit (g : Gen) : treesFitB ((jsReadable.build sampleLib ⟨1, 1, 1⟩).1.preparePackage anEnv {}).1 g = true := by
  kernel_rfl

/-- The hypotheses are met. -/
example (e : FileEnv) : ∃ es, Packed anEnv (jsReadable.build sampleLib ⟨1, 1, 1⟩).1 {} es ∧ ∃ k, ∀ n, k ≤ n → ∃ r, readDocx e n es = .ok r := by
  have h := jsReadable_ok
  simp only [Bool.and_eq_true, decide_eq_true_eq] at h
  obtain ⟨⟨h1, h2⟩, h3⟩ := h
  obtain ⟨es, w', he⟩ := writable_packs anEnv _ {} (writableB_spec h1) (by rw [h3]; exact Nat.zero_le _) (by rw [h3]; exact Nat.zero_le _)
  have hk : Packed anEnv (jsReadable.build sampleLib ⟨1, 1, 1⟩).1 {} es := .inl ⟨w', he⟩
  have ht : ∀ t ∈ jsTocs jsReadable, TocMade t := fun t h => by cases h
  have hm := js_made sampleLib jsReadable ⟨1, 1, 1⟩ ht
  obtain ⟨cs, hc⟩ := js_calls sampleLib jsReadable ⟨1, 1, 1⟩
  refine ⟨es, hk, C65_javascript sampleLib jsReadable ⟨1, 1, 1⟩ anEnv {} es e ht (fun _ => .refl _) (fun _ => .refl _) (allCopiedB_spec h2).toCopied hk ?_⟩
  exact packed_fit hc (fun _ => .refl _) (fun _ => .refl _) hm ⟨hm.pictures, fun side x hx => by rw [js_parts] at hx; cases hx⟩
    (allCopiedB_spec h2) hk (trees_fit jsReadable_fit)

end Docx.Props
