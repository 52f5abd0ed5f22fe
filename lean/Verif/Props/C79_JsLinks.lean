import Verif.Lemmas.JsLinks
import Verif.Lemmas.Drawn
import Verif.Props.C77_Js
import Verif.Props.C18_C22_Relations
import Verif.Props.C42_PartRels
import Verif.Props.C47_C50_Writes

/-!
# C79: the references of a document put together in JavaScript
-/

namespace Docx.Props

open Docx Docx.Xml Docx.Spec

variable (lib : ImageLib)

/-- **C79.** A document put together in JavaScript is one a program in Rust gets by calls of the library, so all that is
proved of those holds for it. -/
theorem C79_calls (d : JsDocx) (n : Ids) : ∃ cs, DocxFile.new.calls cs = some (d.build lib n).1 := js_calls lib d n

theorem bare_made {t : Toc} (h : TocBare t) : TocMade t := by
  intro w x hx
  obtain ⟨h1, h2⟩ := h w x hx
  generalize x.2 = i at h1 h2
  cases i with
  | picture p => cases h1
  | hyperlink y =>
    intro rid path e
    obtain ⟨l, a, b⟩ := y
    simp only at e
    subst e
    cases h2
  | _ => trivial

/-- **C79.** No two external links of a document have the same id and no two pictures have, wherever they are, if there
are not more of them than numbers to name them by. -/
theorem C79_distinct (d : JsDocx) (n : Ids) (ht : ∀ t ∈ jsTocs d, TocBare t) (h1 : n.hyperlink < usizeCount) (h2 : n.pic < usizeCount)
    (hl : (linkIds (d.build lib n).1.document).length ≤ usizeCount) (hp : (pictureIds (d.build lib n).1.document).length ≤ usizeCount) :
    (linkIds (d.build lib n).1.document).Nodup ∧ (pictureIds (d.build lib n).1.document).Nodup := by
  rw [← flat_linkIds, ← flat_pictureIds] at *
  exact ⟨js_nodup lib .link d n ht h1 hl, js_nodup lib .pic d n ht h2 hp⟩

/-- **C79.** The external links in the paragraphs of the document and its tables are in the document that is built, in
order, with different ids, and each id leads in the package to the address given in JavaScript. -/
theorem C79_links (d : JsDocx) (n : Ids) (env : Env) (w : World) (es : List Entry) (ht : ∀ t ∈ jsTocs d, TocBare t)
    (hn : n.hyperlink < usizeCount) (hl : (linkIds (d.build lib n).1.document).length ≤ usizeCount)
    (he : ∀ l, (env.links l).Perm l) (h : Packed env (d.build lib n).1 w es) :
    ((bodyLinks (d.build lib n).1.document).map Prod.fst).Nodup ∧
    List.Forall₂ (fun l url => ∃ rs, HasRelations es c!"word/_rels/document.xml.rels" rs ∧
        rs.filter (fun r => decide (r.id = l.1)) = [⟨l.1, hyperlinkType, attrValue url, some c!"External"⟩])
      (bodyLinks (d.build lib n).1.document) (jsLinks d) := by
  obtain ⟨cs, hc⟩ := js_calls lib d n
  have hm := js_made lib d n fun t hx => bare_made (ht t hx)
  have hnd : ((bodyLinks (d.build lib n).1.document).map Prod.fst).Nodup := by
    refine (bodyLinks_sublist _).nodup ?_
    rw [← flat_linkIds] at *
    exact js_nodup lib .link d n ht hn hl
  refine ⟨hnd, ?_⟩
  have hv := js_leads lib d n ht
  generalize hd : (d.build lib n).1 = x at *
  have all : ∀ l ∈ bodyLinks x.document, ∀ url, l.2 = escapeOwned url →
      ∃ rs, HasRelations es c!"word/_rels/document.xml.rels" rs ∧
        rs.filter (fun r => decide (r.id = l.1)) = [⟨l.1, hyperlinkType, attrValue url, some c!"External"⟩] := by
    rintro ⟨rid, path⟩ hb url rfl
    obtain ⟨m, u, e⟩ := hm.2 _ hb
    have e' : (Hyperlink.new m url .external).link = .external rid (escapeOwned url) := by
      simp only [Hyperlink.new, HyperlinkData.external.injEq] at e ⊢
      exact ⟨e.1, trivial⟩
    refine C48_links_resolve_partial cs x env w es hc he hm h m url e' hb fun y hy ey => ?_
    have := List.inj_on_of_nodup_map hnd hy hb ey
    rw [this]
  clear hnd
  generalize bodyLinks x.document = ls at hv all
  generalize jsLinks d = us at hv
  induction ls generalizing us with
  | nil =>
    cases us with
    | nil => exact .nil
    | cons u us => cases hv
  | cons l ls ih =>
    cases us with
    | nil => cases hv
    | cons u us =>
      simp only [List.map_cons, List.cons.injEq] at hv
      exact .cons (all l (List.mem_cons_self ..) u hv.1) (ih (fun y hy => all y (List.mem_cons_of_mem _ hy)) us hv.2)

/-- The bytes of the pictures among pieces of content. -/
def shownPictures (l : List Shown) : List (List UInt8) := l.filterMap fun
  | .picture b _ _ _ => some b
  | _ => none

theorem shown_pictures (d : Document) : (partPictures (walkDocument d)).map Pic.image = shownPictures ((bodyItems d).flatMap Item.shown) := by
  have h := walkDocument_images d
  have h1 : pick imageAt (walkDocument d) = (partPictures (walkDocument d)).map Pic.image := by
    rw [partPictures, within_pick]
    unfold pick
    rw [List.map_flatMap]
    congr 1
    funext x
    cases hi : x.2 <;> simp only [imageAt, Item.picture?] <;> split <;> rfl
  have h2 : pick drawnAt (walkDocument d) = shownPictures ((bodyItems d).flatMap Item.shown) := by
    rw [bodyItems, within_shown]
    unfold pick shownPictures
    rw [List.filterMap_flatMap]
    congr 1
    funext x
    obtain ⟨w, i⟩ := x
    cases i with
    | runChild c =>
      cases c with
      | text t => cases hd : decodeText t <;> simp [drawnAt, shownAt, Item.shown, hd] <;> split <;> rfl
      | deleteText t => cases hd : decodeText t <;> simp [drawnAt, shownAt, Item.shown, hd] <;> split <;> rfl
      | instrText t =>
        cases t with
        | tc i => cases hd : decodeText i.text <;> simp [drawnAt, shownAt, Item.shown, hd] <;> split <;> rfl
        | _ => simp [drawnAt, shownAt, Item.shown]
      | _ => simp only [drawnAt, shownAt, Item.shown] <;> split <;> rfl
    | _ => simp [drawnAt, shownAt, Item.shown]
  rw [← h1, h, h2]

/-- **C79.** The pictures the program put into the document, its links and its tables are in the main part, in order, and
each leads in the package to its bytes. -/
theorem C79_pictures (d : JsDocx) (n : Ids) (env : Env) (w : World) (es : List Entry) (ht : ∀ t ∈ jsTocs d, TocMade t)
    (he : ∀ l, (env.links l).Perm l) (h : Packed env (d.build lib n).1 w es) :
    ∃ x s g g' rs, ⟨c!"word/document.xml", .text s⟩ ∈ es ∧ Document.write x g = some (.ok s, g') ∧
      HasRelations es c!"word/_rels/document.xml.rels" rs ∧
      List.Forall₂ (fun bytes q => ∃ target, rs.filter (fun r => decide (r.id = q.id)) = [⟨q.id, imageType, target, none⟩] ∧
        ⟨c!"word/" ++ target, .bytes bytes⟩ ∈ es) (shownPictures (JsDocx.content lib d)) (partPictures (walkDocument x)) := by
  obtain ⟨cs, hc⟩ := js_calls lib d n
  obtain ⟨x, s, g, g', rs, h1, h2, h3, h4⟩ := C13_package_body cs _ env w es hc he (js_made lib d n ht) h
  refine ⟨x, s, g, g', rs, h1, h2, h3, ?_⟩
  rw [← C77_content, ← shown_pictures, List.forall₂_map_left_iff]
  exact h4.imp fun _ _ hp => hp.2

theorem js_customItems : ∀ (cs : List JsChild) (d : DocxFile) (n : Ids), (jsItems lib d cs n).1.customItems = d.customItems
  | [], d, n => by rw [jsItems]
  | c :: cs, d, n => by
    rw [jsItems, js_customItems cs]
    cases c <;> rfl

/-- **C79.** The relationships of the document have different ids. -/
theorem C79_unique (d : JsDocx) (n : Ids) (env : Env) (w : World) (es : List Entry) (ht : ∀ t ∈ jsTocs d, TocMade t)
    (he : ∀ l, (env.links l).Perm l) (h : Packed env (d.build lib n).1 w es) :
    ∃ rs, HasRelations es c!"word/_rels/document.xml.rels" rs ∧ (rs.map Relation.id).Nodup := by
  obtain ⟨cs, hc⟩ := js_calls lib d n
  obtain ⟨rs, h1, h2⟩ := C20_unique_iff_partial cs _ env w es hc he (js_made lib d n ht) h
  refine ⟨rs, h1, h2.2 (.inl ?_)⟩
  have : (d.build lib n).1.customItems = (jsItems lib DocxFile.new d.children n).1.customItems := by
    unfold JsDocx.build DocxFile.noteNumbering; rfl
  rw [this, js_customItems]
  rfl

/-! ## Example -/

/-- Two links to one address and one in a table, a picture in a link and in a cell, a link in a comment and a table of contents. -/
def jsLinked : JsDocx :=
  { children := [
      .toc {},
      .paragraph { children := [
        .hyperlink c!"http://x?a&b" .external [.run { children := [.text c!"one", .image { data := [1] }] }],
        .hyperlink c!"here" .anchor [.run { children := [.text c!"two"] }],
        .comment { id := 1, children := [{ children := [.hyperlink c!"http://c" .external []] }] },
        .hyperlink c!"http://x?a&b" .external []] },
      .table { rows := [{ cells := [{ children := [
        .paragraph { children := [.run { children := [.image { data := [2] }] }, .hyperlink c!"http://y" .external []] }] }] }] }] }

theorem jsLinked_bare : ∀ t ∈ jsTocs jsLinked, TocBare t := by
  have : jsTocs jsLinked = [{}] := rfl
  rw [this]
  intro t h
  rw [List.mem_singleton.1 h]
  intro w x hx
  rw [walkToc] at hx
  simp only [walkBlocks, List.append_nil, List.mem_singleton] at hx
  rw [hx]
  exact ⟨rfl, rfl⟩

theorem jsLinked_ok : (writableB (jsLinked.build sampleLib ⟨1, 1, 1⟩).1 && decide ((jsLinked.build sampleLib ⟨1, 1, 1⟩).1.customItems.length = 0)
    && decide (jsLinks jsLinked = [c!"http://x?a&b", c!"http://x?a&b", c!"http://y"])
    && decide (linkIds (jsLinked.build sampleLib ⟨1, 1, 1⟩).1.document = [c!"rIdHyperlink1", c!"rIdHyperlink2", c!"rIdHyperlink3", c!"rIdHyperlink4"])
    && decide (pictureIds (jsLinked.build sampleLib ⟨1, 1, 1⟩).1.document = [c!"rIdImage1", c!"rIdImage2"])
    && decide (shownPictures (JsDocx.content sampleLib jsLinked) = [[1, 9], [2, 9]])) = true := by
  decide +kernel

example : ∃ es, (∀ t ∈ jsTocs jsLinked, TocBare t ∧ TocMade t) ∧ Packed anEnv (jsLinked.build sampleLib ⟨1, 1, 1⟩).1 {} es ∧
    (∀ l, (anEnv.links l).Perm l) ∧ (linkIds (jsLinked.build sampleLib ⟨1, 1, 1⟩).1.document).length ≤ usizeCount ∧
    (pictureIds (jsLinked.build sampleLib ⟨1, 1, 1⟩).1.document).length ≤ usizeCount ∧ 1 < usizeCount ∧
    jsLinks jsLinked = [c!"http://x?a&b", c!"http://x?a&b", c!"http://y"] ∧ shownPictures (JsDocx.content sampleLib jsLinked) = [[1, 9], [2, 9]] := by
  have h := jsLinked_ok
  simp only [Bool.and_eq_true, decide_eq_true_eq] at h
  obtain ⟨⟨⟨⟨⟨h1, h2⟩, h3⟩, h4⟩, h5⟩, h6⟩ := h
  obtain ⟨es, w', e⟩ := writable_packs anEnv _ {} (writableB_spec h1) (by rw [h2]; exact Nat.zero_le _) (by rw [h2]; exact Nat.zero_le _)
  refine ⟨es, fun t ht => ⟨jsLinked_bare t ht, bare_made (jsLinked_bare t ht)⟩, .inl ⟨w', e⟩, anEnv_links, ?_, ?_, by decide, h3, h6⟩
  · rw [h4]; decide
  · rw [h5]; decide

end Docx.Props
