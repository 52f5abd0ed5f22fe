import Verif.Lemmas.ReadTables
import Verif.Lemmas.PartReads

/-!
# Reading back the document part
-/

namespace Docx

open Docx.Xml Docx.Spec

variable {x : ReadEnv}

/-- What is read back for a thing in the body. -/
def DocumentChild.reread (x : ReadEnv) : DocumentChild → List DocumentChild
  | .paragraph p => [.paragraph p.reread]
  | .table t => [.table (t.reread x)]
  | .bookmarkStart id name => [.bookmarkStart id (seen name)]
  | .bookmarkEnd id => [.bookmarkEnd id]
  | .commentStart id _ => [.commentStart id (.new id)]
  | .commentEnd id => [.commentEnd id]
  | .sdt s => [.sdt (s.reread x)]
  | .toc _ => []
  | .«section» _ => []

/-- A thing in the body that can be read back. -/
def DocumentChild.Readable : DocumentChild → Prop
  | .paragraph p => p.Readable
  | .table t => t.Readable
  | .bookmarkStart id name => Fits id ∧ (decodeAttr name).isSome
  | .bookmarkEnd id => Fits id
  | .commentStart id _ => Fits id
  | .commentEnd id => Fits id
  | .sdt s => s.Readable
  | .toc _ => False
  | .«section» _ => False

/-- Content that marks the document as numbered. -/
def DocumentChild.numbered : DocumentChild → Bool
  | .paragraph p => p.hasNumbering
  | .table t => t.hasNumbering
  | .sdt s => s.hasNumbering
  | _ => false

/-- The document read back from its part. -/
def Document.reread (x : ReadEnv) (d : Document) : Document where
  children := d.children.flatMap (DocumentChild.reread x)
  sectionProperty := { base := d.sectionProperty.base.reread }
  hasNumbering := (d.children.flatMap (DocumentChild.reread x)).any DocumentChild.numbered

/-- A document that can be read back. -/
def Document.Readable (d : Document) : Prop := (∀ c ∈ d.children, c.Readable) ∧ d.sectionProperty.base.Readable

/-- Content added to a document. -/
def Document.addAll (d : Document) (cs : List DocumentChild) : Document :=
  { d with children := d.children ++ cs, hasNumbering := d.hasNumbering || cs.any DocumentChild.numbered }

theorem Document.addAll_nil (d : Document) : d.addAll [] = d := by simp [Document.addAll]

/-- An element whose content the document loop reads itself. -/
theorem document_wrap {n : Str} {as : List (Str × Str)} {f : List Node} {d d' : Document}
    (hn : n = c!"w:document" ∨ n = c!"w:body" ∨ n = c!"w:r" ∨ n = c!"w:rPr" ∨ n = c!"w:commentReference")
    (h : TakesF x (documentLoop x) d f d') : TakesF x (documentLoop x) d [.elem n as f] d' := by
  refine TakesF.wrap (s₁ := d) (s₂ := d') (fun _ es hd => ?_) h (fun _ => rfl)
  rcases hn with rfl | rfl | rfl | rfl | rfl <;> simp [-String.reduceToList, documentLoop]

theorem document_commentEnd {n : Nat} (hn : Fits n) (d : Document) :
    TakesF x (documentLoop x) d (commentEndNodes n) (d.addAll [.commentEnd n]) := by
  have h1 : TakesF x (documentLoop x) d (leafN c!"w:commentRangeEnd" [(c!"w:id", dec n)]) (d.addAll [.commentEnd n]) := by
    refine TakesF.leaf' (fun _ es hd => ?_) (fun _ => rfl)
    simp [-String.reduceToList, documentLoop, readCommentId_dec hn, Document.addAll, Document.addCommentEnd, DocumentChild.numbered]
  have h0 : ∀ d, TakesF x (documentLoop x) d [.elem c!"w:r" [] (leafN c!"w:rPr")] d := fun d =>
    document_wrap (by simp) (document_wrap (by simp) (.nil _))
  have h2 : ∀ d, TakesF x (documentLoop x) d [.elem c!"w:r" [] (leafN c!"w:commentReference" [(c!"w:id", dec n)])] d := fun d =>
    document_wrap (by simp) (document_wrap (by simp) (.nil _))
  exact ((h0 d).append h1).append (h2 _)

theorem takes_documentChild (c : DocumentChild) (h : c.Readable) :
    TakesN x (documentLoop x) c.nodes (fun d => d.addAll (c.reread x)) := by
  intro g f g' e d
  cases c with
  | paragraph p =>
    obtain ⟨as, body, rfl, hr⟩ := returns_paragraph (x := x) p h e
    refine TakesF.child ((hr.map d.addParagraph).congr (fun _ es hd => ?_) |>.mono ?_)
    · simp [-String.reduceToList, documentLoop]
    · simp [Document.addAll, Document.addParagraph, DocumentChild.reread, DocumentChild.numbered]
  | table t =>
    obtain ⟨body, rfl, hr⟩ := returns_table (x := x) t h e
    refine TakesF.child ((hr.map d.addTable).congr (fun _ es hd => ?_) |>.mono ?_)
    · simp [-String.reduceToList, documentLoop]
    · simp [Document.addAll, Document.addTable, DocumentChild.reread, DocumentChild.numbered]
  | bookmarkStart id name =>
    refine TakesN.emit (φ := fun h => h.addAll [.bookmarkStart id (seen name)]) (fun d => ?_) _ _ _ e d
    refine TakesF.leaf' (fun _ es hd => ?_) (fun _ => rfl)
    simp [-String.reduceToList, documentLoop, readBookmarkStart_attrs h.1 h.2, Read.map, Read.bind, Document.addAll, Document.addBookmarkStart, DocumentChild.numbered]
  | bookmarkEnd id =>
    refine TakesN.emit (φ := fun h => h.addAll [.bookmarkEnd id]) (fun d => ?_) _ _ _ e d
    refine TakesF.leaf' (fun _ es hd => ?_) (fun _ => rfl)
    simp [-String.reduceToList, documentLoop, readBookmarkEnd_attrs h, Read.map, Read.bind, Document.addAll, Document.addBookmarkEnd, DocumentChild.numbered]
  | commentStart id c =>
    refine TakesN.emit (φ := fun h => h.addAll [.commentStart id (.new id)]) (fun d => ?_) _ _ _ e d
    refine TakesF.leaf' (fun _ es hd => ?_) (fun _ => rfl)
    simp [-String.reduceToList, documentLoop, readCommentId_dec h, Document.addAll, Document.addCommentStart, DocumentChild.numbered, Comment.new]
  | commentEnd id =>
    exact TakesN.emit (φ := fun h => h.addAll [.commentEnd id]) (fun d => document_commentEnd h d) _ _ _ e d
  | sdt s =>
    obtain ⟨body, rfl, hr⟩ := returns_sdt (x := x) s h e
    refine TakesF.child ((hr.caught (g := fun s es => match s with
        | some s => .ok (d.addSdt s) es
        | none => .ok d es) (fun es => rfl)).congr (fun _ es hd => ?_) |>.mono ?_)
    · simp [-String.reduceToList, documentLoop]; rfl
    · simp [Document.addAll, Document.addSdt, DocumentChild.reread, DocumentChild.numbered]
  | toc t => exact absurd h id
  | «section» s => exact absurd h id

theorem takes_bodySectPr (s : SectionBase) (h : s.Readable) :
    TakesN x (documentLoop x) (emitN s.nodes) (fun d => { d with sectionProperty := { base := s.reread } }) := by
  refine .emit fun d => ?_
  obtain ⟨body, e, hr⟩ := returns_section (x := x) s h
  rw [e]
  refine TakesF.child ((hr.map (fun s => ({ d with sectionProperty := { base := s } } : Document))).congr (fun _ es hd => ?_))
  simp [-String.reduceToList, documentLoop]

theorem takes_document (d : Document) (h : d.Readable) {g g' : Gen} {f : List Node} (e : d.nodes g = some (f, g')) :
    TakesF x (documentLoop x) {} f (d.reread x) := by
  obtain ⟨body, hb, rfl⟩ := elemN_eq e
  obtain ⟨body, hb', rfl⟩ := elemN_eq hb
  refine document_wrap (by simp) (document_wrap (by simp) ?_)
  have h1 : TakesN x (documentLoop x) (eachN DocumentChild.nodes d.children) (fun s => s.addAll (d.children.flatMap (DocumentChild.reread x))) :=
    .flatMap Document.addAll_nil (fun s l l' => by simp [Document.addAll, Bool.or_assoc]) fun c hc => takes_documentChild c (h.1 c hc)
  have := (h1.cat_cons ((takes_bodySectPr d.sectionProperty.base h.2).cat_cons .cat_nil)) _ _ _ hb' {}
  simpa [Document.addAll, Document.reread] using this

/-- The document part, written, reads as `q`. -/
theorem reads_document (d : Document) (hs : AllS d.strings) (h : d.Readable) {sa : Option Bool} {g g' : Gen} {out : Str}
    (e : writePart sa d.build g = some (.ok out, g')) :
    ∃ k, ∀ n, k ≤ n → readDocument x n out = .ok (d.reread x) [] := by
  rw [← Document_build_flat] at e
  obtain ⟨f, hf, _, hr⟩ := writePart_reads (d.ok hs) e
  have hend : Runs x (documentLoop x) (d.reread x) (expect [] none []) (.ok (d.reread x) []) := by
    refine ⟨1, fun _ _ n hn => ?_⟩
    obtain ⟨n, rfl⟩ : ∃ m, n = m + 1 := ⟨n - 1, by omega⟩
    rfl
  obtain ⟨k, hk⟩ := takes_document (x := x) d h hf [] [] _ hend
  rw [List.append_nil] at hk
  exact ⟨k, fun n hn => by rw [readDocument, hr]; exact hk n hn n hn⟩

end Docx
