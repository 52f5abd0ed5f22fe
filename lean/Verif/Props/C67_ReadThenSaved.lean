import Verif.Lemmas.ReadBooks
import Verif.Props.C18_C22_Relations
import Verif.Props.C19_Headers
import Verif.Props.C23_Numbering
import Verif.Props.C63_Ends

/-!
# C67: a file that was read, changed and saved

Whatever the bytes, what `read_docx` gives is a `Docx` with its own books: counts of headers and footers, content types, relationships. The
calls of C18 to C22 can be made on it, and it can be saved.
-/

namespace Docx.Props

open Docx.Spec Docx.Xml

/-- The books of a file that was read stay right through all calls. -/
theorem read_calls {e : FileEnv} {n : Nat} {ar : List Entry} {r : ReadFile} {cs : List Call} {d : DocxFile} (hr : readDocx e n ar = .ok r)
    (hc : r.file.calls cs = some d) : Typed d ∧ Sound d :=
  calls_inv typed_call cs r.file d ⟨(readDocx_books hr).books.typed, (readDocx_books hr).books.sound⟩ hc

/-- **C67, ids.** Read any archive, make any calls on what was read, and save it: no two relationships of the main document have the same id,
unless there are both custom items and footnotes. `Made` is about the pictures and links in the body: their ids have the form this library
gives. For others see `C67_fails_link_id`. -/
theorem C67_ids_partial {e : FileEnv} {n : Nat} {ar : List Entry} {r : ReadFile} {cs : List Call} {d : DocxFile} {env : Env} {w : World}
    {es : List Entry} (hr : readDocx e n ar = .ok r) (hc : r.file.calls cs = some d) (hp : ∀ l, (env.links l).Perm l) (hm : Made d.document)
    (h : Packed env d w es) :
    ∃ rs, HasRelations es c!"word/_rels/document.xml.rels" rs ∧
      ((rs.map Relation.id).Nodup ↔ d.customItems = [] ∨ partFootnotes (walkDocument d.document) = []) :=
  sound_unique_iff (read_calls hr hc).2 hp hm h

/-- **C67, content types.** Read any archive, make any calls on what was read, and save it: no part has two content types, each is the right
one, and every part that needs one has it. -/
theorem C67_types {e : FileEnv} {n : Nat} {ar : List Entry} {r : ReadFile} {cs : List Call} {d : DocxFile} {env : Env} {w : World}
    {es : List Entry} (hr : readDocx e n ar = .ok r) (hc : r.file.calls cs = some d) (h : Packed env d w es) :
    ∃ s, ⟨c!"[Content_Types].xml", .text s⟩ ∈ es ∧ ((overridesIn (readEvents s)).map Prod.fst).Nodup ∧
      (∀ x ∈ overridesIn (readEvents s), contentTypeOf x.1 = some x.2) ∧
      ∀ name, (name ∈ mainParts ∨ (∃ n < d.documentRels.headerCount, name = c!"/word/header" ++ dec (n + 1) ++ c!".xml")
        ∨ (∃ n < d.documentRels.footerCount, name = c!"/word/footer" ++ dec (n + 1) ++ c!".xml")
        ∨ (partFootnotes (walkDocument d.document) ≠ [] ∧ name = c!"/word/footnotes.xml")
        ∨ (d.taskpanes = true ∧ name = c!"/word/webextensions/taskpanes.xml")
        ∨ (∃ n < d.webExtensions.length, name = c!"/word/webextensions/webextension" ++ dec (n + 1) ++ c!".xml")) →
      ∃ t, contentTypeOf name = some t ∧ (name, t) ∈ overridesIn (readEvents s) := by
  obtain ⟨ht, hs⟩ := read_calls hr hc
  obtain ⟨s, h1, h2, h3⟩ := sound_distinct hs ht h
  obtain ⟨s', g1, g2⟩ := sound_typed hs ht h
  have := entry_unique (packed_nodup h) h1 g1
  simp only [Content.text.injEq] at this
  subst this
  exact ⟨s, h1, h2, h3, g2⟩

/-- The headers and footers of a file that was read are written as parts, as many as are counted. -/
theorem read_parts {e : FileEnv} {n : Nat} {ar : List Entry} {r : ReadFile} {env : Env} {w : World} {es : List Entry}
    (hr : readDocx e n ar = .ok r) (h : Packed env r.file w es) (side : Side) (i : Nat) (hi : i < Side.count side r.file) :
    HasFile es (partName (Side.kind side) (i + 1)) := by
  have hb := (readDocx_books hr).books
  have hl : i < (Side.all side r.file.document).length := by
    rw [Side.all_eq, hb.sections, List.flatMap_nil, List.append_nil, hb.held]
    exact hi
  obtain ⟨_, _, _, _, _, _, h3⟩ := packed_part h (List.getElem?_eq_getElem hl)
  exact ⟨_, h3, by simp⟩

/-- **C67, targets.** Read any archive and save it: every internal relationship of the main document leads to a part that is there. -/
theorem C67_targets_partial {e : FileEnv} {n : Nat} {ar : List Entry} {r : ReadFile} {env : Env} {w : World} {es : List Entry}
    (hr : readDocx e n ar = .ok r) (hp : ∀ l, (env.links l).Perm l) (hm : Made r.file.document) (h : Packed env r.file w es) :
    ∃ rs, HasRelations es c!"word/_rels/document.xml.rels" rs ∧ ∀ x ∈ rs, x.mode = none → HasFile es (targetEntry x.target) :=
  sound_targets (readDocx_books hr).books.sound (read_parts hr h) hp hm h

/-- **C67, content types of parts that are there.** Read any archive and save it: every content type is for a part that is there. -/
theorem C67_overrides {e : FileEnv} {n : Nat} {ar : List Entry} {r : ReadFile} {env : Env} {w : World} {es : List Entry}
    (hr : readDocx e n ar = .ok r) (h : Packed env r.file w es) :
    ∃ s, ⟨c!"[Content_Types].xml", .text s⟩ ∈ es ∧ ∀ x ∈ overridesIn (readEvents s), ∃ n, x.1 = '/' :: n ∧ HasFile es n :=
  sound_exist (readDocx_books hr).books.sound (readDocx_books hr).books.typed (read_parts hr h) h (.inl (readDocx_books hr).books.web)
    (.inl (readDocx_books hr).books.items)

/-- A part that was read is held under the id of a reference. -/
theorem held_reference {d : DocxFile} (h : ReadBooks d) (side : Side) {x : Str × Header} (hx : x ∈ Side.own side d.document.sectionProperty) :
    ∃ q, some q ∈ side.references d.document.sectionProperty.base ∧ q.id = x.1 := by
  obtain ⟨ids, hf⟩ := h.filling
  have key := hf.keyed
  generalize d.document.sectionProperty = p at hx key
  have get : ∀ (i : Nat) (o : Option PartReference), (refIds p)[i]? = some (o.map PartReference.id) → (slots p)[i]?.join = some x →
      ∃ q, o = some q ∧ q.id = x.1 := by
    intro i o h1 h2
    have := key i x h2
    rw [h1, Option.join_some] at this
    cases o with
    | none => cases this
    | some q => simp only [Option.map_some, Option.some.injEq] at this; exact ⟨q, rfl, this⟩
  rw [Side.own, List.mem_filterMap] at hx
  obtain ⟨o, ho, hx⟩ := hx
  rw [id_eq] at hx
  subst hx
  cases side
  · simp only [Side.parts, List.mem_cons, List.not_mem_nil, or_false] at ho
    rcases ho with ho | ho | ho
    · obtain ⟨q, e, hq⟩ := get 0 _ rfl (by show (some p.header).join = _; rw [← ho]; rfl)
      exact ⟨q, by simp [Side.references, e], hq⟩
    · obtain ⟨q, e, hq⟩ := get 1 _ rfl (by show (some p.firstHeader).join = _; rw [← ho]; rfl)
      exact ⟨q, by simp [Side.references, e], hq⟩
    · obtain ⟨q, e, hq⟩ := get 2 _ rfl (by show (some p.evenHeader).join = _; rw [← ho]; rfl)
      exact ⟨q, by simp [Side.references, e], hq⟩
  · simp only [Side.parts, List.mem_cons, List.not_mem_nil, or_false] at ho
    rcases ho with ho | ho | ho
    · obtain ⟨q, e, hq⟩ := get 3 _ rfl (by show (some p.footer).join = _; rw [← ho]; rfl)
      exact ⟨q, by simp [Side.references, e], hq⟩
    · obtain ⟨q, e, hq⟩ := get 4 _ rfl (by show (some p.firstFooter).join = _; rw [← ho]; rfl)
      exact ⟨q, by simp [Side.references, e], hq⟩
    · obtain ⟨q, e, hq⟩ := get 5 _ rfl (by show (some p.evenFooter).join = _; rw [← ho]; rfl)
      exact ⟨q, by simp [Side.references, e], hq⟩

theorem fixed_types (r : DocumentRels) : ∀ y ∈ r.fixedRelations, y.type ≠ Side.header.type ∧ y.type ≠ Side.footer.type := by
  unfold DocumentRels.fixedRelations
  generalize r.hasComments = a
  generalize r.hasNumberings = b
  generalize r.hasFootnotes = c
  revert a b c
  decide

/-- The relationships to headers, or to footers, are those to the parts that are counted. -/
theorem typed_relation (side : Side) {r : DocumentRels} {imgs ls : List (Str × Str)} {n : Nat} (hn : side = .header → r.headerCount = n)
    (hn' : side = .footer → r.footerCount = n) (id : Str) :
    (∃ y ∈ r.fixedRelations ++ r.partRelations ++ imgs.map imageRelation ++ ls.map linkRelation, y.id = id ∧ y.type = side.type) ↔
      ∃ i < n, id = side.rid (i + 1) := by
  have k1 : officeRel c!"image" ≠ Side.header.type ∧ officeRel c!"image" ≠ Side.footer.type := by decide
  have k2 : officeRel c!"hyperlink" ≠ Side.header.type ∧ officeRel c!"hyperlink" ≠ Side.footer.type := by decide
  have k3 : officeRel c!"customXml" ≠ Side.header.type ∧ officeRel c!"customXml" ≠ Side.footer.type := by decide
  have k4 : officeRel c!"header" ≠ Side.footer.type := by decide
  have k5 : officeRel c!"footer" ≠ Side.header.type := by decide
  constructor
  · rintro ⟨y, hy, rfl, ht⟩
    rcases List.mem_append.1 hy with hy | hy
    · rcases List.mem_append.1 hy with hy | hy
      · rcases List.mem_append.1 hy with hy | hy
        · have := fixed_types r y hy
          cases side
          · exact absurd ht this.1
          · exact absurd ht this.2
        · simp only [DocumentRels.partRelations, List.mem_append, List.mem_map, List.mem_range] at hy
          rcases hy with (⟨i, hi, rfl⟩ | ⟨i, hi, rfl⟩) | ⟨_, _, rfl⟩
          · cases side
            · exact ⟨i, hn rfl ▸ hi, rfl⟩
            · exact absurd ht k4
          · cases side
            · exact absurd ht k5
            · exact ⟨i, hn' rfl ▸ hi, rfl⟩
          · cases side
            · exact absurd ht k3.1
            · exact absurd ht k3.2
      · obtain ⟨_, _, rfl⟩ := List.mem_map.1 hy
        cases side
        · exact absurd ht k1.1
        · exact absurd ht k1.2
    · obtain ⟨_, _, rfl⟩ := List.mem_map.1 hy
      cases side
      · exact absurd ht k2.1
      · exact absurd ht k2.2
  · rintro ⟨i, hi, rfl⟩
    refine ⟨Side.relation side i, List.mem_append_left _ (List.mem_append_left _ (List.mem_append_right _ ?_)), rfl, rfl⟩
    unfold DocumentRels.partRelations
    cases side
    · refine List.mem_append_left _ (List.mem_append_left _ ?_)
      rw [List.mem_map]
      refine ⟨i, List.mem_range.2 (hn rfl ▸ hi), ?_⟩
      rw [numberedRelation, headerRel_eq]
      rfl
    · refine List.mem_append_left _ (List.mem_append_right _ ?_)
      rw [List.mem_map]
      refine ⟨i, List.mem_range.2 (hn' rfl ▸ hi), ?_⟩
      rw [numberedRelation, footerRel_eq]
      rfl

/-- **C67, headers and footers.** Read any archive and save it. For every header or footer that was read, the main document that is written
has a reference with the id that was read. There is a relationship of that kind with that id exactly if the id is one of those this library
gives, `rIdHeader1`, `rIdHeader2`, … for the headers. -/
theorem C67_references_iff {e : FileEnv} {n : Nat} {ar : List Entry} {r : ReadFile} {env : Env} {w : World} {es : List Entry}
    (hr : readDocx e n ar = .ok r) (hp : ∀ l, (env.links l).Perm l) (hm : Nameable r.file.document) (h : Packed env r.file w es) (side : Side)
    {x : Str × Header} (hx : some x ∈ side.parts r.file.document.sectionProperty) :
    (∃ pre sect type,
      ⟨c!"word/document.xml", .text (standaloneDeclaration ++
        (Node.elem c!"w:document" documentAttrs [.elem c!"w:body" [] (pre ++ [.elem c!"w:sectPr" [] sect])]).print)⟩ ∈ es ∧
      .elem side.element [(c!"w:type", type), (c!"r:id", x.1)] [] ∈ sect) ∧
    ∃ rs, HasRelations es c!"word/_rels/document.xml.rels" rs ∧
      ((∃ y ∈ rs, y.id = x.1 ∧ y.type = side.type) ↔ ∃ i < (side.parts r.file.document.sectionProperty).countP Option.isSome, x.1 = side.rid (i + 1)) := by
  have hb := readDocx_books hr
  have hown : x ∈ Side.own side r.file.document.sectionProperty := List.mem_filterMap.2 ⟨_, hx, rfl⟩
  have hcount : (side.parts r.file.document.sectionProperty).countP Option.isSome = Side.count side r.file := by
    rw [← hb.books.held, Side.own]
    generalize side.parts r.file.document.sectionProperty = l
    induction l with
    | nil => rfl
    | cons a l ih => cases a <;> simp_all
  refine ⟨?_, ?_⟩
  · obtain ⟨q, hq, hid⟩ := held_reference hb side hown
    obtain ⟨pre, sect, h1, h2⟩ := packed_body_references (side := side) h
    refine ⟨pre, sect, q.type, h1, ?_⟩
    have : Node.elem side.element [(c!"w:type", q.type), (c!"r:id", x.1)] [] ∈ sect.filter (isNamed side.element) := by
      rw [h2, List.mem_flatMap]
      exact ⟨_, hq, by simp [hid]⟩
    exact (List.mem_filter.1 this).1
  · obtain ⟨rr, imgs, ls, h1, h2, h3, h4, h5, h6, h7, h8, h9⟩ := packed_relations hb.books.sound hp hm h
    refine ⟨_, h1, ?_⟩
    rw [hcount]
    exact typed_relation side (by rintro rfl; exact h4) (by rintro rfl; exact h5) x.1

/-- **C67, headers and footers this library wrote.** If the id of a header or footer that was read is the one of its place among those of its
kind, the reference that is written leads to a part with the same content. -/
theorem C67_resolves_partial {e : FileEnv} {n : Nat} {ar : List Entry} {r : ReadFile} {env : Env} {w : World} {es : List Entry}
    (hr : readDocx e n ar = .ok r) (hp : ∀ l, (env.links l).Perm l) (hm : Made r.file.document) (h : Packed env r.file w es) (side : Side)
    {x : Str × Header} {j : Nat} (hx : ((side.parts r.file.document.sectionProperty).filterMap id)[j]? = some x) (hj : x.1 = side.rid (j + 1)) :
    ResolvesTo es side x.1 x.2 := by
  have hb := (readDocx_books hr).books
  have e : (Side.all side r.file.document)[j]? = some x := by
    rw [Side.all_eq, hb.sections, List.flatMap_nil, List.append_nil]
    exact hx
  rw [hj]
  refine packed_resolves hb.sound hp hm h e ?_
  rw [← hb.held, Side.own]
  exact (List.getElem?_eq_some_iff.1 hx).1

/-- **C67 fails** for the numbering: whatever was read, if it is saved as it is, the main document does not relate the numbering part. -/
theorem C67_fails_numbering {e : FileEnv} {n : Nat} {ar : List Entry} {r : ReadFile} {env : Env} {w : World} {es : List Entry}
    (hr : readDocx e n ar = .ok r) (hp : ∀ l, (env.links l).Perm l) (hm : Nameable r.file.document) (h : Packed env r.file w es) :
    ¬ NumberingRelated es := by
  rw [numbering_related_iff (readDocx_books hr).books.sound hp hm h, (readDocx_books hr).books.numberings]
  simp

theorem fixed_ids (r : DocumentRels) : ∀ id ∈ [c!"rId1", c!"rId2", c!"rId3", c!"rId5"], id ∈ r.fixedRelations.map Relation.id := by
  unfold DocumentRels.fixedRelations
  generalize r.hasComments = a
  generalize r.hasNumberings = b
  generalize r.hasFootnotes = c
  revert a b c
  decide

/-- **C67 fails** for the ids of links: if a link that was read has one of the ids this library uses for its own parts, there are two
relationships with that id. -/
theorem C67_fails_link_id {e : FileEnv} {n : Nat} {ar : List Entry} {r : ReadFile} {env : Env} {w : World} {es : List Entry}
    (hr : readDocx e n ar = .ok r) (hp : ∀ l, (env.links l).Perm l) (hm : Nameable r.file.document) (h : Packed env r.file w es) {x : Str × Str}
    (hx : x ∈ bodyLinks r.file.document) (hid : x.1 ∈ [c!"rId1", c!"rId2", c!"rId3", c!"rId5"]) :
    ∃ rs, HasRelations es c!"word/_rels/document.xml.rels" rs ∧ ¬ (rs.map Relation.id).Nodup := by
  obtain ⟨rr, imgs, ls, h1, h2, h3, h4, h5, h6, h7, h8, h9⟩ := packed_relations (readDocx_books hr).books.sound hp hm h
  refine ⟨_, h1, fun hn => ?_⟩
  rw [List.map_append, List.map_append, List.map_append, List.nodup_append, List.nodup_append, List.nodup_append] at hn
  have a := fixed_ids rr x.1 hid
  have b : x.1 ∈ (ls.map linkRelation).map Relation.id := by
    rw [List.map_map]
    exact h9.keys x hx
  exact hn.2.2 _ (List.mem_append_left _ (List.mem_append_left _ a)) _ b rfl

/-! ## Archives that meet the hypotheses -/

/-- The archive is read, what was read can be written, and satisfies `p`. -/
private def reads (p : DocxFile → Bool) (ar : List Entry) : Bool :=
  match readDocx aReader 30 ar with
  | .ok r => writableB r.file && p r.file
  | _ => false

private theorem reads_spec {p : DocxFile → Bool} {ar : List Entry} (h : reads p ar = true) :
    ∃ r es, readDocx aReader 30 ar = .ok r ∧ Packed anEnv r.file {} es ∧ p r.file = true := by
  unfold reads at h
  split at h
  · next r e =>
    rw [Bool.and_eq_true] at h
    have hs := (readDocx_books e).books.sound
    obtain ⟨es, w', e'⟩ := writable_packs anEnv r.file {} (writableB_spec h.1) (by rw [hs.crels, List.length_replicate]; exact Nat.le_refl _)
      (by rw [hs.props]; exact Nat.le_refl _)
    exact ⟨r, es, e, .inl ⟨w', e'⟩, h.2⟩
  · cases h

private def someRels : Str :=
  c!"<Relationships><Relationship Id=\"rId9\" Type=\"http://schemas.openxmlformats.org/officeDocument/2006/relationships/header\" Target=\"header1.xml\"/></Relationships>"

private def someHeader : Entry := ⟨c!"word/header1.xml", .text c!"<w:hdr><w:p><w:r><w:t>top</w:t></w:r></w:p></w:hdr>"⟩

/-- A document with a numbered paragraph and a header under the id `rId9`. -/
private def someDocument : Str :=
  c!"<w:document><w:body><w:p><w:pPr><w:numPr><w:ilvl w:val=\"0\"/><w:numId w:val=\"1\"/></w:numPr></w:pPr><w:r><w:t>one</w:t></w:r></w:p>" ++
    c!"<w:sectPr><w:headerReference w:type=\"default\" r:id=\"rId9\"/></w:sectPr></w:body></w:document>"

private def plainBody (d : DocxFile) : Bool := (partPictures (walkDocument d.document)).isEmpty && (bodyLinks d.document).isEmpty

private theorem plainBody_made {d : DocxFile} (h : plainBody d = true) : Made d.document := by
  rw [plainBody, Bool.and_eq_true, List.isEmpty_iff, List.isEmpty_iff] at h
  exact ⟨fun x hx => (by rw [h.1] at hx; cases hx), fun x hx => (by rw [h.2] at hx; cases hx)⟩

private def isNumbered (d : DocxFile) : Bool := d.document.children.any fun
  | .paragraph p => p.hasNumbering
  | _ => false

private theorem some_reads : reads (fun d => plainBody d && isNumbered d && decide (d.document.sectionProperty.header.map Prod.fst = some c!"rId9"))
    (smallArchive someRels someDocument [someHeader]) = true := by decide +kernel

private theorem numbered_example {ar : List Entry}
    (h : reads (fun d => plainBody d && isNumbered d && decide (d.document.sectionProperty.header.map Prod.fst = some c!"rId9")) ar = true) :
    ∃ r es x, readDocx aReader 30 ar = .ok r ∧ Packed anEnv r.file {} es ∧
    Made r.file.document ∧ some x ∈ Side.header.parts r.file.document.sectionProperty ∧ x.1 = c!"rId9" ∧
    (∃ rs, HasRelations es c!"word/_rels/document.xml.rels" rs ∧ ¬ ∃ y ∈ rs, y.id = x.1 ∧ y.type = Side.header.type) ∧
    (∃ p, .paragraph p ∈ r.file.document.children ∧ p.hasNumbering = true) ∧ ¬ NumberingRelated es := by
  obtain ⟨r, es, h1, h2, h3⟩ := reads_spec h
  rw [Bool.and_eq_true, Bool.and_eq_true, decide_eq_true_eq, isNumbered, List.any_eq_true] at h3
  obtain ⟨⟨h3, c, hc, hn⟩, h4⟩ := h3
  have hm := plainBody_made h3
  cases e : r.file.document.sectionProperty.header with
  | none => rw [e] at h4; cases h4
  | some x =>
    rw [e, Option.map_some, Option.some.injEq] at h4
    have hx : some x ∈ Side.header.parts r.file.document.sectionProperty := by rw [Side.parts, e]; exact .head _
    refine ⟨r, es, x, h1, h2, hm, hx, h4, ?_, ?_, C67_fails_numbering h1 anEnv_links hm.nameable h2⟩
    · obtain ⟨_, rs, g1, g2⟩ := C67_references_iff h1 anEnv_links hm.nameable h2 .header hx
      refine ⟨rs, g1, ?_⟩
      rw [g2, h4]
      rintro ⟨i, _, he⟩
      have he : c!"rId9" = c!"rIdH" ++ (c!"eader" ++ dec (i + 1)) := he
      exact absurd (congrArg (List.take 4) he) (by rw [List.take_append_of_le_length (by decide)]; decide)
    · cases c with
      | paragraph p => exact ⟨p, hc, hn⟩
      | _ => cases hn

/-- A file with a header and a numbered paragraph is read and saved. The reference to the header is written with the id `rId9` it was read
with, but no header has that id; and the numbering is not related. -/
example : ∃ r es x, readDocx aReader 30 (smallArchive someRels someDocument [someHeader]) = .ok r ∧ Packed anEnv r.file {} es ∧
    Made r.file.document ∧ some x ∈ Side.header.parts r.file.document.sectionProperty ∧ x.1 = c!"rId9" ∧
    (∃ rs, HasRelations es c!"word/_rels/document.xml.rels" rs ∧ ¬ ∃ y ∈ rs, y.id = x.1 ∧ y.type = Side.header.type) ∧
    (∃ p, .paragraph p ∈ r.file.document.children ∧ p.hasNumbering = true) ∧ ¬ NumberingRelated es :=
  numbered_example some_reads

private theorem link_reads : reads (fun d => (partPictures (walkDocument d.document)).isEmpty && decide (bodyLinks d.document = [(c!"rId2", [])]))
    (smallArchive c!"<Relationships/>"
      c!"<w:document><w:body><w:p><w:hyperlink r:id=\"rId2\"><w:r><w:t>here</w:t></w:r></w:hyperlink></w:p></w:body></w:document>" []) = true := by
  decide +kernel

private theorem link_example {ar : List Entry}
    (h : reads (fun d => (partPictures (walkDocument d.document)).isEmpty && decide (bodyLinks d.document = [(c!"rId2", [])])) ar = true) :
    ∃ r es rs, readDocx aReader 30 ar = .ok r ∧
    Packed anEnv r.file {} es ∧ HasRelations es c!"word/_rels/document.xml.rels" rs ∧ ¬ (rs.map Relation.id).Nodup := by
  obtain ⟨r, es, h1, h2, h3⟩ := reads_spec h
  rw [Bool.and_eq_true, decide_eq_true_eq, List.isEmpty_iff] at h3
  have hm : Nameable r.file.document := ⟨fun x hx => (by rw [h3.1] at hx; cases hx), fun x hx => by
    rw [h3.2, List.mem_singleton] at hx
    subst hx
    exact ⟨plain_lit (by decide), [], rfl⟩⟩
  obtain ⟨rs, g1, g2⟩ := C67_fails_link_id h1 anEnv_links hm h2 (x := (c!"rId2", [])) (by rw [h3.2]; exact .head _) (by decide)
  exact ⟨r, es, rs, h1, h2, g1, g2⟩

/-- A file with a link under the id `rId2` is read and saved: there are two relationships with the id. -/
example : ∃ r es rs, readDocx aReader 30 (smallArchive c!"<Relationships/>"
      c!"<w:document><w:body><w:p><w:hyperlink r:id=\"rId2\"><w:r><w:t>here</w:t></w:r></w:hyperlink></w:p></w:body></w:document>" []) = .ok r ∧
    Packed anEnv r.file {} es ∧ HasRelations es c!"word/_rels/document.xml.rels" rs ∧ ¬ (rs.map Relation.id).Nodup :=
  link_example link_reads

end Docx.Props
