import Verif.Props.C81_JsParts
import Verif.Props.C42_PartRels

/-!
# C77, C79 and C80 for whole programs: content of documents that also have headers, footers and a set-up
-/

namespace Docx.Props

open Docx Docx.Xml Docx.Spec

variable (lib : ImageLib)

/-! ## What is proved of files made by calls holds for sound ones -/

theorem sound_links {d : DocxFile} {env : Env} {w : World} {es : List Entry} {rid path : Str}
    (hd : Sound d) (hp : ∀ l, (env.links l).Perm l) (hm : Made d.document) (h : Packed env d w es)
    (n : Nat) (url : Str) (hl : (Hyperlink.new n url .external).link = .external rid path) (hb : (rid, path) ∈ bodyLinks d.document)
    (hu : ∀ y ∈ bodyLinks d.document, y.1 = rid → y.2 = path) :
    ∃ rs, HasRelations es c!"word/_rels/document.xml.rels" rs ∧
      rs.filter (fun r => decide (r.id = rid)) = [⟨rid, hyperlinkType, attrValue url, some c!"External"⟩] := by
  simp only [Hyperlink.new, HyperlinkData.external.injEq] at hl
  obtain ⟨rfl, rfl⟩ := hl
  obtain ⟨r, imgs, ls, h1, h2, _, _, _, h6, h7, h8, h9⟩ := packed_relations hd hp hm.nameable h
  refine ⟨_, h1, ?_⟩
  obtain ⟨y, hy, e⟩ := List.mem_map.1 (h9.keys _ hb)
  have e2 := hu y (h9.mem y hy) e
  have hmem : linkRelation (createHyperlinkRid n, escapeOwned url) ∈ ls.map linkRelation :=
    List.mem_map_of_mem (f := linkRelation) ((Prod.ext e e2 : y = (createHyperlinkRid n, escapeOwned url)) ▸ hy)
  have heq : linkRelation (createHyperlinkRid n, escapeOwned url) =
      ⟨createHyperlinkRid n, hyperlinkType, attrValue url, some c!"External"⟩ := by
    unfold linkRelation hyperlinkType
    rw [escapeOwned_attr]
    rfl
  rw [heq] at hmem
  rw [List.filter_append]
  have hfix : ((r.fixedRelations ++ r.partRelations ++ imgs.map imageRelation).filter
      fun x => decide (x.id = createHyperlinkRid n)) = [] := by
    rw [List.filter_eq_nil_iff]
    intro x hx hid
    have hid := of_decide_eq_true hid
    have hk := idKey_link n
    rw [← hid] at hk
    rcases List.mem_append.1 hx with hx | hx
    · rcases List.mem_append.1 hx with hx | hx
      · have : x.id ∈ r.fixedRelations.map Relation.id := List.mem_map_of_mem hx
        rw [fixed_ids] at this
        obtain ⟨m, _, e⟩ := List.mem_map.1 this
        obtain ⟨c, t, e1, e2, _⟩ := idKey_dec m
        rw [e, hk] at e1
        injection e1 with e1 _
        exact e2 e1.symm
      · unfold DocumentRels.partRelations at hx
        rcases List.mem_append.1 hx with hx | hx
        · rcases List.mem_append.1 hx with hx | hx
          · obtain ⟨i, _, rfl⟩ := List.mem_map.1 hx
            exact absurd (hk.symm.trans (idKey_header _)) (by decide)
          · obtain ⟨i, _, rfl⟩ := List.mem_map.1 hx
            exact absurd (hk.symm.trans (idKey_footer _)) (by decide)
        · obtain ⟨i, _, rfl⟩ := List.mem_map.1 hx
          obtain ⟨c, t, e1, e2, _⟩ := idKey_dec (i + 1 + 7)
          have hk' : idKey (c!"rId" ++ dec (i + 1 + 7)) = c!"Hy" := hk
          rw [hk'] at e1
          injection e1 with e1 _
          exact e2 e1.symm
    · obtain ⟨y, hy, rfl⟩ := List.mem_map.1 hx
      exact absurd (hk.symm.trans (idKey_pic (h8 y hy).1)) (by decide)
  rw [hfix, List.nil_append]
  have hnd : ((ls.map linkRelation).map Relation.id).Nodup := by
    rw [List.map_map]
    exact h9.nodup
  clear hfix h1
  generalize ls.map linkRelation = l at hmem hnd
  induction l with
  | nil => cases hmem
  | cons x l ih =>
    rw [List.map_cons, List.nodup_cons] at hnd
    rw [List.filter_cons]
    rcases List.mem_cons.1 hmem with hx | hx
    · subst hx
      rw [if_pos (decide_eq_true rfl)]
      congr 1
      rw [List.filter_eq_nil_iff]
      intro z hz hid
      have hid := of_decide_eq_true hid
      exact hnd.1 (by rw [show (⟨createHyperlinkRid n, hyperlinkType, attrValue url, some c!"External"⟩ : Relation).id = z.id from hid.symm]; exact List.mem_map_of_mem hz)
    · have hne : x.id ≠ createHyperlinkRid n := fun hid => hnd.1 (by
        rw [hid]; exact List.mem_map_of_mem (f := Relation.id) hx)
      rw [if_neg (by simpa using hne)]
      exact ih hx hnd.2

theorem sound_pictures {d : DocxFile} {env : Env} {w : World} {es : List Entry}
    (hd : Sound d) (hp : ∀ l, (env.links l).Perm l) (hm : Made d.document) (h : Packed env d w es) :
    ∃ rs, HasRelations es c!"word/_rels/document.xml.rels" rs ∧
      List.Forall₂ (fun p q => SamePicture p q ∧ Plain q.id ∧ ∃ name, rs.filter (fun r => decide (r.id = q.id)) = [⟨q.id, imageType, mediaTarget name, none⟩] ∧
        ⟨c!"word/" ++ mediaTarget name, .bytes p.image⟩ ∈ es) (partPictures (walkDocument d.document))
        (partPictures (walkDocument (d.preparePackage env w).1.document)) := by
  obtain ⟨r, ls, h1, _, _, _, _, _, h7, h8, h9⟩ := packed_relations_of hd hp hm.nameable h
  have hf := packed_fits h
  have hpics := prepareForBuild_pictures env d w
  have hdoc := preparePackage_document env d w
  have himg := preparePackage_images env d w
  obtain ⟨_, _, _, hok, _⟩ := collectImages_spec env.crc (d.prepareForBuild env w).1.document
  generalize (d.prepareForBuild env w).1.document = x0 at *
  generalize collectImages env.crc x0 = i at *
  generalize d.preparePackage env w = q at hf hdoc himg
  refine ⟨_, h1, ?_⟩
  rw [← hpics, partPictures_eq, partPictures_eq, hdoc]
  refine (matches_pictures hok.items).imp fun p q' hpq => ⟨hpq.1, ?_⟩
  obtain ⟨name, e1, e2⟩ := hpq.2
  refine ⟨(h8 _ e1).1.plain, name, ?_, fits_store hf (step_media env q.1 q.2.1 (name, p.image) (by rw [himg]; exact e2))⟩
  have := relations_image (r := r) (ls := ls) h7 (fun x hx => (h8 x hx).1) (fun x hx => by
    obtain ⟨n, url, e⟩ := hm.links x (h9.mem x hx)
    simp only [Hyperlink.new, HyperlinkData.external.injEq] at e
    exact ⟨n, e.1.symm⟩) e1
  rw [← officeImage]
  exact this

/-! ## The body of a program -/

/-- What a call adds to the body. -/
def addsToBody : JsFileCall → Option JsChild
  | .add c => some c
  | _ => none

/-- The body as the calls add it. -/
def programBody (cs : List JsFileCall) : JsDocx := { children := cs.filterMap addsToBody }

theorem adds_children : ∀ (cs : List JsChild) (d : JsDocx), (cs.foldl JsDocx.add d).children = d.children ++ cs
  | [], d => (List.append_nil _).symm
  | c :: cs, d => by
    rw [List.foldl_cons, adds_children cs]
    simp [JsDocx.add]

theorem program_docx (cs : List JsFileCall) : (jsFileOf cs).docx = (cs.filterMap addsToBody).foldl JsDocx.add {} := by
  rw [jsFileOf, calls_docx]
  congr 1

theorem program_children (cs : List JsFileCall) : (jsFileOf cs).docx.children = cs.filterMap addsToBody := by
  rw [program_docx, adds_children]
  rfl

theorem program_tocs (cs : List JsFileCall) : jsTocs (jsFileOf cs).docx = jsTocs (programBody cs) := by
  rw [jsTocs, jsTocs, program_children]
  rfl

theorem program_links (cs : List JsFileCall) : jsLinks (jsFileOf cs).docx = jsLinks (programBody cs) := by
  rw [jsLinks, jsLinks, program_children]
  rfl

theorem file_pick {α : Type} {k : List Place → Item → List α} (hk : ∀ q, q = .header ∨ q = .footer → Dead k (q :: [Place.document]))
    {f : JsFile} {n m : Ids} {d : DocxFile} (hb : f.build lib n = some (d, m)) :
    pick k (walkDocument d.document) = pick k (walkDocument (f.docx.build lib n).1.document) := by
  have hc : d.document.children = (f.docx.build lib n).1.document.children := by rw [(file_built lib hb).children, js_document]
  rw [walkDocument, walkDocument, pick_append, pick_append, walkSectionProperty_dead _ _ (hk _ (.inl rfl)) (hk _ (.inr rfl)),
    walkSectionProperty_dead _ _ (hk _ (.inl rfl)) (hk _ (.inr rfl)), hc]

theorem program_items {f : JsFile} {n m : Ids} {d : DocxFile} (hb : f.build lib n = some (d, m)) :
    (bodyItems d.document).flatMap Item.shown = JsDocx.content lib f.docx := by
  rw [← C77_content lib f.docx n, bodyItems, bodyItems, within_shown, within_shown]
  refine file_pick lib (fun q hq a i => ?_) hb
  have : inPart (a ++ q :: [Place.document]) = false := by
    rcases hq with rfl | rfl <;> simp [inPart]
  simp only [shownAt, this, Bool.false_eq_true, if_false]

theorem program_bodyLinks {f : JsFile} {n m : Ids} {d : DocxFile} (hb : f.build lib n = some (d, m)) :
    bodyLinks d.document = bodyLinks (f.docx.build lib n).1.document := by
  rw [links_pick, links_pick]
  exact file_pick lib (fun q hq => by rcases hq with rfl | rfl; exacts [deadLink_inHeader _, deadLink_inFooter _]) hb

/-- **C77.** Whatever methods are called on a document, in whatever order: its body is what was added to it, once and in order. -/
theorem C77_program (cs : List JsFileCall) (n m : Ids) (d : DocxFile) (hb : (jsFileOf cs).build lib n = some (d, m)) :
    (bodyItems d.document).flatMap Item.shown = (cs.filterMap addsToBody).flatMap (JsChild.content lib) := by
  rw [program_items lib hb, JsDocx.content, program_children]

/-- **C77.** And the texts are in `word/document.xml`, in order. -/
theorem C77_program_written (cs : List JsFileCall) (n m : Ids) (d : DocxFile) (env : Env) (w : World) (es : List Entry)
    (hb : (jsFileOf cs).build lib n = some (d, m)) (hs : Copied d) (h : Packed env d w es) :
    ∃ body, ⟨c!"word/document.xml", .text body⟩ ∈ es ∧
      (shownTexts ((cs.filterMap addsToBody).flatMap (JsChild.content lib))).Sublist (eventTexts wT (readEvents body)) ∧
      eventTexts wDelText (readEvents body) = shownDeleted ((cs.filterMap addsToBody).flatMap (JsChild.content lib)) := by
  obtain ⟨body, h1, h2, h3⟩ := C07_package _ env w es hs h
  rw [shown_texts, C77_program lib cs n m d hb] at h2
  rw [shown_deleted, C77_program lib cs n m d hb] at h3
  exact ⟨body, h1, h2, h3⟩

theorem program_comments (cs : List JsFileCall) : jsComments lib (jsFileOf cs).docx = jsComments lib (programBody cs) := by
  rw [jsComments, jsComments, program_children]
  rfl

/-- **C77.** Every comment in the body arrives, as in `C77_comments_partial`, and with what is missing there. -/
theorem C77_program_comments_partial (cs : List JsFileCall) (n m : Ids) (d : DocxFile) (hb : (jsFileOf cs).build lib n = some (d, m))
    (h : ∀ g ∈ jsComments lib (programBody cs), g.author ≠ some [] ∧ g.date ≠ some [] ∧ g.parent ≠ some 0) :
    (commentsIn (d.document.children.flatMap (walkDocumentChild [.document]))).map commentSeen
      = (jsComments lib (programBody cs)).map GivenComment.expected := by
  rw [← program_comments] at h ⊢
  rw [← C77_comments_partial lib (jsFileOf cs).docx n h, (file_built lib hb).children, walkDocument, js_document, js_sectionProperty]
  have e : walkSectionProperty [.document] DocxFile.new.document.sectionProperty = [] := rfl
  rw [e, List.append_nil]

/-- **C79.** The pictures a program put into the body are in the main part, in order, and each leads to its bytes. -/
theorem C79_program_pictures (cs : List JsFileCall) (n m : Ids) (d : DocxFile) (env : Env) (w : World) (es : List Entry)
    (hb : (jsFileOf cs).build lib n = some (d, m)) (ht : ∀ t ∈ jsTocs (programBody cs), TocMade t) (he : ∀ l, (env.links l).Perm l)
    (h : Packed env d w es) :
    ∃ x s g g' rs, ⟨c!"word/document.xml", .text s⟩ ∈ es ∧ Document.write x g = some (.ok s, g') ∧
      HasRelations es c!"word/_rels/document.xml.rels" rs ∧
      List.Forall₂ (fun bytes q => ∃ target, rs.filter (fun r => decide (r.id = q.id)) = [⟨q.id, imageType, target, none⟩] ∧
        ⟨c!"word/" ++ target, .bytes bytes⟩ ∈ es) (shownPictures ((cs.filterMap addsToBody).flatMap (JsChild.content lib)))
        (partPictures (walkDocument x)) := by
  have k := file_built lib hb
  obtain ⟨rs, h1, h2⟩ := sound_pictures k.sound he (file_made lib k (by rwa [program_tocs])) h
  obtain ⟨s, g, g', w1, w2⟩ := fits_write (packed_fits h) (step_document env _ _)
  refine ⟨_, s, g, g', rs, w2, w1, h1, ?_⟩
  rw [← C77_program lib cs n m d hb, ← shown_pictures, List.forall₂_map_left_iff]
  exact h2.imp fun _ _ hp => ⟨_, hp.2.2.choose_spec⟩

/-- **C79.** The external links in the body lead to the addresses given, in order, and have different ids. -/
theorem C79_program_links (cs : List JsFileCall) (n m : Ids) (d : DocxFile) (env : Env) (w : World) (es : List Entry)
    (hb : (jsFileOf cs).build lib n = some (d, m)) (ht : ∀ t ∈ jsTocs (programBody cs), TocBare t) (hn : n.hyperlink < usizeCount)
    (hl : (linkIds d.document).length ≤ usizeCount) (he : ∀ l, (env.links l).Perm l) (h : Packed env d w es) :
    ((bodyLinks d.document).map Prod.fst).Nodup ∧
    List.Forall₂ (fun l url => ∃ rs, HasRelations es c!"word/_rels/document.xml.rels" rs ∧
        rs.filter (fun r => decide (r.id = l.1)) = [⟨l.1, hyperlinkType, attrValue url, some c!"External"⟩])
      (bodyLinks d.document) (jsLinks (programBody cs)) := by
  have k := file_built lib hb
  rw [← program_tocs] at ht
  have hm := file_made lib k fun t hx => bare_made (ht t hx)
  have hc : d.document.children = ((jsFileOf cs).docx.build lib n).1.document.children := by rw [k.children, js_document]
  have hl' : (linkIds ((jsFileOf cs).docx.build lib n).1.document).length ≤ usizeCount := by
    refine Nat.le_trans ?_ hl
    have e : walkSectionProperty [.document] ((jsFileOf cs).docx.build lib n).1.document.sectionProperty = [] := by
      rw [js_document, js_sectionProperty]
      rfl
    rw [linkIds, linkIds, walkDocument, walkDocument, e, hc, List.append_nil, List.map_append, List.filterMap_append, List.length_append]
    exact Nat.le_add_right _ _
  have hnd : ((bodyLinks d.document).map Prod.fst).Nodup := by
    rw [program_bodyLinks lib hb]
    refine (bodyLinks_sublist _).nodup ?_
    rw [← flat_linkIds] at *
    exact js_nodup lib .link _ n ht hn hl'
  refine ⟨hnd, ?_⟩
  have hv := js_leads lib (jsFileOf cs).docx n ht
  rw [← program_bodyLinks lib hb, program_links] at hv
  have all : ∀ l ∈ bodyLinks d.document, ∀ url, l.2 = escapeOwned url →
      ∃ rs, HasRelations es c!"word/_rels/document.xml.rels" rs ∧
        rs.filter (fun r => decide (r.id = l.1)) = [⟨l.1, hyperlinkType, attrValue url, some c!"External"⟩] := by
    rintro ⟨rid, path⟩ hx url rfl
    obtain ⟨j, u, e⟩ := hm.2 _ hx
    have e' : (Hyperlink.new j url .external).link = .external rid (escapeOwned url) := by
      simp only [Hyperlink.new, HyperlinkData.external.injEq] at e ⊢
      exact ⟨e.1, trivial⟩
    refine sound_links k.sound he hm h j url e' hx fun y hy ey => ?_
    have := List.inj_on_of_nodup_map hnd hy hx ey
    rw [this]
  have hf : List.Forall₂ (fun (l : Str × Str) url => l.2 = escapeOwned url) (bodyLinks d.document) (jsLinks (programBody cs)) := by
    have : List.Forall₂ (· = ·) ((bodyLinks d.document).map Prod.snd) ((jsLinks (programBody cs)).map escapeOwned) := by
      rw [hv, List.forall₂_eq_eq_eq]
    rwa [List.forall₂_map_left_iff, List.forall₂_map_right_iff] at this
  exact List.forall₂_iff_zip.2 ⟨hf.length_eq, fun hx => all _ (List.of_mem_zip hx).1 _ ((List.forall₂_iff_zip.1 hf).2 hx)⟩

/-- **C80.** The numbering part is related exactly if a paragraph in the body was numbered when it was added. Missing as in
`C80_related_partial`; paragraphs of headers and footers do not count (`C80_fails_header`). -/
theorem C80_program_partial (cs : List JsFileCall) (n m : Ids) (d : DocxFile) (env : Env) (w : World) (es : List Entry)
    (hb : (jsFileOf cs).build lib n = some (d, m)) (hp : ∀ p, .add (.paragraph p) ∈ cs → MadeJsParagraph p)
    (htb : ∀ t, .add (.table t) ∈ cs → MadeJsTable t) (ht : ∀ t ∈ jsTocs (programBody cs), TocMade t) (he : ∀ l, (env.links l).Perm l)
    (h : Packed env d w es) : NumberingRelated es ↔ jsNumbered (programBody cs) = true := by
  have hd : MadeJsDocx (jsFileOf cs).docx := by
    rw [program_docx]
    have key : ∀ (l : List JsChild) (x : JsDocx), (∀ c ∈ l, JsFileCall.add c ∈ cs) → MadeJsDocx x → MadeJsDocx (l.foldl JsDocx.add x) := by
      intro l
      induction l with
      | nil => exact fun _ _ hx => hx
      | cons c l ih =>
        intro x hl hx
        have hc := hl c (List.mem_cons_self ..)
        refine ih _ (fun y hy => hl y (List.mem_cons_of_mem _ hy)) ?_
        cases c with
        | paragraph p => exact .addParagraph _ _ hx (hp _ hc)
        | table t => exact .addTable _ _ hx (htb _ hc)
        | bookmarkStart i s => exact .addBookmarkStart _ _ _ hx
        | bookmarkEnd i => exact .addBookmarkEnd _ _ hx
        | toc t => exact .addToc _ _ hx
    refine key _ _ (fun c hc => ?_) .new
    obtain ⟨y, hy, e⟩ := List.mem_filterMap.1 hc
    cases y <;> cases e
    exact hy
  rw [file_related lib hb (by rwa [program_tocs]) he h, madeJs_docx hd, jsNumbered, program_children]
  rfl

/-! ## Example -/

/-- A link, a picture and a numbered paragraph, a header with a text of its own, and set-up in between. -/
def jsProgram : List JsFileCall :=
  [.defaultTabStop 100, .add (.paragraph (({} : JsParagraph).add (.hyperlink c!"http://x?a&b" .external [.run { children := [.text c!"one", .image { data := [1] }] }]))),
   
    .header (jsTitle c!"front"), .add (.paragraph (({} : JsParagraph).call (.numbering 2 0))), .pageSize 100 200]

example : ∃ d m es, (jsFileOf jsProgram).build sampleLib ⟨1, 1, 1⟩ = some (d, m) ∧ Packed anEnv d {} es ∧ Copied d ∧
    (∀ t ∈ jsTocs (programBody jsProgram), TocBare t ∧ TocMade t) ∧ (linkIds d.document).length ≤ usizeCount ∧
    jsLinks (programBody jsProgram) = [c!"http://x?a&b"] ∧ jsNumbered (programBody jsProgram) = true ∧
    (∀ p, .add (.paragraph p) ∈ jsProgram → MadeJsParagraph p) ∧ (∀ t, .add (.table t) ∈ jsProgram → MadeJsTable t) ∧
    shownTexts ((jsProgram.filterMap addsToBody).flatMap (JsChild.content sampleLib)) = [c!"one"] ∧
    shownPictures ((jsProgram.filterMap addsToBody).flatMap (JsChild.content sampleLib)) = [[1, 9]] := by
  obtain ⟨x, h, hx⟩ := of_ready (p := fun x : DocxFile × Ids => (writableB x.1 && decide (x.1.customItems.length = 0)) &&
      (copiedB x.1 && decide ((linkIds x.1.document).length = 1)))
    (o := (jsFileOf jsProgram).build sampleLib ⟨1, 1, 1⟩) (by decide +kernel)
  rw [Bool.and_eq_true, Bool.and_eq_true (copiedB x.1), decide_eq_true_eq] at hx
  obtain ⟨es, hp⟩ := packs_plainly hx.1
  refine ⟨x.1, x.2, es, h, hp, copiedB_spec hx.2.1, (fun t ht => by cases ht), by rw [hx.2.2]; decide, by decide +kernel, by decide +kernel,
    ?_, ?_, by decide +kernel, by decide +kernel⟩
  · intro p hp
    simp only [jsProgram, List.mem_cons, List.not_mem_nil, reduceCtorEq, JsFileCall.add.injEq, JsChild.paragraph.injEq, false_or, or_false] at hp
    rcases hp with rfl | rfl
    · exact .add _ _ .new
    · exact .call _ _ .new
  · intro t ht
    simp [jsProgram] at ht

def jsRemarked : List JsFileCall :=
  [.header (jsTitle c!"front"), .add (.paragraph { children := [.comment { id := 1, author := some c!"ann", children := [{ children := [.run { children := [.text c!"why?"] }] }] }] }),
    .titlePg]

example : (∃ d m, (jsFileOf jsRemarked).build sampleLib ⟨1, 1, 1⟩ = some (d, m)) ∧ (jsComments sampleLib (programBody jsRemarked)).length = 1 ∧
    ∀ g ∈ jsComments sampleLib (programBody jsRemarked), g.author ≠ some [] ∧ g.date ≠ some [] ∧ g.parent ≠ some 0 := by
  obtain ⟨x, h, _⟩ := of_ready (p := fun _ : DocxFile × Ids => true) (o := (jsFileOf jsRemarked).build sampleLib ⟨1, 1, 1⟩) (by decide +kernel)
  refine ⟨⟨x.1, x.2, h⟩, by decide +kernel, ?_⟩
  decide +kernel

end Docx.Props
