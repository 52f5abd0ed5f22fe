import Verif.Lemmas.LinksAgain
import Verif.Lemmas.Listed
import Verif.Props.C18_C22_Relations
import Verif.Props.C23_Numbering
import Verif.Props.C61_ReadFile

/-!
# C71: the external links of a file that is written and read
-/

namespace Docx.Props

open Docx.Spec Docx.Xml

/-- The addresses listed under an id. -/
def listedLinks (r : ReadFile) (id : Str) : List (Str × Str × Str) := r.hyperlinks.filter fun l => decide (l.1 = id)

/-- The links read are those written: their elements carry the same ids in the same order; under the id of a link the address given for it
is listed, once, as external (if links with the same id have the same address); and nothing else is listed. -/
structure LinksReadAs (d : DocxFile) (r : ReadFile) : Prop where
  ids : (bodyLinks r.file.document).map Prod.fst = (bodyLinks d.document).map Prod.fst
  address : ∀ n url rid path, (Hyperlink.new n url .external).link = .external rid path → (rid, path) ∈ bodyLinks d.document →
    (∀ y ∈ bodyLinks d.document, y.1 = rid → y.2 = path) → listedLinks r rid = [(rid, attrValue url, c!"External")]
  only : ∀ x ∈ r.hyperlinks, x.1 ∈ (bodyLinks d.document).map Prod.fst

theorem package_links (env : Env) (d : DocxFile) (w : World) : bodyLinks (d.preparePackage env w).1.document = bodyLinks d.document := by
  have hb : ∀ w i, linkAt w (bareItem i) = linkAt w i := by
    intro w i
    unfold linkAt
    cases i with
    | hyperlink h =>
      obtain ⟨l, a, cs⟩ := h
      cases l <;> rfl
    | _ => rfl
  rw [preparePackage_document, links_pick, ← walkDocument_bare hb, collectImages_bare, walkDocument_bare hb, ← links_pick, prepareForBuild_links]

theorem filter_rids {ts : List Target} (hn : (ts.map (·.rid)).Nodup) (id : Str) :
    (ts.filter fun t => decide (t.rid = id)).length ≤ 1 := by
  induction ts with
  | nil => simp
  | cons t ts ih =>
    rw [List.map_cons, List.nodup_cons] at hn
    rw [List.filter_cons]
    split
    · next h =>
      have h := of_decide_eq_true h
      have : (ts.filter fun t => decide (t.rid = id)) = [] := by
        rw [List.filter_eq_nil_iff]
        intro a ha e
        exact hn.1 (List.mem_map.2 ⟨a, ha, (of_decide_eq_true e).trans h.symm⟩)
      rw [this]
      simp
    · exact ih hn.2

theorem link_type : officeType c!"hyperlink" = hyperlinkType := by unfold hyperlinkType; decide +kernel

theorem link_place {folder : Str} {r : Relation} (h : r.type = hyperlinkType) : placeOf folder r = r.target := if_pos h

/-- What is listed for one id, when it is the id of one relationship. -/
theorem listed_one {m : ReadRels} {folder : Str} {rs : List Relation} (hf : Finds m folder rs) {r : ReadFile}
    (hl : r.hyperlinks = ((m.targets (officeType c!"hyperlink")).getD []).filterMap (fun t => t.mode.map fun mode => (t.rid, t.path, mode)))
    {id target mode : Str} (h : ⟨id, hyperlinkType, target, some mode⟩ ∈ rs) : listedLinks r id = [(id, target, mode)] := by
  have ht : (⟨id, target, some mode⟩ : Target) ∈ (m.targets (officeType c!"hyperlink")).getD [] := by
    rw [hf.mem_targets]
    exact ⟨_, h, link_type.symm, by rw [link_place rfl]⟩
  have hn := hf.ids_nodup (officeType c!"hyperlink")
  unfold listedLinks
  rw [hl]
  generalize (m.targets (officeType c!"hyperlink")).getD [] = ts at ht hn
  have key : (ts.filter fun t => decide (t.rid = id)) = [⟨id, target, some mode⟩] := by
    have h1 := filter_rids hn id
    have h2 : (⟨id, target, some mode⟩ : Target) ∈ ts.filter fun t => decide (t.rid = id) := List.mem_filter.2 ⟨ht, by simp⟩
    match hfl : ts.filter (fun t => decide (t.rid = id)) with
    | [] => rw [hfl] at h2; cases h2
    | [a] =>
      rw [hfl] at h2
      rw [List.mem_singleton.1 h2]
      exact hfl
    | a :: b :: l => rw [hfl] at h1; simp at h1
  rw [List.filter_filterMap]
  have : ∀ l : List Target, l.filterMap (fun x => Option.filter (fun l : Str × Str × Str => decide (l.1 = id)) (x.mode.map fun mode => (x.rid, x.path, mode))) =
      (l.filter fun t => decide (t.rid = id)).filterMap fun t => t.mode.map fun mode => (t.rid, t.path, mode) := by
    intro l
    induction l with
    | nil => rfl
    | cons t l ih =>
      rw [List.filterMap_cons, ih, List.filter_cons]
      by_cases hid : t.rid = id
      · cases hm : t.mode <;> simp [hid, hm, Option.filter]
      · cases hm : t.mode <;> simp [hid, Option.filter]
  rw [this, key]
  rfl

/-- Everything listed is a relationship of the type with a mode. -/
theorem listed_is {m : ReadRels} {folder : Str} {rs : List Relation} (hf : Finds m folder rs) {r : ReadFile}
    (hl : r.hyperlinks = ((m.targets (officeType c!"hyperlink")).getD []).filterMap (fun t => t.mode.map fun mode => (t.rid, t.path, mode)))
    {x : Str × Str × Str} (h : x ∈ r.hyperlinks) : ⟨x.1, hyperlinkType, x.2.1, some x.2.2⟩ ∈ rs := by
  rw [hl] at h
  obtain ⟨t, ht, e⟩ := List.mem_filterMap.1 h
  rw [hf.mem_targets] at ht
  obtain ⟨q, hq, hty, rfl⟩ := ht
  obtain ⟨id, ty, target, mode⟩ := q
  dsimp only at hty e
  cases mode with
  | none => cases e
  | some mode =>
    cases e
    have : ty = hyperlinkType := hty.trans link_type
    subst this
    rw [link_place rfl]
    exact hq

theorem seen_plainly {s : Str} (h : Plain s) : seen s = s := by simp [seen, h.decode]

/-- The links of a file that is read. -/
theorem file_links {e : FileEnv} {cs : List Call} {d : DocxFile} {env : Env} {w : World} {es : List Entry} (S : Sendable cs d env)
    (h : Packed env d w es) {r : ReadFile} (hr : (d.preparePackage env w).1.document.Readable)
    (hq : bodyLinks r.file.document = bodyLinks ((d.preparePackage env w).1.document.reread e.x))
    {m : ReadRels} {rs : List Relation} (h1 : HasRelations es c!"word/_rels/document.xml.rels" rs) (h2 : Finds m c!"word" rs)
    (hl : r.hyperlinks = ((m.targets (officeType c!"hyperlink")).getD []).filterMap (fun t => t.mode.map fun mode => (t.rid, t.path, mode))) :
    LinksReadAs d r := by
  obtain ⟨q, imgs, ls, k1, _, _, _, _, _, _, _, k9⟩ := packed_relations (calls_sound S.made) S.links S.dependencies.nameable h
  cases relations_unique h h1 k1
  refine ⟨?_, fun n url rid path hu hb hone => ?_, fun x hx => ?_⟩
  · rw [hq, document_links e.x _ hr, package_links, List.map_map]
    refine List.map_congr_left fun y hy => ?_
    obtain ⟨n, url, e⟩ := S.dependencies.links y hy
    have : (Hyperlink.new n url .external).link = .external (createHyperlinkRid n) (escapeOwned url) := rfl
    rw [this] at e
    injection e with e _
    show seen y.1 = y.1
    rw [← e]
    exact seen_plainly ((plain_lit (by decide)).append (plain_dec n))
  · obtain ⟨rs', a1, a2⟩ := C48_links_resolve_partial cs d env w es S.made S.links S.dependencies h n url hu hb hone
    cases relations_unique h k1 a1
    refine listed_one h2 hl (List.mem_filter (p := fun r => decide (r.id = rid)).1 ?_).1
    rw [a2]
    exact .head _
  · have := listed_is h2 hl hx
    rcases List.mem_append.1 this with this | this
    · exfalso
      rcases List.mem_append.1 this with this | this
      · rcases List.mem_append.1 this with this | this
        · have key : ∀ x ∈ everyFixed, x.mode = none := by decide
          cases key _ (fixed_every q this)
        · unfold DocumentRels.partRelations at this
          simp only [List.mem_append, List.mem_map] at this
          rcases this with (⟨_, _, e⟩ | ⟨_, _, e⟩) | ⟨_, _, e⟩ <;> cases congrArg Relation.mode e
      · obtain ⟨_, _, e⟩ := List.mem_map.1 this
        cases congrArg Relation.mode e
    · obtain ⟨y, hy, e⟩ := List.mem_map.1 this
      have : y.1 = x.1 := congrArg Relation.id e
      rw [← this]
      exact List.mem_map_of_mem (k9.mem y hy)

/-- **C71.** The links of the body of a file that is packed and read, where no comments are in the body. An address is read back without
carriage returns and with tabs and line ends as spaces (`attrValue`). -/
theorem C71_links (e : FileEnv) (cs : List Call) (d : DocxFile) (env : Env) (w : World) (es : List Entry)
    (S : Sendable cs d env) (h : Packed env d w es) (ht : ∀ c ∈ d.document.children, ∀ t, c ≠ .toc t) (hs : AllS d.document.strings)
    (hr : d.document.Readable) (hn : bodyComments d.document = []) (hx : ∀ l, .commentsExtended l ∉ cs) :
    ∃ k, ∀ n, k ≤ n → ∃ r, readDocx e n es = .ok r ∧ LinksReadAs d r := by
  obtain ⟨k, hk'⟩ := packed_file e S h ht hs hr (good := fun cs' _ => cs' = []) (no_records e S.made h hn hx)
  obtain ⟨_, rels, k2, p1, p2, p3, _⟩ := package_rels_found S.made h
  obtain ⟨m, k3, m1, _, _, _, hf, _, _, _, _, hrels, _⟩ := document_rels_found S.made S.links S.dependencies h
  refine ⟨k + k2 + k3, fun n hn' => ?_⟩
  obtain ⟨cs', rs', q, r, rfl, h1, h2, h3, h4, h5, h6, h7, h8, h9, h10, _, _, rfl, hr', _⟩ := hk' n (by omega)
  refine ⟨r, h1, ?_⟩
  obtain ⟨s, rels', m', a1, a2, a3, a4, _⟩ := docx_listed h1
  rw [p1] at a1
  cases a1
  rw [p2 n (by omega)] at a2
  cases a2
  rw [p3, m1 n (by omega)] at a3
  cases a3
  exact file_links S h hr' (children_links _ _ h3) hrels hf a4

/-- **C71, with comments.** The same of a file whose body has comments that are kept. -/
theorem C71_links_comments (e : FileEnv) (cs : List Call) (d : DocxFile) (env : Env) (w : World) (es : List Entry) (items : List CommentItem)
    (S : Sendable cs d env) (h : Packed env d w es) (ht : ∀ c ∈ d.document.children, ∀ t, c ≠ .toc t) (hs : AllS d.document.strings)
    (hr : d.document.Readable) (hc : Copied d) (hb : bodyComments d.document = items.map commentOf) (hk : ∀ c ∈ items, c.Kept)
    (hne : ∃ c ∈ items, c.paragraphs ≠ []) :
    ∃ k, ∀ n, k ≤ n → ∃ r, readDocx e n es = .ok r ∧ LinksReadAs d r := by
  have hsome : ∃ c ∈ bodyComments d.document, directParagraphs c ≠ [] := by
    obtain ⟨c, hc, hne⟩ := hne
    refine ⟨commentOf c, by rw [hb]; exact List.mem_map_of_mem hc, fun h0 => hne ?_⟩
    have := commentOf_ids c
    rw [directParagraphs_ids, h0] at this
    exact List.length_eq_zero_iff.1 this.symm
  obtain ⟨co, rec, e1, e2, k, hk'⟩ := C57_package e.x d env w es items hc S.ids h hb hk hne
  obtain ⟨k', hk2⟩ := packed_file e S h ht hs hr
    (good := fun _ _ => True)
    ⟨co, rec, e1, e2, k, fun n hn => by
      obtain ⟨cs', rs', a1, a2, a3⟩ := hk' n hn
      exact ⟨cs', rs', fun _ => a1, fun h => absurd hsome h, a2, trivial⟩⟩
  obtain ⟨_, rels, k2, p1, p2, p3, _⟩ := package_rels_found S.made h
  obtain ⟨m, k3, m1, _, _, _, hf, _, _, _, _, hrels, _⟩ := document_rels_found S.made S.links S.dependencies h
  refine ⟨k' + k2 + k3, fun n hn' => ?_⟩
  obtain ⟨cs', rs', q, r, hg, h1, h2, h3, h4, h5, h6, h7, h8, h9, h10, _, _, rfl, hr', _⟩ := hk2 n (by omega)
  refine ⟨r, h1, ?_⟩
  obtain ⟨s, rels', m', a1, a2, a3, a4, _⟩ := docx_listed h1
  rw [p1] at a1
  cases a1
  rw [p2 n (by omega)] at a2
  cases a2
  rw [p3, m1 n (by omega)] at a3
  cases a3
  refine file_links (e := e) S h hr' ?_ hrels hf a4
  split at h3
  · exact children_links _ _ h3
  · exact stored_links _ _ _ h3

/-- A paragraph with two links, one with an address that is escaped. -/
def linkedCalls : List Call :=
  [ .addParagraph { id := c!"x", children := [
      .hyperlink { (Hyperlink.new 4 c!"http://e/?a&b" .external) with children := [.run { children := [aText c!"x"] }] },
      .hyperlink { (Hyperlink.new 5 c!"http://f" .external) with children := [.run { children := [aText c!"y"] }] } ] } ]

theorem linked_pack : packs (fun d _ => copiedB d && decide (∀ i ∈ bodyIds (walkStory ⟨d.document, d.comments, d.footnotes⟩), ∀ c ∈ i,
      c ≠ '&' ∧ c ≠ '<' ∧ c ≠ '"' ∧ c ≠ '\r' ∧ c ≠ '\t' ∧ c ≠ '\n') &&
    decide (d.settings.defaultTabStop = 840 ∧ d.settings.docId = none ∧ d.settings.docVars = [] ∧
      partPictures (walkDocument d.document) = [] ∧
      bodyLinks d.document = [(createHyperlinkRid 4, escapeOwned c!"http://e/?a&b"), (createHyperlinkRid 5, escapeOwned c!"http://f")]) &&
    (bodyComments d.document).isEmpty) linkedCalls = true := by decide +kernel

theorem linked_parts : (DocxFile.new.calls linkedCalls).map (fun d => (d.document.children,
    Side.ofDocument .header d.document, Side.ofDocument .footer d.document, d.document.sectionProperty.base, d.styles, d.numberings)) =
    some ([.paragraph { id := c!"x", children := [
      .hyperlink { (Hyperlink.new 4 c!"http://e/?a&b" .external) with children := [.run { children := [aText c!"x"] }] },
      .hyperlink { (Hyperlink.new 5 c!"http://f" .external) with children := [.run { children := [aText c!"y"] }] } ] }],
      [], [], {}, {}, {}) := by rfl

/-- A packed file with two links meets the hypotheses of `C71_links`; the first is listed with the address given for it. -/
example : ∃ d es, Sendable linkedCalls d anEnv ∧ Packed anEnv d {} es ∧ (∀ c ∈ d.document.children, ∀ t, c ≠ .toc t) ∧
    AllS d.document.strings ∧ d.document.Readable ∧ bodyComments d.document = [] ∧ (∀ l, Call.commentsExtended l ∉ linkedCalls) ∧
    ∀ e, ∃ k, ∀ n, k ≤ n → ∃ r, readDocx e n es = .ok r ∧
      (bodyLinks r.file.document).map Prod.fst = [createHyperlinkRid 4, createHyperlinkRid 5] ∧
      listedLinks r (createHyperlinkRid 4) = [(createHyperlinkRid 4, c!"http://e/?a&b", c!"External")] := by
  obtain ⟨d, es, h1, h2, h3⟩ := packs_spec linked_pack
  rw [Bool.and_eq_true, Bool.and_eq_true, Bool.and_eq_true, decide_eq_true_eq, decide_eq_true_eq] at h3
  obtain ⟨⟨⟨cp, i1⟩, s1, s2, s3, p1, p2⟩, n1⟩ := h3
  have h4 := linked_parts
  rw [h1] at h4
  simp only [Option.map_some, Option.some.injEq, Prod.mk.injEq] at h4
  obtain ⟨a, b, c, f, st, nu⟩ := h4
  have hmade : ∀ p ∈ partPictures (walkDocument d.document), ∃ n, p.id = createPicRid n := by
    rw [p1]
    exact fun _ h => (by cases h)
  have hpage : AllS d.document.sectionProperty.base.strings ∧ SectionBase.Placed d.document.sectionProperty.base := by
    rw [f]
    refine ⟨fun s hs => ?_, by simp [SectionBase.Placed]⟩
    simp [-String.reduceToList, SectionBase.strings, optStrings] at hs
    subst hs
    exact stored_of_plain (plain_lit (by decide))
  have S : Sendable linkedCalls d anEnv := {
      made := h1
      links := fun l => .refl _
      props := fun l => .refl _
      dependencies := ⟨hmade, by
        rw [p2]
        intro y hy
        rcases List.mem_cons.1 hy with rfl | hy
        · exact ⟨4, c!"http://e/?a&b", rfl⟩
        · rw [List.mem_singleton.1 hy]; exact ⟨5, c!"http://f", rfl⟩⟩
      pictures := ⟨hmade, fun side h hh => by
        cases side
        · rw [b] at hh; cases hh
        · rw [c] at hh; cases hh⟩
      plainly := ⟨fun x hx => by simp [linkedCalls] at hx, fun s hs => by simp [linkedCalls] at hs⟩
      order := by intro side; cases side <;> (unfold InOrder; decide)
      ids := i1
      parts := by
        intro side h hh
        cases side
        · rw [b] at hh; cases hh
        · rw [c] at hh; cases hh
      custom := fun name value hm => by simp [linkedCalls] at hm
      styles := by
        rw [st]
        exact ⟨by constructor <;> simp, paragraphProperty_default_kept, fun _ h => (by cases h)⟩
      numberings := by
        rw [nu]
        exact ⟨fun _ h => (by cases h), fun _ h => (by cases h)⟩
      settings := by
        refine ⟨by rw [s1]; omega, fun i hi => ?_, fun v hv => ?_⟩
        · rw [s2] at hi; cases hi
        · rw [s3] at hv; cases hv
      page := hpage }
  have ht : ∀ c ∈ d.document.children, ∀ t, c ≠ .toc t := by
    rw [a]
    intro c hc t e
    rw [List.mem_singleton.1 hc] at e
    cases e
  have hr : d.document.Readable := by
    refine ⟨?_, fun s hs => (hpage.1 s hs).2.1, hpage.2⟩
    rw [a]
    intro c hc
    rw [List.mem_singleton.1 hc]
    have hq : KeptItem (.paragraph c!"x" {} []) := by
      rw [KeptItem]
      exact ⟨plain_lit (by decide), kept_default, fun p hp => by cases hp⟩
    have hr := (fineParagraph hq).read
    refine ⟨hr.1, hr.2.1, fun c hc => ?_⟩
    simp only [List.mem_cons, List.not_mem_nil, or_false] at hc
    rcases hc with rfl | rfl
    all_goals
      refine ⟨?_, ?_, fun c hc => ?_⟩
      · show (decodeAttr _).isSome
        decide +kernel
      · show Fits 1
        unfold Fits
        omega
      · rw [List.mem_singleton.1 hc]
        refine ⟨by simp [RunProperty.Readable, RunProperty.strings, optStrings, optS], fun c hc => ?_⟩
        rw [List.mem_singleton.1 hc]
        show (decodeText _).isSome
        decide +kernel
  have hx : ∀ l, Call.commentsExtended l ∉ linkedCalls := by
    intro l hl
    simp [linkedCalls] at hl
  refine ⟨d, es, S, h2, ht, (copiedB_spec cp).body, hr, List.isEmpty_iff.1 n1, hx, fun e => ?_⟩
  obtain ⟨k, hk⟩ := C71_links e linkedCalls d anEnv {} es S h2 ht (copiedB_spec cp).body hr (List.isEmpty_iff.1 n1) hx
  refine ⟨k, fun n hn => ?_⟩
  obtain ⟨r, hr', L⟩ := hk n hn
  refine ⟨r, hr', by rw [L.ids, p2]; rfl, ?_⟩
  have hat : attrValue c!"http://e/?a&b" = c!"http://e/?a&b" := by decide +kernel
  have := L.address 4 c!"http://e/?a&b" (createHyperlinkRid 4) _ rfl (by rw [p2]; exact .head _) (by
    rw [p2]
    intro y hy e
    rcases List.mem_cons.1 hy with rfl | hy
    · rfl
    · rw [List.mem_singleton.1 hy] at e
      exact absurd e (by decide))
  rwa [hat] at this

/-- **C71, any archive.** Whatever archive is read: what is listed as links are the relationships of the document part with the type and a
mode, in order; the themes are those of its theme parts that can be read, in order; the web settings are those of the first relationship of
the type. Nothing is listed from other parts. -/
theorem C71_listed (e : FileEnv) (n : Nat) (es : List Entry) (r : ReadFile) (h : readDocx e n es = .ok r) :
    ∃ s rels m, readText es c!"_rels/.rels" = some s ∧ (readPackageRels n s).got = .ok rels ∧ readPartRels n es (documentPath rels) = .ok m ∧
    r.hyperlinks = ((m.targets (officeType c!"hyperlink")).getD []).filterMap (fun t => t.mode.map fun mode => (t.rid, t.path, mode)) ∧
    r.themes = ((m.targets (officeType c!"theme")).getD []).filterMap (fun t => themeAt n es t.path) ∧ WebAt e.x n es m r.webSettings :=
  docx_listed h

end Docx.Props
