import Verif.Spec.AllCopied
import Verif.Lemmas.WrittenTidy
import Verif.Props.C54_Numbering
import Verif.Props.C55_Styles

/-!
# The trees of a written package are acceptable
-/

namespace Docx

open Docx.Spec Docx.Xml

theorem taskpanes_plain {cs : List Call} {d : DocxFile} (h : DocxFile.new.calls cs = some d) :
    ∀ x ∈ d.taskpanesRels, Plain x.1 ∧ Plain x.2.1 ∧ Plain x.2.2 := by
  refine calls_inv (P := fun d => ∀ x ∈ d.taskpanesRels, Plain x.1 ∧ Plain x.2.1 ∧ Plain x.2.2) ?_ cs _ _ (fun _ h => (by cases h)) h
  intro d c d' hd e
  have same : d'.taskpanesRels = d.taskpanesRels → ∀ x ∈ d'.taskpanesRels, Plain x.1 ∧ Plain x.2.1 ∧ Plain x.2.2 := fun h => h ▸ hd
  cases c with
  | webExtension w =>
    simp only [DocxFile.call, Option.some.injEq] at e
    subst e
    intro x hx
    rcases List.mem_append.1 hx with hx | hx
    · exact hd x hx
    · rw [List.mem_singleton.1 hx]
      exact ⟨plain_lit (s := c!"http://schemas.microsoft.com/office/2011/relationships/webextension") (by decide),
        (plain_lit (s := c!"rId") (by decide)).append (plain_dec _),
        ((plain_lit (s := c!"webextension") (by decide)).append (plain_dec _)).append (plain_lit (s := c!".xml") (by decide))⟩
  | addCustomItem id xml =>
    simp only [DocxFile.call] at e
    split at e
    · simp only [Option.some.injEq] at e
      subst e
      exact same rfl
    · cases e
  | addSection s =>
    simp only [DocxFile.call, Option.some.injEq] at e
    subst e
    refine same ?_
    have hh : ∀ o f (s : DocxFile × SectionProperty), (attachHeader o f s).1.taskpanesRels = s.1.taskpanesRels := by
      intro o f s
      cases o <;> rfl
    have hf : ∀ o f (s : DocxFile × SectionProperty), (attachFooter o f s).1.taskpanesRels = s.1.taskpanesRels := by
      intro o f s
      cases o <;> rfl
    unfold DocxFile.addSection DocxFile.attachParts
    dsimp only
    rw [hf, hf, hf, hh, hh, hh]
    rfl
  | _ =>
    simp only [DocxFile.call, Option.some.injEq] at e
    subst e
    exact same rfl

theorem preparePackage_panes (env : Env) (d : DocxFile) (w : World) : (d.preparePackage env w).1.taskpanesRels = d.taskpanesRels := by
  have hu : ∀ x : DocxFile, (x.updateDependencies env).taskpanesRels = x.taskpanesRels := by
    intro x
    unfold DocxFile.updateDependencies
    dsimp only
    split <;> rfl
  have h1 : (d.prepareForBuild env w).1.taskpanesRels = d.taskpanesRels := by
    unfold DocxFile.prepareForBuild
    dsimp only
    generalize refreshDuplicateParaIds _ 1 = r
    exact hu { d with document := r.1.document, comments := r.1.comments, footnotes := r.1.footnotes }
  unfold DocxFile.preparePackage
  generalize d.prepareForBuild env w = p at h1 ⊢
  generalize collectImages env.crc p.1.document = i
  dsimp only
  split <;> split <;> exact h1

/-- The strings of the comments and of their records that are written. -/
theorem prepared_commentParts {env : Env} {d : DocxFile} {w : World} (hs : Copied d) :
    (∀ c ∈ (d.preparePackage env w).1.comments, ∀ s ∈ c.strings, Stored s) ∧
    ∀ r ∈ (d.preparePackage env w).1.commentsExtended, ∀ s ∈ r.strings, Stored s := by
  have hst := Props.commentRecords_stored (env := env) (w := w) hs
  have hc := prepared_comment_strings generates_stored env d w (fun c hc => hs.comments c (List.mem_append_right _ hc)) hs.ids
  have hrec : (d.preparePackage env w).1.commentsExtended = (d.prepareForBuild env w).1.commentsExtended := by
    unfold DocxFile.preparePackage
    generalize d.prepareForBuild env w = p
    generalize hi : collectImages env.crc p.1.document = i
    simp only [hi]
    split <;> split <;> rfl
  rw [hrec, preparePackage_comments]
  obtain ⟨x, y, hb, e1, e2, e3, hi⟩ := prepared_story generates_stored env d w hs.ids
  have hd : (d.prepareForBuild env w).1.document = y.document := by rw [e3]; exact updateDependencies_document _ _
  have hu := updateDependencies_comments env ({ d with document := y.document, comments := y.comments, footnotes := y.footnotes } : DocxFile)
  rw [← e3] at hu
  by_cases hall : ∀ c ∈ bodyComments y.document, c.paragraphCount = 0
  · obtain ⟨u1, u2⟩ := hu.1 hall
    rw [u1, u2]
    dsimp only
    constructor
    · intro c' hc'
      have e : y.comments.map blankComment = x.comments.map blankComment := congrArg Story.comments hb
      have : blankComment c' ∈ x.comments.map blankComment := by rw [← e]; exact List.mem_map_of_mem hc'
      obtain ⟨c, hcm, e⟩ := List.mem_map.1 this
      rw [e1] at hcm
      refine comment_strings generates_stored.empty e.symm (hs.comments c (List.mem_append_left _ hcm)) fun i hii => hi i ?_
      rw [walkStory_ids, storyIds, collectDocx]
      exact List.mem_append_left _ (List.mem_append_right _ (List.mem_flatMap.2 ⟨c', hc', hii⟩))
    · intro r hr s h
      obtain ⟨r1, r2⟩ := hs.records r hr
      simp only [CommentExtended.strings, optS, List.mem_cons, Option.mem_toList] at h
      rcases h with rfl | h
      · exact r1
      · exact r2 s h
  · obtain ⟨u1, u2⟩ := hu.2 hall
    rw [u1, u2]
    dsimp only
    rw [← hd]
    refine ⟨fun c h => ?_, hst⟩
    obtain ⟨c0, h0, h1⟩ := List.mem_flatMap.1 h
    rw [List.eq_of_mem_replicate h1]
    exact hc c0 h0

theorem tocStyles_stored {l : List Style} (h : ∀ s ∈ l.flatMap Style.strings, Stored s) : ∀ s ∈ (addTocStyles l).flatMap Style.strings, Stored s := by
  have key : ∀ (ns : List Nat) (l : List Style), (∀ n ∈ ns, ∀ s ∈ (tocStyle n).strings, Stored s) → (∀ s ∈ l.flatMap Style.strings, Stored s) →
      ∀ s ∈ (ns.foldl addTocStyle l).flatMap Style.strings, Stored s := by
    intro ns
    induction ns with
    | nil => intro l _ h; exact h
    | cons n ns ih =>
      intro l hn hl
      refine ih _ (fun m hm => hn m (.tail _ hm)) ?_
      unfold addTocStyle
      split
      · exact hl
      · intro s hs
        rw [List.flatMap_append] at hs
        rcases List.mem_append.1 hs with hs | hs
        · exact hl s hs
        · simp only [List.flatMap_cons, List.flatMap_nil, List.append_nil] at hs
          exact hn n (.head _) s hs
  exact key _ l (by decide +kernel) h

theorem formatAll_dropBom (x : List XmlData) : dropBom (formatAll x) = formatAll x := by
  cases x with
  | nil => rfl
  | cons a l =>
    refine dropBom_opens ?_
    cases a
    rfl

set_option maxHeartbeats 2000000 in
/-- The trees of a written package are acceptable. -/
theorem trees_ok {cs : List Call} {d : DocxFile} {env : Env} {w : World} {es : List Entry} (hc : DocxFile.new.calls cs = some d)
    (hl : ∀ l, (env.links l).Perm l) (hp : ∀ l, (env.props l).Perm l) (hm : Made d.document) (hs : AllCopied d) (h : Packed env d w es) :
    TreesHave OkF (fun s => WellFormed s ∧ dropBom s = s) env (d.preparePackage env w).1 := by
  obtain ⟨b1, _, b2, b3, b4, b5⟩ := preparePackage_books env d w
  obtain ⟨s1, s2, s3, s4⟩ := preparePackage_same env d w
  obtain ⟨c1, c2⟩ := prepared_commentParts (env := env) (w := w) hs.toCopied
  obtain ⟨r, _, _, hr, _, _, _, _, _, _, _, _, _, _, er⟩ := packed_rels_written (calls_sound hc) hl hm.nameable h
  have hst : AllS (d.preparePackage env w).1.styles.strings := by
    rw [Props.preparePackage_styles]
    split
    · intro s h
      unfold Styles.strings at h
      rcases List.mem_append.1 h with h | h
      · exact hs.styles s (List.mem_append_left _ h)
      · exact tocStyles_stored (fun s h => hs.styles s (List.mem_append_right _ h)) s h
    · exact hs.styles
  have hparts : ∀ side : Side, ∀ y ∈ Side.all side (d.preparePackage env w).1.document, ∀ s ∈ y.2.strings, Stored s := by
    intro side
    refine prepared_part_strings generates_stored side env d w ?_ hs.ids
    intro y hy
    have hm : y.2 ∈ side.ofDocument d.document := by 
      have hall : side.ofDocument d.document = (Side.all side d.document).map Prod.snd := by rw [heads_all]; cases side <;> rfl
      rw [hall]
      exact List.mem_map_of_mem hy
    cases side
    · exact hs.headers _ hm
    · exact hs.footers _ hm
  refine
    { types := ?_, rels := ?_, app := appProps_ok, core := ?_, custom := ?_, documentRels := ?_, document := ?_, styles := Styles.ok _ hst,
      settings := ?_, fontTable := fontTable_ok, comments := commentsN_ok _ c1, numbering := ?_, commentsExtended := ?_,
      footnotes := footnotesN_ok _ (prepared_footnote_strings generates_stored env d w hs.footnotes hs.ids),
      headers := ?_, footers := ?_, taskpanes := taskpanes_ok, taskpanesRels := ?_, webExtensions := ?_, itemRels := fun n _ => customItemRels_ok n,
      itemProps := ?_, items := ?_ }
  · refine ContentTypes.ok _ ?_
    have h1 := (calls_sound hc).typed
    have h2 := (calls_typed hc).kinds
    have h3 : ∀ x ∈ d.contentType.types, Plain x.1 ∧ Plain x.2 := fun x hx => ⟨plain_typed (h1 x hx), plain_type (h2 x hx)⟩
    have h4 : ∀ x ∈ (d.preparePackage env w).1.contentType.types, Plain x.1 ∧ Plain x.2 := by
      rw [b1]
      split
      · exact h3
      · intro x hx
        rcases insertType_keys _ _ _ _ hx with rfl | hx
        · exact ⟨plain_lit (s := c!"/word/footnotes.xml") (by decide), plain_lit (s := wordType c!"footnotes") (by decide)⟩
        · exact h3 x hx
    intro s hs
    unfold ContentTypes.strings at hs
    obtain ⟨x, hx, hs⟩ := List.mem_flatMap.1 hs
    simp only [List.mem_cons, List.not_mem_nil, or_false] at hs
    rcases hs with rfl | rfl
    · exact (h4 x hx).1.stored
    · exact (h4 x hx).2.stored
  · rw [s1]
    refine Rels.ok _ ?_
    intro s hs
    unfold Rels.strings at hs
    obtain ⟨x, hx, hs⟩ := List.mem_flatMap.1 hs
    obtain ⟨p1, p2, p3⟩ := package_plain (calls_package_rels hc) x hx
    simp only [List.mem_cons, List.not_mem_nil, or_false] at hs
    rcases hs with rfl | rfl | rfl
    · exact p1.stored
    · exact p2.stored
    · exact p3.stored
  · rw [s4]
    exact CoreProps.ok _ hs.core
  · rw [s3]
    refine customProps_ok _ ?_
    intro s h
    obtain ⟨x, hx, h⟩ := List.mem_flatMap.1 h
    have := hs.custom x ((hp _).mem_iff.1 hx)
    simp only [List.mem_cons, List.not_mem_nil, or_false] at h
    rcases h with rfl | rfl
    · exact this.1
    · exact this.2
  · rw [← er]
    exact DocumentRels.ok _ hr
  · exact Document.ok _ (prepared_strings generates_stored env d w hs.body hs.ids)
  · rw [s2]
    exact Settings.ok _ hs.settings
  · rw [Props.preparePackage_numberings]
    exact Numberings.ok _ hs.numberings
  · refine commentsExtended_ok _ ?_
    intro s h
    obtain ⟨x, hx, h⟩ := List.mem_flatMap.1 h
    exact c2 x hx s h
  · intro x hx
    rw [headers_all] at hx
    obtain ⟨y, hy, rfl⟩ := List.mem_map.1 hx
    exact Header.ok (by decide) _ (hparts .header y hy)
  · intro x hx
    rw [footers_all] at hx
    obtain ⟨y, hy, rfl⟩ := List.mem_map.1 hx
    exact Header.ok (by decide) _ (hparts .footer y hy)
  · rw [preparePackage_panes]
    refine taskpanesRels_ok _ ?_
    intro s h
    obtain ⟨x, hx, h⟩ := List.mem_flatMap.1 h
    obtain ⟨p1, p2, p3⟩ := taskpanes_plain hc x hx
    simp only [List.mem_cons, List.not_mem_nil, or_false] at h
    rcases h with rfl | rfl | rfl
    · exact p1.stored
    · exact p2.stored
    · exact p3.stored
  · rw [b2]
    exact fun e he => WebExtension.ok e (hs.webExtensions e he)
  · rw [b4]
    exact fun i hi => customItemProperty_ok i (hs.itemIds i hi)
  · rw [b3]
    exact fun x hx => ⟨hs.items x hx, formatAll_dropBom x⟩

theorem relsEntry_not_styles (side : Side) (k : Nat) : side.relsEntry k ≠ c!"word/styles.xml" := by
  cases side
  · show c!"word/_rels/header" ++ dec k ++ c!".xml.rels" ≠ c!"word/styles.xml"
    rw [List.append_assoc c!"word/_rels/header"]
    exact not_styles (by decide) (by decide)
  · show c!"word/_rels/footer" ++ dec k ++ c!".xml.rels" ≠ c!"word/styles.xml"
    rw [List.append_assoc c!"word/_rels/footer"]
    exact not_styles (by decide) (by decide)

set_option maxHeartbeats 2000000 in
/-- Every text of a written package comes from a tree. -/
theorem packed_fromTree {G : List Node → Prop} {C : Str → Prop} {d : DocxFile} {env : Env} {w : World} {es : List Entry}
    (hm : MadePictures d.document) (h : Packed env d w es) (ho : ∀ f, G f → OkF f) (hq : TreesHave G C env (d.preparePackage env w).1)
    (hi : ∀ o : List (Str × Str), (∀ r ∈ o, Plain r.1 ∧ Plain r.2) → G (imageRelsN o)) :
    ∀ e ∈ es, ∀ s, e.content = .text s → FromTree G C e.name s := by
  have hf := packed_fits h
  have hz := fromTrees_zip ho hq (d.preparePackage env w).2.1 (fun side n r hs k hk => by
    have he := fits_const hf hs (imageRels_const r)
    obtain ⟨w1, w2⟩ := Props.part_relations_written side d env w es hm h
    obtain ⟨j, x, e1, hx⟩ := w1 k ⟨_, by rw [← hk]; exact he, by simp⟩
    obtain ⟨v1, _, _, _, _, _, _, _, v2⟩ := w2 j x hx
    obtain ⟨o, ho', hpl, _⟩ := v2 (v1.1 ⟨_, by rw [← e1, ← hk]; exact he, by simp⟩)
    rw [← e1, ← hk] at ho'
    have := entry_unique (Docx.packed_nodup h) he ho'
    simp only [Content.text.injEq] at this
    rw [this]
    have hg := hi o hpl
    exact .inl ⟨_, _, _, hg, constText_reads none (ho _ hg), rfl, .inr (by decide), fun h => by
      rw [hk] at h
      exact absurd h (relsEntry_not_styles side k)⟩)
  intro e he s hs
  obtain ⟨st, hst, hfit⟩ := fits_mem' hf he
  cases st with
  | directory n =>
    rw [show e = _ from hfit] at hs
    cases hs
  | store n b =>
    rw [show e = _ from hfit] at hs
    cases hs
  | write n p =>
    obtain ⟨s', g, g', rfl, hp⟩ := hfit
    cases hs
    exact hz n p hst s g g' hp

end Docx
