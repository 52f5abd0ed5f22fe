import Verif.Lemmas.HeldPrepared
import Verif.Lemmas.BlankTwice
import Verif.Lemmas.PartRels
import Verif.Lemmas.Packs
import Verif.Lemmas.BareTwice
import Verif.Spec.Anchors

/-!
# The strings of the comments, footnotes, headers and footers that are written
-/

namespace Docx

open Docx.Spec

section
variable {P : Str → Prop}

private theorem pictures_blank : ∀ w i, (fun w i => if inPart w then (Item.picture? i).toList else []) w (blankItem i) =
    (fun w i => if inPart w then (Item.picture? i).toList else []) w i := by
  intro w i
  cases i <;> simp [Item.picture?, blankItem]

/-- A comment with new paragraph ids has the strings of the old one and those ids. -/
theorem comment_strings (h0 : P []) {c c' : Comment} (e : blankComment c' = blankComment c) (hs : ∀ s ∈ c.strings, P s)
    (hid : ∀ i ∈ collectComment c', P i) : ∀ s ∈ c'.strings, P s := by
  have hb : bareComment c' = bareComment c := by rw [← bareComment_blank, e, bareComment_blank]
  have hpics : partPictures (walkComment [] c') = partPictures (walkComment [] c) := by
    rw [partPictures_pick, partPictures_pick, ← walkComment_blank pictures_blank, e, walkComment_blank pictures_blank]
  have hbs := bareComment_strings h0 c hs
  rw [← hb] at hbs
  have hold : ∀ p ∈ partPictures (walkComment [] c), P p.id := by
    refine partPictures_spot ?_
    obtain ⟨_, _, _, cs, _⟩ := c
    simp only [Comment.strings, List.forall_mem_cons] at hs
    exact walkBlocks_spots cs [] hs.2.2
  have hsp : ∀ s ∈ pick spot (walkComment [] c'), P s := by
    intro s h
    rcases spot_ids s h with h | ⟨p, hp, rfl⟩
    · rw [walkComment_ids] at h
      exact hid s h
    · rw [hpics] at hp
      exact hold p hp
  obtain ⟨_, _, _, cs, _⟩ := c'
  simp only [bareComment, Comment.strings, List.forall_mem_cons] at hbs ⊢
  exact ⟨hbs.1, hbs.2.1, spotsBlocks cs [] rfl hbs.2.2 hsp⟩

/-- A paragraph with new paragraph ids has the strings of the old one and those ids. -/
theorem paragraph_strings (h0 : P []) {c c' : Paragraph} (e : blankParagraph c' = blankParagraph c) (hs : ∀ s ∈ c.strings, P s)
    (hid : ∀ i ∈ collectParagraph c', P i) : ∀ s ∈ c'.strings, P s := by
  have hb : bareParagraph c' = bareParagraph c := by rw [← bareParagraph_blank, e, bareParagraph_blank]
  have hpics : partPictures (walkParagraph [] c') = partPictures (walkParagraph [] c) := by
    rw [partPictures_pick, partPictures_pick, ← walkParagraph_blank pictures_blank, e, walkParagraph_blank pictures_blank]
  have hbs := bareParagraph_strings h0 c hs
  rw [← hb] at hbs
  have hold : ∀ p ∈ partPictures (walkParagraph [] c), P p.id := partPictures_spot (walkParagraph_spots c [] hs)
  refine spotsParagraph c' [] rfl hbs fun s h => ?_
  rcases spot_ids s h with h | ⟨p, hp, rfl⟩
  · rw [walkParagraph_ids] at h
    exact hid s h
  · rw [hpics] at hp
    exact hold p hp

theorem footnote_strings (h0 : P []) {f f' : Footnote} (e : blankFootnote f' = blankFootnote f) (hs : ∀ s ∈ f.strings, P s)
    (hid : ∀ i ∈ collectFootnote f', P i) : ∀ s ∈ f'.strings, P s := by
  intro s h
  simp only [Footnote.strings, List.mem_flatMap] at h
  obtain ⟨p', hp', h⟩ := h
  have e : f'.content.map blankParagraph = f.content.map blankParagraph := congrArg Footnote.content e
  have : blankParagraph p' ∈ f.content.map blankParagraph := by rw [← e]; exact List.mem_map_of_mem hp'
  obtain ⟨p, hp, e1⟩ := List.mem_map.1 this
  exact paragraph_strings h0 e1.symm (fun s h => hs s (List.mem_flatMap.2 ⟨p, hp, h⟩))
    (fun i hi => hid i (List.mem_flatMap.2 ⟨p', hp', hi⟩)) s h

/-! ## What preparation keeps -/

theorem preparePackage_pick {α : Type} {k : List Place → Item → List α} (hs : Skips k) (hb : ∀ w i, k w (bareItem i) = k w i)
    (env : Env) (d : DocxFile) (w : World) :
    pick k (walkDocument (d.preparePackage env w).1.document) = pick k (walkDocument d.document) := by
  rw [preparePackage_document, ← walkDocument_bare hb, collectImages_bare, walkDocument_bare hb]
  refine prepareForBuild_pick hs (fun w i => ?_) env d w
  rw [← hb w (blankItem i), bareItem_blank, hb]

/-- What is listed of the items of the body themselves, if it is not about ids, paragraphs and tables of contents. -/
theorem preparePackage_bodyItems {α : Type} {f : Item → List α} (hp : ∀ p, f (.paragraph p) = []) (ht : ∀ t, f (.toc t) = [])
    (hb : ∀ i, f (bareItem i) = f i) (env : Env) (d : DocxFile) (w : World) :
    (bodyItems (d.preparePackage env w).1.document).flatMap f = (bodyItems d.document).flatMap f := by
  have key : ∀ l : Walk, (l.within inPart).flatMap f = pick (fun w i => if inPart w then f i else []) l := by
    intro l
    unfold Walk.within pick
    induction l with
    | nil => rfl
    | cons x l ih =>
      rw [List.filter_cons, List.flatMap_cons, ← ih]
      split <;> simp_all
  unfold bodyItems
  rw [key, key]
  refine preparePackage_pick ⟨fun w p => ?_, fun w p => ?_⟩ (fun w i => ?_) env d w
  · simp [hp]
  · simp [ht]
  · simp [hb]

/-! ## Comments -/

/-- Preparation keeps the comments of the body, up to paragraph ids. -/
theorem prepared_bodyComments (env : Env) (d : DocxFile) (w : World) :
    (bodyComments (d.prepareForBuild env w).1.document).map blankComment = (bodyComments d.document).map blankComment := by
  unfold bodyComments
  rw [List.map_filterMap, List.map_filterMap, within_pick, within_pick]
  refine prepareForBuild_pick ⟨fun w p => ?_, fun w p => ?_⟩ (fun w i => ?_) env d w
  · simp [Item.comment?]
  · simp [Item.comment?]
  · cases i <;> simp [Item.comment?, blankItem, blankComment_idem]

/-- The ids of the paragraphs of a comment of the body are ids of the body. -/
theorem bodyComment_ids {d : Document} {c : Comment} (h : c ∈ bodyComments d) : ∀ i ∈ collectComment c, i ∈ bodyIds (walkDocument d) := by
  intro i hi
  simp only [bodyComments, Walk.within, List.mem_filterMap, List.mem_map, List.mem_filter] at h
  obtain ⟨j, ⟨⟨w, j'⟩, ⟨hm, hw⟩, rfl⟩, he⟩ := h
  cases j' with
  | comment a c' =>
    simp only [Item.comment?, Option.some.injEq] at he
    subst he
    have hcl := walkDocument_closed d _ hm
    have hb : inBody (.comment :: w) = true := by
      have key : ∀ w, searched w = true → inBody w = true := by
        intro w
        induction w using searched.induct with
        | case1 => intro; rfl
        | case2 w ih => intro h; have := ih h; simpa [inBody] using this
        | case3 w ih => intro h; have := ih h; simpa [inBody] using this
        | case4 w ih => intro h; have := ih h; simpa [inBody] using this
        | case5 w ih => intro h; have := ih h; simpa [inBody] using this
        | case6 w ih => intro h; have := ih h; simpa [inBody] using this
        | case7 w ih => intro h; have := ih h; simpa [inBody] using this
        | case8 w _ _ _ _ _ _ => intro h; simp_all [searched]
      have key2 : ∀ w, inText w = true → inBody w = true := by
        intro w hw
        unfold inText at hw
        split at hw
        · simpa [inBody] using key _ hw
        · simpa [inBody] using key _ hw
        · cases hw
      simpa [inBody] using key2 w hw
    have : i ∈ bodyIds (walkComment (.comment :: w) c') := by rw [walkComment_ids, hb]; exact hi
    simp only [bodyIds, Walk.within, List.mem_filterMap, List.mem_map, List.mem_filter] at this ⊢
    obtain ⟨x, ⟨y, ⟨hy, hy'⟩, rfl⟩, hx⟩ := this
    exact ⟨_, ⟨y, ⟨hcl y hy, hy'⟩, rfl⟩, hx⟩
  | _ => cases he

theorem prepared_comment_strings (hP : Generates P) (env : Env) (d : DocxFile) (w : World)
    (hs : ∀ c ∈ bodyComments d.document, ∀ s ∈ c.strings, P s) (hid : ∀ i ∈ fileIds d, P i) :
    ∀ c ∈ bodyComments (d.prepareForBuild env w).1.document, ∀ s ∈ c.strings, P s := by
  intro c' hc'
  have : blankComment c' ∈ (bodyComments d.document).map blankComment := by
    rw [← prepared_bodyComments env d w]; exact List.mem_map_of_mem hc'
  obtain ⟨c, hc, e⟩ := List.mem_map.1 this
  refine comment_strings hP.empty e.symm (hs c hc) fun i hi => ?_
  have h := bodyComment_ids hc' i hi
  obtain ⟨x, e1, e2, _, _, hx⟩ := prepared_ids hP env d w hid
  refine hx i ?_
  rw [e2] at h
  simp only [walkStory, bodyIds_append, List.mem_append]
  exact .inl (.inl h)

theorem updateDependencies_footnotes (env : Env) (d : DocxFile) : (d.updateDependencies env).footnotes = d.footnotes := by
  unfold DocxFile.updateDependencies
  dsimp only
  split <;> rfl

/-- The story that preparation refreshes, and what it leaves. -/
theorem prepared_story (hP : Generates P) (env : Env) (d : DocxFile) (w : World) (hid : ∀ i ∈ fileIds d, P i) :
    ∃ x y : Story, blankStory y = blankStory x ∧ x.comments = d.comments ∧ x.footnotes = d.footnotes ∧
      (d.prepareForBuild env w).1 =
        ({ d with document := y.document, comments := y.comments, footnotes := y.footnotes } : DocxFile).updateDependencies env ∧
      ∀ i ∈ bodyIds (walkStory y), P i := by
  refine ⟨⟨{ d.document with children := (expandAutoTocs d.styles.styles d.document.children w.toc).1 }, d.comments, d.footnotes⟩,
    _, refreshDuplicateParaIds_blank _ 1, rfl, rfl, rfl, ?_⟩
  refine refreshDuplicateParaIds_from hP.para _ _ fun i hi => hid i ?_
  simp only [fileIds, walkStory, bodyIds_append, List.mem_append] at hi ⊢
  rwa [expandAutoTocs_ids] at hi

private theorem mem_blank {α : Type} {b : α → α} {l l' : List α} (e : l'.map b = l.map b) {x : α} (h : x ∈ l') : ∃ y ∈ l, b x = b y := by
  have : b x ∈ l.map b := by rw [← e]; exact List.mem_map_of_mem h
  obtain ⟨y, hy, e⟩ := List.mem_map.1 this
  exact ⟨y, hy, e.symm⟩

/-- The strings of the footnotes that are written. -/
theorem prepared_footnote_strings (hP : Generates P) (env : Env) (d : DocxFile) (w : World)
    (hs : ∀ f ∈ d.footnotes ++ partFootnotes (walkDocument d.document), ∀ s ∈ f.strings, P s) (hid : ∀ i ∈ fileIds d, P i) :
    ∀ f ∈ (d.preparePackage env w).1.footnotes, ∀ s ∈ f.strings, P s := by
  intro f hf
  rw [preparePackage_footnotes, prepareForBuild_footnotes] at hf
  rcases List.mem_append.1 hf with hf | hf
  · obtain ⟨x, y, hb, _, e2, e3, hi⟩ := prepared_story hP env d w hid
    rw [e3, updateDependencies_footnotes] at hf
    have e : y.footnotes.map blankFootnote = x.footnotes.map blankFootnote := congrArg Story.footnotes hb
    obtain ⟨f0, h0, e0⟩ := mem_blank e hf
    rw [e2] at h0
    refine footnote_strings hP.empty e0 (hs f0 (List.mem_append_left _ h0)) fun i hfi => hi i ?_
    rw [walkStory_ids, storyIds, collectDocx]
    exact List.mem_append_right _ (List.mem_flatMap.2 ⟨f, hf, hfi⟩)
  · exact hs f (List.mem_append_right _ hf)

/-! ## The comments part -/

/-- The number of paragraphs directly in a comment. -/
def Comment.paragraphCount (c : Comment) : Nat :=
  (c.children.filter fun b => match b with | .paragraph _ => true | .table _ => false).length

theorem paragraphIds_length (c : Comment) : c.paragraphIds.length = c.paragraphCount := by
  unfold Comment.paragraphIds Comment.paragraphCount
  induction c.children with
  | nil => rfl
  | cons b l ih => cases b <;> simp [ih]

theorem paragraphCount_blank (c : Comment) : (blankComment c).paragraphCount = c.paragraphCount := by
  obtain ⟨_, _, _, cs, _⟩ := c
  simp only [blankComment, Comment.paragraphCount]
  induction cs with
  | nil => rfl
  | cons b l ih => cases b <;> simp [blankBlocks, blankBlock, ih]

/-- The comments written when a comment of the body has a paragraph: each once for every paragraph it has. -/
theorem pushed_all (m : List (Nat × Str)) : ∀ (l : List Found) (s : List Comment × List CommentExtended),
    l.foldl (pushComment m) s =
      (s.1 ++ (l.filterMap Found.comment?).flatMap (fun c => List.replicate c.paragraphCount c),
        s.2 ++ (l.filterMap Found.comment?).flatMap fun c => c.paragraphIds.flatMap (extendedRecords m c.parent))
  | [], s => by simp
  | .comment a :: l, s => by
    rw [List.foldl_cons, pushed_all m l]
    simp [pushComment, Found.comment?, List.append_assoc, ← paragraphIds_length, List.map_const']
  | .link _ _ :: l, s => by
    rw [List.foldl_cons, pushed_all m l]
    rfl

/-- The id of the last of the paragraphs of the comments with a number. -/
def lastParagraph (l : List Comment) (n : Nat) : Option Str :=
  ((l.filter fun c => decide (c.id = n)).flatMap Comment.paragraphIds).getLast?

private theorem lookup_append {α β : Type} [BEq α] (x : α) : ∀ l r : List (α × β), (l ++ r).lookup x = (l.lookup x).or (r.lookup x)
  | [], r => rfl
  | (a, b) :: l, r => by
    rw [List.cons_append, List.lookup_cons, List.lookup_cons]
    split
    · rfl
    · exact lookup_append x l r

private theorem lookup_filter {α β : Type} [DecidableEq α] (k x : α) : ∀ l : List (α × β),
    (l.filter fun y => decide (y.1 ≠ k)).lookup x = if x = k then none else l.lookup x
  | [] => by simp
  | (a, b) :: l => by
    rw [List.filter_cons]
    by_cases h : a = k
    · subst h
      simp only [ne_eq, not_true_eq_false, decide_false, Bool.false_eq_true, if_false]
      rw [lookup_filter a x l, List.lookup_cons]
      by_cases hx : x = a
      · simp [hx]
      · have : (x == a) = false := by simpa using hx
        simp [hx, this]
    · have : decide (a ≠ k) = true := by simpa using h
      rw [if_pos this, List.lookup_cons, List.lookup_cons, lookup_filter k x l]
      by_cases hx : x = a
      · subst hx; simp [h]
      · have : (x == a) = false := by simpa using hx
        rw [this]

theorem lookup_hashInsert {α β : Type} [DecidableEq α] (k : α) (v : β) (m : List (α × β)) (x : α) :
    (hashInsert k v m).lookup x = if x = k then some v else m.lookup x := by
  unfold hashInsert
  rw [lookup_append, lookup_filter, List.lookup_cons]
  by_cases h : x = k
  · simp [h]
  · have : (x == k) = false := by simpa using h
    simp [h, this]

private theorem lookup_inserts (n a : Nat) : ∀ (l : List Str) (m : List (Nat × Str)),
    (l.foldl (fun m i => hashInsert a i m) m).lookup n = if a = n then l.getLast?.or (m.lookup n) else m.lookup n
  | [], m => by simp
  | i :: l, m => by
    rw [List.foldl_cons, lookup_inserts n a l, lookup_hashInsert]
    by_cases h : a = n
    · subst h
      cases l <;> simp [List.getLast?_cons]
    · rw [if_neg h, if_neg h, if_neg (fun e => h e.symm)]

private theorem lookup_comments (n : Nat) : ∀ (l : List Found) (m : List (Nat × Str)),
    (l.foldl insertComment m).lookup n = (lastParagraph (l.filterMap Found.comment?) n).or (m.lookup n)
  | [], m => by simp [lastParagraph]
  | .link _ _ :: l, m => by
    rw [List.foldl_cons, lookup_comments n l]
    rfl
  | .comment c :: l, m => by
    rw [List.foldl_cons, lookup_comments n l]
    simp only [insertComment, lookup_inserts, Found.comment?, List.filterMap_cons]
    unfold lastParagraph
    rw [List.filter_cons]
    by_cases h : c.id = n
    · simp only [h, decide_true, if_true, List.flatMap_cons, List.getLast?_append]
      rw [Option.or_assoc]
    · simp [h]

theorem lookup_commentMap (l : List Found) (n : Nat) : (commentMap l).lookup n = lastParagraph (l.filterMap Found.comment?) n := by
  rw [commentMap, lookup_comments]
  simp

private theorem inserts_nil (a : Nat) : ∀ (l : List Str) (m : List (Nat × Str)),
    l.foldl (fun m i => hashInsert a i m) m = [] ↔ m = [] ∧ l = []
  | [], m => by simp
  | i :: l, m => by
    rw [List.foldl_cons, inserts_nil a l]
    simp [hashInsert]

private theorem comments_nil : ∀ (l : List Found) (m : List (Nat × Str)),
    l.foldl insertComment m = [] ↔ m = [] ∧ ∀ c ∈ l.filterMap Found.comment?, c.paragraphIds = []
  | [], m => by simp
  | .link _ _ :: l, m => by
    rw [List.foldl_cons, comments_nil l]
    rfl
  | .comment c :: l, m => by
    rw [List.foldl_cons, comments_nil l]
    simp only [insertComment, inserts_nil, Found.comment?, List.filterMap_cons, List.forall_mem_cons, and_assoc]

theorem commentMap_nil (l : List Found) : commentMap l = [] ↔ ∀ c ∈ l.filterMap Found.comment?, c.paragraphIds = [] := by
  rw [commentMap, comments_nil]
  simp

/-- The records for the paragraphs of the comments. -/
def recordsOf (l : List Comment) : List CommentExtended :=
  l.flatMap fun c => c.paragraphIds.flatMap fun i =>
    match c.parent with
    | none => [{ paragraphId := i }]
    | some p => (lastParagraph l p).toList.map fun j => { paragraphId := i, parentParagraphId := some j }

/-- The comments and records that are written, for the comments of the body after preparation. -/
theorem updateDependencies_comments (env : Env) (d : DocxFile) :
    ((∀ c ∈ bodyComments d.document, c.paragraphCount = 0) →
      (d.updateDependencies env).comments = d.comments ∧ (d.updateDependencies env).commentsExtended = d.commentsExtended) ∧
    ((¬ ∀ c ∈ bodyComments d.document, c.paragraphCount = 0) →
      (d.updateDependencies env).comments = (bodyComments d.document).flatMap (fun c => List.replicate c.paragraphCount c) ∧
      (d.updateDependencies env).commentsExtended = recordsOf (bodyComments d.document)) := by
  have key : commentMap d.document.found = [] ↔ ∀ c ∈ bodyComments d.document, c.paragraphCount = 0 := by
    rw [commentMap_nil, found_comments]
    refine forall₂_congr fun c _ => ?_
    rw [← paragraphIds_length, List.length_eq_zero_iff]
  unfold DocxFile.updateDependencies
  refine ⟨fun h => ?_, fun h => ?_⟩
  · rw [← key] at h
    simp only [h, if_true]
    exact ⟨trivial, trivial⟩
  · rw [← key] at h
    simp only [h, if_false]
    rw [pushed_all, found_comments]
    refine ⟨by simp, ?_⟩
    simp only [List.nil_append]
    unfold recordsOf
    congr 1
    funext c
    congr 1
    funext i
    unfold extendedRecords
    cases c.parent with
    | none => rfl
    | some p =>
      simp only
      rw [lookup_commentMap, found_comments]
      cases lastParagraph (bodyComments d.document) p <;> rfl

/-! ## Headers and footers -/

theorem part_ids {d : Document} (side : Side) {x : Str × Header} (h : x ∈ Side.all side d) :
    ∀ i ∈ collectHeader x.2, i ∈ bodyIds (walkDocument d) := by
  intro i hi
  have key : ∀ p : SectionProperty, x ∈ Side.own side p → i ∈ collectSectionProperty p := by
    intro p hp
    simp only [Side.own, List.mem_filterMap, id_eq] at hp
    obtain ⟨o, ho, rfl⟩ := hp
    unfold collectSectionProperty
    simp only [List.mem_append]
    cases side with
    | header =>
      simp only [Side.parts, List.mem_cons, List.not_mem_nil, or_false] at ho
      rcases ho with h | h | h <;> rw [← h] <;> simp [collectPart, hi]
    | footer =>
      simp only [Side.parts, List.mem_cons, List.not_mem_nil, or_false] at ho
      rcases ho with h | h | h <;> rw [← h] <;> simp [collectPart, hi]
  rw [walkDocument_ids]
  rw [Side.all, sectionProperties_eq, List.flatMap_cons] at h
  rcases List.mem_append.1 h with h | h
  · exact List.mem_append_right _ (key _ h)
  · refine List.mem_append_left _ ?_
    obtain ⟨p, hp, h⟩ := List.mem_flatMap.1 h
    obtain ⟨c, hc, e⟩ := List.mem_filterMap.1 hp
    refine List.mem_flatMap.2 ⟨c, hc, ?_⟩
    cases c with
    | «section» s =>
      cases e
      exact List.mem_append_right _ (key _ h)
    | _ => cases e

/-- The strings of a header or footer that is written. -/
theorem prepared_part_string (hP : Generates P) (side : Side) (env : Env) (d : DocxFile) (w : World) {j : Nat} {x y : Str × Header}
    (hx : (Side.all side d.document)[j]? = some x) (hj : (Side.all side (d.preparePackage env w).1.document)[j]? = some y)
    (hsx : ∀ s ∈ x.2.strings, P s) (hid : ∀ i ∈ fileIds d, P i) : ∀ s ∈ y.2.strings, P s := by
  have hy := List.mem_of_getElem? hj
  have hids := prepared_bodyIds hP env d w hid
  have hparts := prepareForBuild_parts side env d w
  have hbare := prepared_parts side env d w
  have hdoc := preparePackage_document env d w
  obtain ⟨out, hn⟩ := part_images side env.crc (d.prepareForBuild env w).1.document
  generalize (d.prepareForBuild env w).1.document = x0 at hparts hdoc hn
  generalize collectImages env.crc x0 = i at hdoc hn
  generalize d.preparePackage env w = q at *
  have hlen0 : (Side.all side x0).length = (Side.all side d.document).length := by
    have := congrArg List.length hparts
    rwa [List.length_map, List.length_map] at this
  have hjl : j < (Side.all side d.document).length := (List.getElem?_eq_some_iff.1 hx).1
  obtain ⟨x1, hx1⟩ : ∃ x, (Side.all side x0)[j]? = some x := ⟨_, List.getElem?_eq_getElem (by rw [hlen0]; exact hjl)⟩
  obtain ⟨o, ho⟩ : ∃ o, out[j]? = some o := ⟨_, List.getElem?_eq_getElem (by rw [hn.outs, hlen0]; exact hjl)⟩
  have hb1 : blankHeader x1.2 = blankHeader x.2 := by
    have e := congrArg (·[j]?) hparts
    simp only [List.getElem?_map, hx1, hx, Option.map_some, Option.some.injEq, Prod.mk.injEq] at e
    exact e.2
  have hb2 : bareHeader y.2 = bareHeader x.2 := by
    have e := congrArg (·[j]?) hbare
    simp only [List.getElem?_map, hj, hx, Option.map_some, Option.some.injEq, Prod.mk.injEq] at e
    exact e.2
  obtain ⟨hok, hnamed⟩ := hn.ok j x1 y o hx1 (by rw [← hdoc]; exact hj) ho
  refine spotsHeader y.2 [] rfl ?_ ?_
  · rw [hb2]
    exact bareHeader_strings hP.empty _ hsx
  · intro s h
    rcases spot_ids s h with h | ⟨p, hp, rfl⟩
    · rw [walkHeader_ids _ rfl] at h
      exact hids s (part_ids side hy s h)
    · rw [partPictures_eq] at hp
      refine collected_ids hP (pfx := Side.kind side) ?_ hok hnamed ?_ p hp
      · cases side
        · exact .inr (.inl rfl)
        · exact .inr (.inr rfl)
      · rw [headerItems, ← partPictures_eq, blank_pictures hb1]
        exact partPictures_spot (walkHeader_spots _ _ hsx)

/-- The strings of the headers and footers that are written. -/
theorem prepared_part_strings (hP : Generates P) (side : Side) (env : Env) (d : DocxFile) (w : World)
    (hs : ∀ x ∈ Side.all side d.document, ∀ s ∈ x.2.strings, P s) (hid : ∀ i ∈ fileIds d, P i) :
    ∀ x ∈ Side.all side (d.preparePackage env w).1.document, ∀ s ∈ x.2.strings, P s := by
  intro y hy
  obtain ⟨j, hj⟩ := List.mem_iff_getElem?.1 hy
  have hl := congrArg List.length (prepared_parts side env d w)
  rw [List.length_map, List.length_map] at hl
  have hjl : j < (Side.all side d.document).length := hl ▸ (List.getElem?_eq_some_iff.1 hj).1
  have hx := List.getElem?_eq_getElem hjl
  exact prepared_part_string hP side env d w hx hj (hs _ (List.mem_of_getElem? hx)) hid

end

end Docx
