import Verif.Lemmas.ReadChanges

/-!
# Reading back paragraphs and hyperlinks
-/

namespace Docx

open Docx.Xml Docx.Spec

variable {x : ReadEnv} {σ : Type}

/-! ## What is read back -/

/-- What is read back for a child of a paragraph that is not a hyperlink. -/
def ParagraphChild.rereadInner : ParagraphChild → List ParagraphChild
  | .run r => [.run r.reread]
  | .insert i => [.insert i.reread]
  | .delete d => [.delete d.reread]
  | .moveFrom d => [.moveFrom d.reread]
  | .moveTo i => [.moveTo i.reread]
  | .bookmarkStart id name => [.bookmarkStart id (seen name)]
  | .bookmarkEnd id => [.bookmarkEnd id]
  | .commentStart id _ => [.commentStart id (.new id)]
  | .commentEnd id => [.run {}, .commentEnd id, .run {}]
  | .pageNum _ => [.run (pageFieldRun .page).reread]
  | .numPages _ => [.run (pageFieldRun .numPages).reread]
  | _ => []

/-- A child of a hyperlink that can be read back. -/
def ParagraphChild.ReadableInner : ParagraphChild → Prop
  | .run r => r.Readable
  | .insert i => i.Readable
  | .delete d => d.Readable
  | .bookmarkStart id name => Fits id ∧ (decodeAttr name).isSome
  | .bookmarkEnd id => Fits id
  | .commentStart id _ => Fits id
  | .commentEnd id => Fits id
  | .pageNum _ => True
  | .numPages _ => True
  | _ => False

/-- The target of a hyperlink read back: the address behind a relationship is not in the element. -/
def HyperlinkData.reread : HyperlinkData → HyperlinkData
  | .external rid _ => .external (seen rid) []
  | .anchor a => .anchor (seen a)

/-- A target that can be read back. -/
def HyperlinkData.Readable : HyperlinkData → Prop
  | .external rid _ => (decodeAttr rid).isSome
  | .anchor a => (decodeAttr a).isSome

/-- What is read back for a child of a paragraph. -/
def ParagraphChild.reread : ParagraphChild → List ParagraphChild
  | .hyperlink ⟨link, history, children⟩ =>
    [.hyperlink ⟨link.reread, some (history.getD 1), children.flatMap ParagraphChild.rereadInner⟩]
  | c => c.rereadInner

/-- A child of a paragraph that can be read back. -/
def ParagraphChild.Readable : ParagraphChild → Prop
  | .hyperlink ⟨link, history, children⟩ =>
    link.Readable ∧ Fits (history.getD 1) ∧ ∀ c ∈ children, c.ReadableInner
  | .moveFrom d => d.Readable
  | .moveTo i => i.Readable
  | c => c.ReadableInner

/-- A paragraph read back. -/
def Paragraph.reread (p : Paragraph) : Paragraph :=
  ⟨seen p.id, p.children.flatMap ParagraphChild.reread, p.property.reread, p.property.base.numberingProperty.isSome⟩

/-- A paragraph that can be read back. -/
def Paragraph.Readable (p : Paragraph) : Prop :=
  (decodeAttr p.id).isSome ∧ p.property.Readable ∧ ∀ c ∈ p.children, c.Readable

theorem pageFieldRun_readable {i : InstrText} (h : i = .page ∨ i = .numPages) : (pageFieldRun i).Readable := by
  refine ⟨?_, ?_⟩
  · show RunProperty.Readable {}
    simp [RunProperty.Readable, RunProperty.strings, optStrings, optS]
  · rcases h with rfl | rfl <;> simp [pageFieldRun, RunChild.Readable, ReadablePieces, InstrText.pieces, Blank] <;> decide +kernel

/-! ## Hyperlinks -/

/-- Children added to a hyperlink. -/
def Hyperlink.addAll (h : Hyperlink) (cs : List ParagraphChild) : Hyperlink := { h with children := h.children ++ cs }

theorem Hyperlink.addAll_nil (r : Hyperlink) : r.addAll [] = r := by cases r; simp [Hyperlink.addAll]

theorem link_child {α : Type} {n : Str} {as : List (Str × Str)} {body : List Node} {a : α} {F : Readers → List REvent → Read α}
    {mk : α → ParagraphChild} (hr : Returns x F n body a) (h : Hyperlink)
    (e : ∀ R es, (hyperlinkLoop R).start h (splitQName n) (expectAttrs as) es =
      (F R es).caught fun r es => .ok (hyperlinkLoop.add h (r.map mk)) es) :
    TakesF x hyperlinkLoop h [.elem n as body] (h.addAll [mk a]) := by
  refine TakesF.child ((hr.caught (g := fun r es => .ok (hyperlinkLoop.add h (r.map mk)) es) (fun es => rfl)).congr (fun _ es hd => e _ _))

theorem link_run {body : List Node} {r : Run} (hr : Returns x (fun R => R.run) c!"w:r" body r) (h : Hyperlink) :
    TakesF x hyperlinkLoop h [.elem c!"w:r" [] body] (h.addAll [.run r]) :=
  link_child (mk := .run) hr h fun R es => by simp [-String.reduceToList, hyperlinkLoop]

theorem link_comment {n : Nat} (hn : Fits n) (h : Hyperlink) :
    TakesF x hyperlinkLoop h (commentStartNodes n) (h.addAll [.commentStart n (.new n)]) := by
  refine TakesF.leaf' (fun _ es hd => ?_) (fun _ => ?_)
  · simp [-String.reduceToList, hyperlinkLoop, hyperlinkLoop.add, readCommentId_dec hn, Hyperlink.addAll, Hyperlink.addChild]
  · simp [-String.reduceToList, hyperlinkLoop, closesAt]

theorem link_commentEnd {n : Nat} (hn : Fits n) (h : Hyperlink) :
    TakesF x hyperlinkLoop h (commentEndNodes n) (h.addAll [.run {}, .commentEnd n, .run {}]) := by
  have h1 : ∀ d, TakesF x hyperlinkLoop d (leafN c!"w:commentRangeEnd" [(c!"w:id", dec n)]) (d.addAll [.commentEnd n]) := by
    intro d
    refine TakesF.leaf' (fun _ es hd => ?_) (fun _ => ?_)
    · simp [-String.reduceToList, hyperlinkLoop, hyperlinkLoop.add, readCommentId_dec hn, Hyperlink.addAll, Hyperlink.addChild]
    · simp [-String.reduceToList, hyperlinkLoop, closesAt]
  have := TakesN.append (TakesN.append (link_run returns_runBefore) h1) (link_run (returns_runBehind n)) h
  rw [show h.addAll [.run {}, .commentEnd n, .run {}] = ((h.addAll [.run {}]).addAll [.commentEnd n]).addAll [.run {}] by simp [Hyperlink.addAll]]
  exact this

theorem takes_linkChild (c : ParagraphChild) (hc : c.ReadableInner) :
    TakesN x hyperlinkLoop c.nodes (fun h => h.addAll c.rereadInner) := by
  intro g f g' e h
  cases c with
  | run r =>
    obtain ⟨body, rfl, hr⟩ := returns_run (x := x) r hc e
    exact link_run hr h
  | insert i =>
    obtain ⟨as, body, rfl, hr⟩ := returns_insert (x := x) i hc e
    exact link_child (mk := .insert) hr h fun R es => by simp [-String.reduceToList, hyperlinkLoop]
  | delete d =>
    obtain ⟨as, body, rfl, hr⟩ := returns_delete (x := x) d hc e
    exact link_child (mk := .delete) hr h fun R es => by simp [-String.reduceToList, hyperlinkLoop]
  | bookmarkStart id name =>
    refine TakesN.emit (φ := fun h => h.addAll [.bookmarkStart id (seen name)]) (fun h => ?_) _ _ _ e h
    refine TakesF.leaf' (fun _ es hd => ?_) (fun _ => ?_)
    · simp [-String.reduceToList, hyperlinkLoop, hyperlinkLoop.add, readBookmarkStart_attrs hc.1 hc.2, Read.caught, Hyperlink.addAll,
        Hyperlink.addChild]
    · simp [-String.reduceToList, hyperlinkLoop, closesAt]
  | bookmarkEnd id =>
    refine TakesN.emit (φ := fun h => h.addAll [.bookmarkEnd id]) (fun h => ?_) _ _ _ e h
    refine TakesF.leaf' (fun _ es hd => ?_) (fun _ => ?_)
    · simp [-String.reduceToList, hyperlinkLoop, hyperlinkLoop.add, readBookmarkEnd_attrs hc, Read.caught, Hyperlink.addAll,
        Hyperlink.addChild]
    · simp [-String.reduceToList, hyperlinkLoop, closesAt]
  | commentStart id c =>
    exact TakesN.emit (φ := fun h => h.addAll [.commentStart id (.new id)]) (fun h => link_comment hc h) _ _ _ e h
  | commentEnd id =>
    exact TakesN.emit (φ := fun h => h.addAll [.run {}, .commentEnd id, .run {}]) (fun h => link_commentEnd hc h) _ _ _ e h
  | pageNum i =>
    obtain ⟨body, rfl, hr⟩ := returns_run (x := x) _ (pageFieldRun_readable (.inl rfl)) e
    exact link_run hr h
  | numPages i =>
    obtain ⟨body, rfl, hr⟩ := returns_run (x := x) _ (pageFieldRun_readable (.inr rfl)) e
    exact link_run hr h
  | moveFrom d => exact absurd hc id
  | moveTo d => exact absurd hc id
  | hyperlink d => exact absurd hc id
  | sdt d => exact absurd hc id

theorem nodesParagraphChildren_each : ∀ cs, nodesParagraphChildren cs = eachN ParagraphChild.nodes cs
  | [] => rfl
  | c :: cs => by rw [nodesParagraphChildren, nodesParagraphChildren_each cs]; rfl

theorem takes_linkChildren (cs : List ParagraphChild) (h : ∀ c ∈ cs, c.ReadableInner) :
    TakesN x hyperlinkLoop (eachN ParagraphChild.nodes cs) (fun d => d.addAll (cs.flatMap ParagraphChild.rereadInner)) :=
  .flatMap Hyperlink.addAll_nil (fun s l l' => by simp [Hyperlink.addAll]) fun c hc => takes_linkChild c (h c hc)

theorem returns_hyperlink (link : HyperlinkData) (history : Option Nat) (children : List ParagraphChild)
    (h : ParagraphChild.Readable (.hyperlink ⟨link, history, children⟩)) {g g' : Gen} {f : List Node}
    (e : Hyperlink.nodes ⟨link, history, children⟩ g = some (f, g')) :
    ∃ as body, f = [.elem c!"w:hyperlink" as body] ∧ Returns x (fun R => readHyperlink R (expectAttrs as)) c!"w:hyperlink" body
      ⟨link.reread, some (history.getD 1), children.flatMap ParagraphChild.rereadInner⟩ := by
  rw [Hyperlink.nodes, nodesParagraphChildren_each] at e
  obtain ⟨body, hb, rfl⟩ := elemN_eq e
  obtain ⟨h1, h2, h3⟩ := h
  refine ⟨_, body, rfl, ?_⟩
  have key := takes_linkChildren (x := x) children h3 _ _ _ hb ⟨link.reread, some (history.getD 1), []⟩
  refine ((Returns.loop key (n := c!"w:hyperlink") (fun _ => ?_)).congr (fun _ es hd => ?_)).mono ?_
  · simp [-String.reduceToList, hyperlinkLoop, closesAt]
  · cases link with
    | external rid path =>
      simp [-String.reduceToList, String.toList_inj, readHyperlink, hyperlinkAttrs, expectAttrs_cons h1, expectAttrs_dec, expectAttrs_nil,
        attrNamed_cons, attrNamed_nil, usizeFromStr_dec h2, HyperlinkData.reread]
    | anchor a =>
      simp [-String.reduceToList, String.toList_inj, readHyperlink, hyperlinkAttrs, expectAttrs_cons h1, expectAttrs_dec, expectAttrs_nil,
        attrNamed_cons, attrNamed_nil, usizeFromStr_dec h2, HyperlinkData.reread]
  · simp [Hyperlink.addAll]

/-! ## Paragraphs -/

/-- Children added to a paragraph. -/
def Paragraph.addAll (h : Paragraph) (cs : List ParagraphChild) : Paragraph := { h with children := h.children ++ cs }

theorem Paragraph.addAll_nil (r : Paragraph) : r.addAll [] = r := by cases r; simp [Paragraph.addAll]

theorem para_child {α : Type} {n : Str} {as : List (Str × Str)} {body : List Node} {a : α} {F : Readers → List REvent → Read α}
    {mk : α → ParagraphChild} (hr : Returns x F n body a) (p : Paragraph)
    (e : ∀ R es, (paragraphLoop x R).start p (splitQName n) (expectAttrs as) es =
      (F R es).map fun r => p.addChild (mk r)) :
    TakesF x (paragraphLoop x) p [.elem n as body] (p.addAll [mk a]) :=
  TakesF.child ((hr.map (fun r => p.addChild (mk r))).congr (fun _ es _ => e _ _))

theorem para_run {body : List Node} {r : Run} (hr : Returns x (fun R => R.run) c!"w:r" body r) (p : Paragraph) :
    TakesF x (paragraphLoop x) p [.elem c!"w:r" [] body] (p.addAll [.run r]) :=
  para_child (mk := .run) hr p fun R es => by simp [-String.reduceToList, paragraphLoop]

theorem para_comment {n : Nat} (hn : Fits n) (p : Paragraph) :
    TakesF x (paragraphLoop x) p (commentStartNodes n) (p.addAll [.commentStart n (.new n)]) := by
  refine TakesF.leaf' (fun _ es hd => ?_) (fun _ => ?_)
  · simp [-String.reduceToList, paragraphLoop, readCommentId_dec hn, Paragraph.addAll, Paragraph.addChild]
  · simp [-String.reduceToList, paragraphLoop, closesAt]

theorem para_commentEnd {n : Nat} (hn : Fits n) (p : Paragraph) :
    TakesF x (paragraphLoop x) p (commentEndNodes n) (p.addAll [.run {}, .commentEnd n, .run {}]) := by
  have h1 : ∀ d, TakesF x (paragraphLoop x) d (leafN c!"w:commentRangeEnd" [(c!"w:id", dec n)]) (d.addAll [.commentEnd n]) := by
    intro d
    refine TakesF.leaf' (fun _ es hd => ?_) (fun _ => ?_)
    · simp [-String.reduceToList, paragraphLoop, readCommentId_dec hn, Paragraph.addAll, Paragraph.addChild]
    · simp [-String.reduceToList, paragraphLoop, closesAt]
  have := TakesN.append (TakesN.append (para_run returns_runBefore) h1) (para_run (returns_runBehind n)) p
  rw [show p.addAll [.run {}, .commentEnd n, .run {}] = ((p.addAll [.run {}]).addAll [.commentEnd n]).addAll [.run {}] by simp [Paragraph.addAll]]
  exact this

theorem takes_paraChild (c : ParagraphChild) (hc : c.Readable) :
    TakesN x (paragraphLoop x) c.nodes (fun h => h.addAll c.reread) := by
  intro g f g' e h
  cases c with
  | run r =>
    obtain ⟨body, rfl, hr⟩ := returns_run (x := x) r hc e
    exact para_run hr h
  | insert i =>
    obtain ⟨as, body, rfl, hr⟩ := returns_insert (x := x) i hc e
    exact para_child (mk := .insert) hr h fun R es => by simp [-String.reduceToList, paragraphLoop]
  | delete d =>
    obtain ⟨as, body, rfl, hr⟩ := returns_delete (x := x) d hc e
    exact para_child (mk := .delete) hr h fun R es => by simp [-String.reduceToList, paragraphLoop]
  | moveFrom d =>
    obtain ⟨as, body, rfl, hr⟩ := returns_moveFrom (x := x) d hc e
    exact para_child (mk := .moveFrom) hr h fun R es => by simp [-String.reduceToList, paragraphLoop]
  | moveTo d =>
    obtain ⟨as, body, rfl, hr⟩ := returns_moveTo (x := x) d hc e
    exact para_child (mk := .moveTo) hr h fun R es => by simp [-String.reduceToList, paragraphLoop]
  | hyperlink l =>
    obtain ⟨link, history, children⟩ := l
    obtain ⟨as, body, rfl, hr⟩ := returns_hyperlink (x := x) link history children hc e
    exact para_child (mk := .hyperlink) hr h fun R es => by simp [-String.reduceToList, paragraphLoop]
  | bookmarkStart id name =>
    refine TakesN.emit (φ := fun h => h.addAll [.bookmarkStart id (seen name)]) (fun h => ?_) _ _ _ e h
    refine TakesF.leaf' (fun _ es hd => ?_) (fun _ => ?_)
    · simp [-String.reduceToList, paragraphLoop, readBookmarkStart_attrs hc.1 hc.2, Read.map, Read.bind, Paragraph.addAll,
        Paragraph.addChild]
    · simp [-String.reduceToList, paragraphLoop, closesAt]
  | bookmarkEnd id =>
    refine TakesN.emit (φ := fun h => h.addAll [.bookmarkEnd id]) (fun h => ?_) _ _ _ e h
    refine TakesF.leaf' (fun _ es hd => ?_) (fun _ => ?_)
    · simp [-String.reduceToList, paragraphLoop, readBookmarkEnd_attrs hc, Read.map, Read.bind, Paragraph.addAll,
        Paragraph.addChild]
    · simp [-String.reduceToList, paragraphLoop, closesAt]
  | commentStart id c =>
    exact TakesN.emit (φ := fun h => h.addAll [.commentStart id (.new id)]) (fun h => para_comment hc h) _ _ _ e h
  | commentEnd id =>
    exact TakesN.emit (φ := fun h => h.addAll [.run {}, .commentEnd id, .run {}]) (fun h => para_commentEnd hc h) _ _ _ e h
  | pageNum i =>
    obtain ⟨body, rfl, hr⟩ := returns_run (x := x) _ (pageFieldRun_readable (.inl rfl)) e
    exact para_run hr h
  | numPages i =>
    obtain ⟨body, rfl, hr⟩ := returns_run (x := x) _ (pageFieldRun_readable (.inr rfl)) e
    exact para_run hr h
  | sdt d => exact absurd hc id

theorem takes_paraChildren (cs : List ParagraphChild) (h : ∀ c ∈ cs, c.Readable) :
    TakesN x (paragraphLoop x) (eachN ParagraphChild.nodes cs) (fun d => d.addAll (cs.flatMap ParagraphChild.reread)) :=
  .flatMap Paragraph.addAll_nil (fun s l l' => by simp [Paragraph.addAll]) fun c hc => takes_paraChild c (h c hc)

theorem ParagraphProperty.reread_base (p : ParagraphProperty) : p.reread.base = p.base.reread := by
  cases p; rw [ParagraphProperty.reread]

theorem takes_pPr (p : ParagraphProperty) (h : p.Readable) : TakesN x (paragraphLoop x) p.nodes
    (fun q => { q with property := p.reread, hasNumbering := p.base.numberingProperty.isSome }) := by
  intro g f g' e q
  obtain ⟨body, rfl, hr⟩ := returns_paragraphProperty (x := x) p h e
  refine TakesF.child ((hr.caught (g := fun pr es => match pr with
        | some pr => .ok { q with property := pr, hasNumbering := pr.base.numberingProperty.isSome } es
        | none => .ok q es) (fun es => rfl)).congr (fun _ es hd => ?_) |>.mono ?_)
  · simp [-String.reduceToList, paragraphLoop]
    rfl
  · rw [ParagraphProperty.reread_base]; rfl

theorem returns_paragraph (p : Paragraph) (h : p.Readable) {g g' : Gen} {f : List Node} (e : p.nodes g = some (f, g')) :
    ∃ as body, f = [.elem c!"w:p" as body] ∧ Returns x (fun R => readParagraph x R (expectAttrs as)) c!"w:p" body p.reread := by
  obtain ⟨id, children, property, num⟩ := p
  rw [Paragraph.nodes, nodesParagraphChildren_each] at e
  obtain ⟨body, hb, rfl⟩ := elemN_eq e
  obtain ⟨h1, h2, h3⟩ := h
  refine ⟨_, body, rfl, ?_⟩
  have key := ((takes_pPr (x := x) property h2).cat_cons ((takes_paraChildren children h3).cat_cons .cat_nil)) _ _ _ hb { id := seen id }
  refine ((Returns.loop key (n := c!"w:p") (fun _ => ?_)).congr (fun _ es hd => ?_)).mono ?_
  · simp [-String.reduceToList, paragraphLoop, closesAt]
  · simp [-String.reduceToList, String.toList_inj, readParagraph, expectAttrs_cons h1, expectAttrs_nil, attrNamed_cons]
  · simp [Paragraph.addAll, Paragraph.reread]

end Docx
