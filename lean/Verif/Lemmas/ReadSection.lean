import Verif.Lemmas.ReadParaProps

/-!
# Tabs and section properties written and read
-/

namespace Docx

open Docx.Xml Docx.Spec

variable {x : ReadEnv}

/-! ## Tabs -/

/-- A `usize` read through a 32-bit float. -/
def float32Size (n : Nat) : Nat := toUsize (roundInt 24 n)

/-- A tab stop read back. -/
def Tab.reread (t : Tab) : Tab := { t with pos := t.pos.map float32Size }

theorem firstAccepted_optMap {α β : Type} {k : Str} {o : Option α} {t : α → Str} (hd : ∀ a, decodeAttr (t a) = some (t a))
    (as : List (Str × Str)) (name : Str) (f : Str → Option β) :
    firstAccepted (expectAttrs (optAttr k (o.map t) ++ as)) name f =
      if (splitQName k).loc = name then (o.bind fun a => f (t a)).or (firstAccepted (expectAttrs as) name f)
      else firstAccepted (expectAttrs as) name f := by
  cases o with
  | none => simp [optAttr]
  | some a =>
    simp only [Option.map_some, optAttr, List.cons_append, List.nil_append, expectAttrs_lit _ _ (hd a), firstAccepted]
    by_cases h : (splitQName k).loc = name
    · simp only [h, decide_true, List.filter_cons_of_pos, List.findSome?_cons, if_true, Option.bind_some]
      cases f (t a) <;> rfl
    · simp [h]

theorem firstAccepted_nil {β : Type} (name : Str) (f : Str → Option β) : firstAccepted (expectAttrs []) name f = none := rfl

theorem bind_self {α : Type} (o : Option α) (f : α → Option α) (h : ∀ a, f a = some a) : o.bind f = o := by
  cases o <;> simp [h]

theorem returns_tab (t : Tab) :
    Returns x (fun R es => readTab x R.fuel (expectAttrs (optAttr c!"w:val" (t.val.map TabValueType.toStr)
    ++ optAttr c!"w:leader" (t.leader.map TabLeaderType.toStr) ++ optAttr c!"w:pos" (t.pos.map dec))) es) c!"w:tab" [] t.reread := by
  have h1 : ∀ v : TabValueType, decodeAttr v.toStr = some v.toStr := by intro v; cases v <;> decide +kernel
  have h2 : ∀ v : TabLeaderType, decodeAttr v.toStr = some v.toStr := by intro v; cases v <;> decide +kernel
  refine Returns.congr (Returns.loop (L := fun _ => { start := fun s _ _ es => .ok s es, close := closesAt .tab })
    (TakesF.nil (t.reread)) (fun d => by simp [-String.reduceToList, String.toList_inj, closesAt])) (fun d es hd => ?_)
  simp only [readTab, untilEnd]
  rw [← List.append_nil (optAttr _ (t.pos.map _))]
  simp only [List.append_assoc]
  rw [firstAccepted_optMap h1, firstAccepted_optMap h2, firstAccepted_optMap decodeAttr_dec, firstAccepted_nil,
    firstAccepted_optMap h1, firstAccepted_optMap h2, firstAccepted_optMap decodeAttr_dec, firstAccepted_nil,
    firstAccepted_optMap h1, firstAccepted_optMap h2, firstAccepted_optMap decodeAttr_dec, firstAccepted_nil]
  simp only [split_w_val, split_w_leader, split_w_pos]
  have n1 : c!"leader" ≠ c!"val" := by decide +kernel
  have n2 : c!"pos" ≠ c!"val" := by decide +kernel
  have n3 : c!"val" ≠ c!"leader" := by decide +kernel
  have n4 : c!"pos" ≠ c!"leader" := by decide +kernel
  have n5 : c!"val" ≠ c!"pos" := by decide +kernel
  have n6 : c!"leader" ≠ c!"pos" := by decide +kernel
  simp only [if_true, if_neg n1, if_neg n2, if_neg n3, if_neg n4, if_neg n5, if_neg n6, Option.or_none]
  rw [bind_self _ _ Props.C31_TabValueType, bind_self _ _ Props.C31_TabLeaderType]
  have e : (t.pos.bind fun a => parseFloat32 x (dec a)).map toUsize = t.reread.pos := by
    cases t with
    | mk a b c => cases c <;> simp [parseFloat32_dec, Tab.reread, float32Size]
  rw [e]
  simp [Tab.reread]

theorem takes_tabList (ts : List Tab) : ∀ s, TakesF x (fun R => tabsLoop x R.fuel) s (ts.flatMap Tab.nodes) (s ++ ts.map Tab.reread) := by
  induction ts with
  | nil => intro s; simpa using TakesF.nil s
  | cons t ts ih =>
    intro s
    rw [List.flatMap_cons]
    have h1 : TakesF x (fun R => tabsLoop x R.fuel) s (Tab.nodes t) (s ++ [t.reread]) := by
      refine TakesF.child ?_
      refine ((returns_tab t).caught (g := fun t es => .ok (s ++ t.toList) es) (fun es => rfl)).congr (fun d es hd => ?_)
      simp [-String.reduceToList, tabsLoop]
    have := h1.append (ih (s ++ [t.reread]))
    simpa using this

theorem takes_tabs (ts : List Tab) :
    TakesN x (paragraphPropertyLoop x) (emitN (if ts ≠ [] then [.elem c!"w:tabs" [] (ts.flatMap Tab.nodes)] else []))
    (fun p => p.upd fun b => { b with tabs := b.tabs ++ ts.map Tab.reread }) := by
  refine .emit fun ⟨pb, pc⟩ => ?_
  split
  · refine TakesF.child ?_
    refine ((Returns.loop (n := c!"w:tabs") (takes_tabList ts []) (fun d => by
      simp [-String.reduceToList, tabsLoop, closesAt])).caught (g := fun ts es =>
        .ok ((ts.getD []).foldl ParagraphProperty.addTab ⟨pb, pc⟩) es) (fun es => rfl)).congr (fun d es hd => ?_) |>.mono ?_
    · simp [-String.reduceToList, paragraphPropertyLoop]
    · have key : ∀ (l : List Tab) (b : ParagraphBase), l.foldl ParagraphProperty.addTab ⟨b, pc⟩ = ⟨{ b with tabs := b.tabs ++ l }, pc⟩ := by
        intro l
        induction l with
        | nil => intro b; simp
        | cons t l ih => intro b; simp [ParagraphProperty.addTab, ParagraphProperty.upd, ih]
      simp [key, ParagraphProperty.upd]
  · rename_i h
    simp only [ne_eq, Decidable.not_not] at h
    subst h
    simpa [ParagraphProperty.upd] using TakesF.nil _

/-! ## Section properties -/

/-- A page size read back: the orientation is not read. -/
def PageSize.reread (s : PageSize) : PageSize := { w := i32AsU32 (floatI32 s.w), h := i32AsU32 (floatI32 s.h) }

/-- Page margins read back. -/
def PageMargin.reread (m : PageMargin) : PageMargin where
  top := floatI32 m.top
  left := floatI32 m.left
  bottom := floatI32 m.bottom
  right := floatI32 m.right
  header := floatI32 m.header
  footer := floatI32 m.footer
  gutter := floatI32 m.gutter

/-- A document grid read back. -/
def DocGrid.reread (g : DocGrid) : DocGrid where
  gridType := g.gridType
  linePitch := g.linePitch.map float32Size
  charSpace := g.charSpace.map fun i => toIsize (roundInt 24 i)

/-- A reference to a part read back. -/
def PartReference.reread (r : PartReference) : PartReference := ⟨seen r.type, seen r.id⟩

/-- Page numbering read back. -/
def PageNumType.reread (t : PageNumType) : PageNumType := ⟨t.start, t.chapStyle.map seen⟩

/-- Section properties read back: columns, the space between them and the text direction are not read. -/
def SectionBase.reread (p : SectionBase) : SectionBase where
  pageSize := p.pageSize.reread
  pageMargin := p.pageMargin.reread
  titlePg := p.titlePg
  docGrid := p.docGrid.map DocGrid.reread
  headerReference := p.headerReference.map PartReference.reread
  firstHeaderReference := p.firstHeaderReference.map PartReference.reread
  evenHeaderReference := p.evenHeaderReference.map PartReference.reread
  footerReference := p.footerReference.map PartReference.reread
  firstFooterReference := p.firstFooterReference.map PartReference.reread
  evenFooterReference := p.evenFooterReference.map PartReference.reread
  sectionType := p.sectionType
  pageNumType := p.pageNumType.map PageNumType.reread

/-- Strings that can be written, references under their types, numbers in range. -/
def SectionBase.Readable (p : SectionBase) : Prop :=
  (∀ s ∈ p.strings, (decodeAttr s).isSome) ∧
  (∀ r, p.headerReference = some r → r.type = c!"default") ∧
  (∀ r, p.firstHeaderReference = some r → r.type = c!"first") ∧
  (∀ r, p.evenHeaderReference = some r → r.type = c!"even") ∧
  (∀ r, p.footerReference = some r → r.type = c!"default") ∧
  (∀ r, p.firstFooterReference = some r → r.type = c!"first") ∧
  (∀ r, p.evenFooterReference = some r → r.type = c!"even") ∧
  ∀ t, p.pageNumType = some t → ∀ n, t.start = some n → n < 2 ^ 32

theorem parseFloat32_decInt (x : ReadEnv) (i : Int) : parseFloat32 x (decInt i) = some (roundInt 24 i) := by
  simp [parseFloat32, intOf_decInt]

/-- The section loop, whatever the readers. -/
abbrev sectionL (x : ReadEnv) : Readers → Loop SectionBase := fun _ => sectionLoop x

/-- An empty element in the section property loop. -/
macro "sp_leaf" "[" ls:Lean.Parser.Tactic.simpLemma,* "]" : tactic => `(tactic|
  (refine TakesF.leaf' (fun d es hd => ?_) (fun d => ?_)
   · simp [-String.reduceToList, String.toList_inj, sectionLoop, Read.bind, Read.map, expectAttrs_nil, firstValue, attrFirst,
       attrNamed_cons, attrNamed_nil, orErr, $ls,*]
   · simp [-String.reduceToList, String.toList_inj, sectionLoop, closesAt]))

theorem takes_pgSz (p : PageSize) : TakesN x (sectionL x) (emitN p.nodes) (fun s => { s with pageSize := p.reread }) := by
  refine .emit fun s => ?_
  obtain ⟨w, h, o⟩ := p
  have ht : ∀ v : PageOrientationType, decodeAttr v.toStr = some v.toStr := by intro v; cases v <;> decide +kernel
  cases o <;>
    sp_leaf [readPageSize, foldAttrs, expectAttrs_dec, optAttr, valueToDax_dec, PageSize.reread, expectAttrs_lit _ _ (ht _)]

theorem takes_pgMar (p : PageMargin) : TakesN x (sectionL x) (emitN p.nodes) (fun s => { s with pageMargin := p.reread }) := by
  refine .emit fun s => ?_
  sp_leaf [readPageMargin, foldAttrs, expectAttrs_decInt, valueToDax_decInt, PageMargin.reread]

theorem takes_cols (a b : Nat) : TakesN x (sectionL x) (emitN (leafN c!"w:cols" [(c!"w:space", dec a), (c!"w:num", dec b)])) id := by
  refine .emit fun s => ?_
  sp_leaf []

theorem takes_docGrid (o : Option DocGrid) : TakesN x (sectionL x) (emitN (optN o DocGrid.nodes))
    (fun s => { s with docGrid := (o.map DocGrid.reread).or s.docGrid }) := by
  refine .opt (fun g e s => ?_) (fun e s => by simp [e])
  subst e
  obtain ⟨t, l, c⟩ := g
  have ht : ∀ v : DocGridType, decodeAttr v.toStr = some v.toStr := by intro v; cases v <;> decide +kernel
  cases l <;> cases c <;>
    sp_leaf [readDocGrid, foldAttrs, expectAttrs_lit _ _ (ht _), optAttr, expectAttrs_dec, expectAttrs_decInt, Props.C31_DocGridType,
      parseFloat32_dec, parseFloat32_decInt, DocGrid.reread, Read.caught, float32Size]

theorem readPartReference_nodes (r : PartReference) (h : ∀ s ∈ r.strings, (decodeAttr s).isSome) :
    readPartReference (expectAttrs [(c!"w:type", r.type), (c!"r:id", r.id)]) = r.reread := by
  rw [expectAttrs_cons (h _ (by simp [PartReference.strings])), expectAttrs_cons (h _ (by simp [PartReference.strings])), expectAttrs_nil]
  simp [-String.reduceToList, String.toList_inj, readPartReference, PartReference.reread]

theorem decodes_default : seen c!"default" = c!"default" := by decide +kernel
theorem decodes_first : seen c!"first" = c!"first" := by decide +kernel
theorem decodes_even : seen c!"even" = c!"even" := by decide +kernel

theorem takes_reference {L : Readers → Loop SectionBase} {n : Str} (o : Option PartReference) (type : Str)
    (put : Option PartReference → SectionBase → SectionBase)
    (h : ∀ r, o = some r → r.type = type) (hs : ∀ s ∈ optStrings o PartReference.strings, (decodeAttr s).isSome)
    (h1 : ∀ r : PartReference, (∀ s ∈ r.strings, (decodeAttr s).isSome) → r.type = type → ∀ s,
      TakesF x L s (PartReference.nodes n r) (put (some r.reread) s)) (hn : ∀ s, put none s = s) :
    TakesN x L (emitN (optN o (PartReference.nodes n))) (fun s => put (o.map PartReference.reread) s) := by
  refine .opt (fun r e s => ?_) (fun e s => by simp [e, hn])
  subst e
  exact h1 r hs (h r rfl) s

/-- A reference in the section property loop. -/
macro "ref_leaf" "[" ls:Lean.Parser.Tactic.simpLemma,* "]" : tactic => `(tactic|
  (refine TakesF.leaf' (fun d es hd => ?_) (fun d => ?_)
   · simp [-String.reduceToList, String.toList_inj, sectionLoop, $ls,*]
   · simp [-String.reduceToList, String.toList_inj, sectionLoop, closesAt]))

theorem takes_header (o : Option PartReference) (h : ∀ r, o = some r → r.type = c!"default")
    (hs : ∀ s ∈ optStrings o PartReference.strings, (decodeAttr s).isSome) :
    TakesN x (sectionL x) (emitN (optN o (PartReference.nodes c!"w:headerReference")))
      (fun s => { s with headerReference := (o.map PartReference.reread).or s.headerReference }) :=
  takes_reference o _ (fun o s => { s with headerReference := o.or s.headerReference }) h hs
    (fun r hr ht s => by
      obtain ⟨t, i⟩ := r
      simp only at ht
      subst ht
      have hq := readPartReference_nodes _ hr
      simp only at hq
      ref_leaf [hq, PartReference.reread, decodes_default]) (fun s => by simp)

theorem takes_firstHeader (o : Option PartReference) (h : ∀ r, o = some r → r.type = c!"first")
    (hs : ∀ s ∈ optStrings o PartReference.strings, (decodeAttr s).isSome) :
    TakesN x (sectionL x) (emitN (optN o (PartReference.nodes c!"w:headerReference")))
      (fun s => { s with firstHeaderReference := (o.map PartReference.reread).or s.firstHeaderReference }) :=
  takes_reference o _ (fun o s => { s with firstHeaderReference := o.or s.firstHeaderReference }) h hs
    (fun r hr ht s => by
      obtain ⟨t, i⟩ := r
      simp only at ht
      subst ht
      have hq := readPartReference_nodes _ hr
      simp only at hq
      ref_leaf [hq, PartReference.reread, decodes_first]) (fun s => by simp)

theorem takes_evenHeader (o : Option PartReference) (h : ∀ r, o = some r → r.type = c!"even")
    (hs : ∀ s ∈ optStrings o PartReference.strings, (decodeAttr s).isSome) :
    TakesN x (sectionL x) (emitN (optN o (PartReference.nodes c!"w:headerReference")))
      (fun s => { s with evenHeaderReference := (o.map PartReference.reread).or s.evenHeaderReference }) :=
  takes_reference o _ (fun o s => { s with evenHeaderReference := o.or s.evenHeaderReference }) h hs
    (fun r hr ht s => by
      obtain ⟨t, i⟩ := r
      simp only at ht
      subst ht
      have hq := readPartReference_nodes _ hr
      simp only at hq
      ref_leaf [hq, PartReference.reread, decodes_even]) (fun s => by simp)

theorem takes_footer (o : Option PartReference) (h : ∀ r, o = some r → r.type = c!"default")
    (hs : ∀ s ∈ optStrings o PartReference.strings, (decodeAttr s).isSome) :
    TakesN x (sectionL x) (emitN (optN o (PartReference.nodes c!"w:footerReference")))
      (fun s => { s with footerReference := (o.map PartReference.reread).or s.footerReference }) :=
  takes_reference o _ (fun o s => { s with footerReference := o.or s.footerReference }) h hs
    (fun r hr ht s => by
      obtain ⟨t, i⟩ := r
      simp only at ht
      subst ht
      have hq := readPartReference_nodes _ hr
      simp only at hq
      ref_leaf [hq, PartReference.reread, decodes_default]) (fun s => by simp)

theorem takes_firstFooter (o : Option PartReference) (h : ∀ r, o = some r → r.type = c!"first")
    (hs : ∀ s ∈ optStrings o PartReference.strings, (decodeAttr s).isSome) :
    TakesN x (sectionL x) (emitN (optN o (PartReference.nodes c!"w:footerReference")))
      (fun s => { s with firstFooterReference := (o.map PartReference.reread).or s.firstFooterReference }) :=
  takes_reference o _ (fun o s => { s with firstFooterReference := o.or s.firstFooterReference }) h hs
    (fun r hr ht s => by
      obtain ⟨t, i⟩ := r
      simp only at ht
      subst ht
      have hq := readPartReference_nodes _ hr
      simp only at hq
      ref_leaf [hq, PartReference.reread, decodes_first]) (fun s => by simp)

theorem takes_evenFooter (o : Option PartReference) (h : ∀ r, o = some r → r.type = c!"even")
    (hs : ∀ s ∈ optStrings o PartReference.strings, (decodeAttr s).isSome) :
    TakesN x (sectionL x) (emitN (optN o (PartReference.nodes c!"w:footerReference")))
      (fun s => { s with evenFooterReference := (o.map PartReference.reread).or s.evenFooterReference }) :=
  takes_reference o _ (fun o s => { s with evenFooterReference := o.or s.evenFooterReference }) h hs
    (fun r hr ht s => by
      obtain ⟨t, i⟩ := r
      simp only at ht
      subst ht
      have hq := readPartReference_nodes _ hr
      simp only at hq
      ref_leaf [hq, PartReference.reread, decodes_even]) (fun s => by simp)

theorem takes_pgNumType (o : Option PageNumType) (h : ∀ t, o = some t → ∀ n, t.start = some n → n < 2 ^ 32)
    (hs : ∀ t, o = some t → OptDecodes t.chapStyle) : TakesN x (sectionL x) (emitN (optN o PageNumType.nodes))
    (fun s => { s with pageNumType := (o.map PageNumType.reread).or s.pageNumType }) := by
  refine .opt (fun t e s => ?_) (fun e s => by simp [e])
  replace h := h t e
  replace hs := hs t e
  subst e
  obtain ⟨a, c⟩ := t
  cases a with
  | none =>
    cases c with
    | none => sp_leaf [readPageNumType, optAttr, PageNumType.reread]
    | some c => sp_leaf [readPageNumType, optAttr, PageNumType.reread, expectAttrs_cons (hs c rfl)]
  | some a =>
    cases c with
    | none => sp_leaf [readPageNumType, optAttr, PageNumType.reread, expectAttrs_dec, u32FromStr_dec (h a rfl)]
    | some c =>
      sp_leaf [readPageNumType, optAttr, PageNumType.reread, expectAttrs_dec, u32FromStr_dec (h a rfl), expectAttrs_cons (hs c rfl)]

theorem takes_textDirection (t : Str) :
    TakesN x (sectionL x) (emitN (if t ≠ c!"lrTb" then valN c!"w:textDirection" t else [])) id := by
  refine .emit fun s => ?_
  split
  · sp_leaf []
  · exact .nil _

theorem takes_type (o : Option SectionType) : TakesN x (sectionL x) (emitN (optN o fun t => valN c!"w:type" t.toStr))
    (fun s => { s with sectionType := o.or s.sectionType }) := by
  refine .opt (fun t e s => ?_) (fun e s => by simp [e])
  subst e
  have ht : decodeAttr t.toStr = some t.toStr := by cases t <;> decide +kernel
  sp_leaf [expectAttrs_lit _ _ ht, Props.C31_SectionType]

theorem takes_titlePg (b : Bool) : TakesN x (sectionL x) (emitN (if b then leafN c!"w:titlePg" else []))
    (fun s => { s with titlePg := b || s.titlePg }) := by
  refine .emit fun s => ?_
  cases b
  · simpa using TakesF.nil _
  · sp_leaf []

theorem TakesN.nodes {σ : Type} {L : Readers → Loop σ} {f : List Node} {φ : σ → σ} (h : TakesN x L (emitN f) φ) (s : σ) : TakesF x L s f (φ s) :=
  h {} f _ rfl s

theorem returns_section (p : SectionBase) (h : p.Readable) :
    ∃ body, p.nodes = [.elem c!"w:sectPr" [] body] ∧
      Returns x (fun R es => readSection x R.fuel es) c!"w:sectPr" body p.reread := by
  obtain ⟨hs, h1, h2, h3, h4, h5, h6, h7⟩ := h
  refine ⟨_, rfl, ?_⟩
  have m : ∀ (o : Option PartReference), (∀ s ∈ optStrings o PartReference.strings, s ∈ p.strings) →
      ∀ s ∈ optStrings o PartReference.strings, (decodeAttr s).isSome := fun o ho s hm => hs s (ho s hm)
  have hd : ∀ t, p.pageNumType = some t → OptDecodes t.chapStyle := fun t e =>
    optDecodes_mem hs (by
      intro s hm; simp only [SectionBase.strings, List.mem_append]
      have : s ∈ optStrings p.pageNumType PageNumType.strings := by simpa [e, optStrings, PageNumType.strings] using hm
      grind)
  have key := (takes_pgSz (x := x) p.pageSize).nodes {} |>.append <| (takes_pgMar p.pageMargin).nodes _ |>.append <|
    (takes_cols p.space p.columns).nodes _ |>.append <| (takes_docGrid p.docGrid).nodes _ |>.append <|
    (takes_header p.headerReference h1 (m _ (by simp only [SectionBase.strings, List.mem_append]; grind))).nodes _ |>.append <|
    (takes_firstHeader p.firstHeaderReference h2 (m _ (by simp only [SectionBase.strings, List.mem_append]; grind))).nodes _ |>.append <|
    (takes_evenHeader p.evenHeaderReference h3 (m _ (by simp only [SectionBase.strings, List.mem_append]; grind))).nodes _ |>.append <|
    (takes_footer p.footerReference h4 (m _ (by simp only [SectionBase.strings, List.mem_append]; grind))).nodes _ |>.append <|
    (takes_firstFooter p.firstFooterReference h5 (m _ (by simp only [SectionBase.strings, List.mem_append]; grind))).nodes _ |>.append <|
    (takes_evenFooter p.evenFooterReference h6 (m _ (by simp only [SectionBase.strings, List.mem_append]; grind))).nodes _ |>.append <|
    (takes_pgNumType p.pageNumType h7 hd).nodes _ |>.append <| (takes_textDirection p.textDirection).nodes _ |>.append <|
    (takes_type p.sectionType).nodes _ |>.append <| (takes_titlePg p.titlePg).nodes _
  simp only [← List.append_assoc] at key
  refine Returns.mono (Returns.loop key (fun d => by simp [-String.reduceToList, sectionLoop, closesAt])) ?_
  simp [SectionBase.reread]

end Docx
