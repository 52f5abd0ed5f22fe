import Verif.Lemmas.ReadSection
import Verif.Props.C36_RunFormatting

/-!
# Paragraph properties written and read
-/

namespace Docx

open Docx.Xml Docx.Spec

variable {x : ReadEnv}

/-- Paragraph properties as they are read back, without the tracked change: whether the text runs from right
to left and the web page division are not kept, switches that are off are read as not set. -/
def ParagraphBase.reread (p : ParagraphBase) : ParagraphBase where
  runProperty := p.runProperty.reread
  style := p.style.map again
  numberingProperty := p.numberingProperty
  alignment := p.alignment.bind alignmentAgain
  indent := p.indent.map Indent.reread
  lineSpacing := p.lineSpacing.map LineSpacing.reread
  keepNext := onAgain p.keepNext
  keepLines := onAgain p.keepLines
  pageBreakBefore := onAgain p.pageBreakBefore
  widowControl := onAgain p.widowControl
  outlineLvl := p.outlineLvl.map outlineAgain
  sectionProperty := p.sectionProperty.map SectionBase.reread
  tabs := p.tabs.map Tab.reread
  borders := p.borders.map ParagraphBorders.reread
  frameProperty := p.frameProperty.map FrameProperty.reread
  textAlignment := p.textAlignment
  adjustRightInd := p.adjustRightInd
  snapToGrid := p.snapToGrid
  shading := p.shading.map Shading.reread

mutual
/-- Paragraph properties as they are read back. -/
def ParagraphProperty.reread : ParagraphProperty → ParagraphProperty
  | ⟨base, change⟩ => ⟨base.reread, rereadChange change⟩
/-- The recorded change as it is read back. -/
def rereadChange : Option ParagraphPropertyChange → Option ParagraphPropertyChange
  | none => none
  | some c => some c.reread
/-- The recorded change as it is read back. -/
def ParagraphPropertyChange.reread : ParagraphPropertyChange → ParagraphPropertyChange
  | ⟨author, date, property⟩ => ⟨again author, seen date, property.reread⟩
end

/-- Strings that can be written, values in the range of their types, borders and references in their places. -/
def ParagraphBase.Readable (p : ParagraphBase) : Prop :=
  (∀ s ∈ p.strings, (decodeAttr s).isSome) ∧
  (∀ f, p.runProperty.fitText = some f → f.Fits) ∧
  (∀ n, p.numberingProperty = some n → (∀ i, n.id = some i → i < 2 ^ 64) ∧ ∀ l, n.level = some l → l < 2 ^ 64) ∧
  (∀ n, p.outlineLvl = some n → n < 2 ^ 64) ∧
  (∀ i, p.adjustRightInd = some i → -(2 ^ 63) ≤ i ∧ i < 2 ^ 63) ∧
  (∀ b, p.borders = some b → b.Readable) ∧
  ∀ s, p.sectionProperty = some s → s.Readable

mutual
/-- Properties that can be read back. -/
def ParagraphProperty.Readable : ParagraphProperty → Prop
  | ⟨base, change⟩ => base.Readable ∧ changeReadable change
/-- A recorded change that can be read back. -/
def changeReadable : Option ParagraphPropertyChange → Prop
  | none => True
  | some c => c.Readable
/-- A recorded change that can be read back. -/
def ParagraphPropertyChange.Readable : ParagraphPropertyChange → Prop
  | ⟨author, date, property⟩ => (decodeAttr author).isSome ∧ (decodeAttr date).isSome ∧ property.Readable
end

theorem takes_sectPr (o : Option SectionBase) (h : ∀ s, o = some s → s.Readable) :
    TakesN x (paragraphPropertyLoop x) (emitN (optN o SectionBase.nodes))
    (fun p => p.upd fun b => { b with sectionProperty := (o.map SectionBase.reread).or b.sectionProperty }) := by
  refine .opt (fun s e ⟨pb, pc⟩ => ?_) (fun e p => by cases p; simp [e, ParagraphProperty.upd])
  replace h := h s e
  subst e
  obtain ⟨body, e, hr⟩ := returns_section (x := x) s h
  rw [e]
  refine TakesF.child ?_
  refine (hr.caught (g := fun s es => match s with
        | some s => .ok (ParagraphProperty.upd ⟨pb, pc⟩ fun b => { b with sectionProperty := some s }) es
        | none => .ok ⟨pb, pc⟩ es) (fun es => rfl)).congr (fun d es hd => ?_)
  simp [-String.reduceToList, paragraphPropertyLoop]
  rfl

theorem takes_rPr (r : RunProperty) (h : r.Readable) :
    TakesN x (paragraphPropertyLoop x) r.nodes (fun p => p.upd fun b => { b with runProperty := r.reread }) := by
  intro g f g' e ⟨pb, pc⟩
  obtain ⟨body, rfl, hr⟩ := returns_runProperty (x := x) r h e
  refine TakesF.child ?_
  refine (hr.caught (g := fun s es => match s with
        | some s => .ok (ParagraphProperty.setRunProperty ⟨pb, pc⟩ s) es
        | none => .ok ⟨pb, pc⟩ es) (fun es => rfl)).congr (fun d es hd => ?_)
  simp [-String.reduceToList, paragraphPropertyLoop]
  rfl

theorem TakesN.emit_append {σ : Type} {L : Readers → Loop σ} {f f' : List Node} {φ ψ : σ → σ} (h : TakesN x L (emitN f) φ)
    (h' : TakesN x L (emitN f') ψ) : TakesN x L (emitN (f ++ f')) (ψ ∘ φ) :=
  .emit fun s => (h.nodes s).append (h'.nodes (φ s))

mutual
theorem returns_paragraphProperty : ∀ (p : ParagraphProperty) (_ : p.Readable) {g g' : Gen} {f : List Node}
    (_ : p.nodes g = some (f, g')),
    ∃ body, f = [.elem c!"w:pPr" [] body] ∧ Returns x (readParagraphProperty x) c!"w:pPr" body p.reread
  | ⟨base, change⟩, h, g, g', f, e => by
    rw [ParagraphProperty.nodes] at e
    obtain ⟨body, hb, rfl⟩ := elemN_eq e
    refine ⟨body, rfl, ?_⟩
    rw [ParagraphProperty.Readable] at h
    obtain ⟨⟨hs, hf, hn, ho, ha, hbd, hsc⟩, hch⟩ := h
    have m : ∀ s, s ∈ base.strings → (decodeAttr s).isSome := hs
    have h0 : base.runProperty.Readable := ⟨fun s h => m s (by simp [ParagraphBase.strings, h]), hf⟩
    have h1 : OptDecodes base.style := optDecodes_mem m (by simp [ParagraphBase.strings]; grind)
    have h2 : OptDecodes base.alignment := optDecodes_mem m (by simp [ParagraphBase.strings]; grind)
    have h3 : ∀ c, base.frameProperty = some c → ∀ s ∈ c.strings, (decodeAttr s).isSome := fun c e s hs =>
      m s (by simp [ParagraphBase.strings, e, optStrings, hs])
    have h4 : ∀ c, base.shading = some c → ∀ s ∈ c.strings, (decodeAttr s).isSome := fun c e s hs =>
      m s (by simp [ParagraphBase.strings, e, optStrings, hs])
    have kb : TakesN x (paragraphPropertyLoop x) base.nodesBefore _ :=
      (takes_rPr base.runProperty h0).cat_cons <| (takes_pStyle base.style h1).cat_cons <|
      (takes_numPr base.numberingProperty hn).cat_cons <| (takes_framePr base.frameProperty h3).cat_cons <|
      (takes_jc base.alignment h2).cat_cons <| (takes_ind base.indent).cat_cons <|
      (takes_lineSpacing base.lineSpacing).cat_cons <| (takes_outlineLvl base.outlineLvl ho).cat_cons .cat_nil
    have ka : TakesN x (paragraphPropertyLoop x) (emitN base.nodesAfter) _ :=
      (((((((((((takes_pBdr base.borders hbd).emit_append (takes_pShading base.shading h4)).emit_append
        (takes_textAlignment base.textAlignment)).emit_append (takes_adjustRightInd base.adjustRightInd ha)).emit_append
        (takes_snapToGrid base.snapToGrid)).emit_append (takes_keepNext base.keepNext)).emit_append
        (takes_keepLines base.keepLines)).emit_append (takes_pageBreakBefore base.pageBreakBefore)).emit_append
        (takes_bidi base.bidi)).emit_append (takes_widowControl base.widowControl)).emit_append
        (takes_tabs base.tabs)).emit_append (takes_sectPr base.sectionProperty hsc)
    have kc := takes_changeOpt change hch
    have key := kb.cat_cons (kc.cat_cons (ka.cat_cons .cat_nil))
    have hk := key _ _ _ hb {}
    refine Returns.mono (Returns.loop hk (fun d => by simp [-String.reduceToList, paragraphPropertyLoop, closesAt])) ?_
    simp only [Function.comp_apply, id_eq, ParagraphProperty.upd, Option.or_none, List.nil_append,
      ParagraphProperty.reread, ParagraphBase.reread]
theorem takes_changeOpt : ∀ (o : Option ParagraphPropertyChange) (_ : changeReadable o),
    TakesN x (paragraphPropertyLoop x) (nodesChange o) (fun p => ⟨p.base, (rereadChange o).or p.change⟩)
  | none, _ => by
    rw [nodesChange]
    refine TakesN.nil.congr fun ⟨b, c⟩ => by simp [rereadChange]
  | some c, h => by
    rw [nodesChange]
    rw [changeReadable] at h
    have := takes_change c h
    refine this.congr fun ⟨b, _⟩ => by simp [rereadChange]
theorem takes_change : ∀ (c : ParagraphPropertyChange) (_ : c.Readable),
    TakesN x (paragraphPropertyLoop x) c.nodes (fun p => ⟨p.base, some c.reread⟩)
  | ⟨author, date, property⟩, h => by
    rw [ParagraphPropertyChange.Readable] at h
    obtain ⟨ha, hd, hp⟩ := h
    intro g f g' e ⟨pb, pc⟩
    rw [ParagraphPropertyChange.nodes] at e
    simp only [withChangeN] at e
    obtain ⟨inner, hi, rfl⟩ := elemN_eq e
    obtain ⟨body, rfl, hr⟩ := returns_paragraphProperty property hp hi
    refine TakesF.child ?_
    have hm := readChange_attrs (historyIdText (generateId g.change).1) c!"unnamed" c!"1970-01-01T00:00:00Z" ⟨author, date⟩ (decodes_history _)
      (by simpa [Mark.strings] using ⟨ha, hd⟩)
    simp only at hm
    have h1 : TakesF x changeLoop ⟨again author, seen date, {}⟩ [.elem c!"w:pPr" [] body] ⟨again author, seen date, property.reread⟩ := by
      refine TakesF.child ?_
      refine (hr.paragraphProperty.caught (g := fun p es => .ok { (⟨again author, seen date, {}⟩ : ParagraphPropertyChange) with property := p.getD {} } es)
        (fun es => rfl)).congr (fun d es hd => ?_)
      simp [-String.reduceToList, changeLoop]
    refine ((Returns.loop (n := c!"w:pPrChange") h1 (fun d => by simp [-String.reduceToList, changeLoop, closesAt])).caught (g := fun c es => match c with
        | some c => .ok (ParagraphProperty.setChange ⟨pb, pc⟩ c) es
        | none => .ok ⟨pb, pc⟩ es) (fun es => rfl)).congr (fun d es hd => ?_) |>.mono ?_
    · simp only [paragraphPropertyLoop, split_w_pPrChange, el_pPrChange, readParagraphPropertyChange, hm]
      rfl
    · simp [ParagraphProperty.setChange, ParagraphPropertyChange.reread]
end

end Docx
