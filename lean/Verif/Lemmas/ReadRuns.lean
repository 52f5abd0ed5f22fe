import Verif.Lemmas.ReadPictures

/-!
# Runs written and read
-/

namespace Docx

open Docx.Xml Docx.Spec

variable {x : ReadEnv} {σ : Type}

/-! ## Texts in several pieces -/

/-- Character data in one piece. -/
def gathered (u : Str) : Option Str := if u = [] then none else some u

theorem expect_pieces (stk : List Str) (r : List Tag) : ∀ (ts ds : List Str) (acc : Str), ts.map decodeText = ds.map some →
    expect stk (gathered acc) (tagsForest (ts.map .text) ++ r) = expect stk (gathered (acc ++ ds.flatten)) r
  | [], [], acc, _ => by simp
  | [], _ :: _, _, h => by simp at h
  | _ :: _, [], _, h => by simp at h
  | t :: ts, d :: ds, acc, h => by
    simp only [List.map_cons, List.cons.injEq] at h
    have ih := expect_pieces stk r ts ds (acc ++ d) h.2
    rw [List.append_assoc] at ih
    rw [List.map_cons, tagsForest, List.flatten_cons, ← ih]
    simp only [Node.tags, List.cons_append, List.nil_append, expect, h.1]
    cases d with
    | nil => simp
    | cons c d =>
      have e : (gathered acc).getD [] = acc := by
        unfold gathered
        split <;> simp_all
      rw [e]
      simp [gathered]

/-- An element with character data in pieces. -/
theorem TakesF.pieces {L : Readers → Loop σ} {s s₁ s₂ s' : σ} {n u : Str} {ts ds : List Str} {as : List (Str × Str)}
    (ht : ts.map decodeText = ds.map some) (hu : ds.flatten = u)
    (h₁ : ∀ d es, 1 ≤ d → (L (readers x d)).start s (splitQName n) (expectAttrs as) es = .ok s₁ es)
    (h₂ : ∀ d, s₂ = if u = [] then s₁ else
      (L (readers x d)).text s₁ (decide (∀ c ∈ u, c = ' ' ∨ c = '\t' ∨ c = '\n' ∨ c = '\r')) u)
    (h₃ : ∀ d, (L (readers x d)).close s₂ (splitQName n) = some s') :
    TakesF x L s [.elem n as (ts.map .text)] s' := by
  intro stk r res hr
  rw [expect_elem]
  refine runs_start ⟨1, fun d hd => h₁ d _ hd⟩ ?_
  have e := expect_pieces (n :: stk) (.cls :: r) ts ds [] ht
  rw [show gathered [] = none from rfl] at e
  rw [e, List.nil_append, hu, expect]
  refine runs_text s₂ (fun d => ?_) (runs_end h₃ hr)
  have := h₂ d
  unfold gathered
  split
  · rename_i hu; split at hu <;> simp_all
  · rename_i hu; split at hu <;> simp_all

/-! ## What is read back -/

/-- White space only. -/
def Blank (u : Str) : Prop := ∀ c ∈ u, c = ' ' ∨ c = '\t' ∨ c = '\n' ∨ c = '\r'
instance (u : Str) : Decidable (Blank u) := by unfold Blank; infer_instance

/-- The character data a reader gets for a written text. -/
def decoded (t : Str) : Str := (decodeText t).getD []

theorem decodeText_decoded {t : Str} (h : (decodeText t).isSome) : decodeText t = some (decoded t) := by
  obtain ⟨u, hu⟩ := Option.isSome_iff_exists.1 h
  simp [decoded, hu]

/-- A text read back: references are decoded once more, line feeds are left out. Nothing is read for an empty text. -/
def textAgain (t : Str) : List Str := if decoded t = [] then [] else [dropLineFeeds (replaceEscaped (decoded t))]

/-- The pieces in which an instruction is written. -/
def InstrText.pieces : InstrText → List Str
  | .toc t => [t.text]
  | .tc t => [t.instr]
  | .pageRef p => [c!"PAGEREF ", p.pageRef] ++ (if p.relativePosition then [c!" \\p"] else [])
      ++ (if p.hyperlink then [c!" \\h"] else [])
  | .page => [c!"PAGE"]
  | .numPages => [c!"NUMPAGES"]
  | .hyperlink _ => []
  | .unsupported s => [s]

/-- The pieces in which a deleted instruction is written. -/
def DeleteInstrText.pieces : DeleteInstrText → List Str
  | .toc t => [t.text]
  | .tc t => [t.instr]
  | .pageRef p => [c!"PAGEREF ", p.pageRef] ++ (if p.relativePosition then [c!" \\p"] else [])
      ++ (if p.hyperlink then [c!" \\h"] else [])
  | .hyperlink _ => []
  | .unsupported s => [s]

/-- What is read back for a child of a run. -/
def RunChild.reread : RunChild → List RunChild
  | .text t => (textAgain t).map .text
  | .deleteText t => (textAgain t).map .deleteText
  | .sym font char => [.sym (seen font) (seen char)]
  | .tab => [.tab]
  | .ptab t => [.ptab t.reread]
  | .brk t => [.brk t]
  | .carriageReturn => [.carriageReturn]
  | .fieldChar t dirty => [.fieldChar t dirty]
  | .instrText i => [.instrTextString (i.pieces.map decoded).flatten]
  | .instrTextString s => [.instrTextString (decoded (escape s))]
  | .picture p => [.picture p.reread]
  | _ => []

/-- An instruction in these pieces is read as one text. -/
def ReadablePieces (ts : List Str) : Prop := (∀ t ∈ ts, (decodeText t).isSome) ∧ ¬ Blank (ts.map decoded).flatten

/-- What can be read back inside a run: not the end of a comment (it is written as runs inside the run), not what makes
writing panic. -/
def RunChild.Readable : RunChild → Prop
  | .text t => (decodeText t).isSome
  | .deleteText t => (decodeText t).isSome
  | .sym font char => (decodeAttr font).isSome ∧ (decodeAttr char).isSome
  | .instrText i => ReadablePieces i.pieces
  | .instrTextString s => ReadablePieces [escape s]
  | .deleteInstrText i => ∀ t ∈ i.pieces, (decodeText t).isSome
  | .picture _ => True
  | .textBox _ => False
  | .emptyDrawing => False
  | .shape _ => False
  | .commentEnd _ => False
  | .tab => True
  | .ptab _ => True
  | .brk _ => True
  | .carriageReturn => True
  | .commentStart _ _ => True
  | .fieldChar _ _ => True
  | .footnoteReference _ _ _ => True
  | .shading _ => True

/-- A run read back. -/
def Run.reread (r : Run) : Run := ⟨r.property.reread, r.children.flatMap RunChild.reread⟩

/-- A run that can be read back. -/
def Run.Readable (r : Run) : Prop := r.property.Readable ∧ ∀ c ∈ r.children, c.Readable

/-! ## The loop over a run -/

/-- The loop passes what is written, outside texts. -/
def TakesR (x : ReadEnv) (b : N) (φ : Run → Run) : Prop :=
  ∀ g f g', b g = some (f, g') → ∀ r, TakesF x (runLoop x) (r, .idle) f (φ r, .idle)

theorem TakesR.emit {f : List Node} {φ : Run → Run} (h : ∀ r, TakesF x (runLoop x) (r, .idle) f (φ r, .idle)) :
    TakesR x (emitN f) φ := by
  intro g f' g' e s
  simp only [emitN, Option.some.injEq, Prod.mk.injEq] at e
  exact e.1 ▸ h s

theorem TakesR.congr {b : N} {φ ψ : Run → Run} (h : TakesR x b φ) (e : ∀ s, φ s = ψ s) : TakesR x b ψ :=
  fun g f g' hb s => e s ▸ h g f g' hb s

theorem TakesR.then {a b : N} {φ ψ : Run → Run} (ha : TakesR x a φ) (hb : TakesR x b ψ) :
    TakesR x (a.thenN b) (ψ ∘ φ) := by
  intro g f g' e s
  obtain ⟨f₁, g₁, f₂, h₁, h₂, rfl⟩ := thenN_eq e
  exact (ha _ _ _ h₁ s).append (hb _ _ _ h₂ (φ s))

/-- Children added to a run. -/
def Run.addAll (r : Run) (cs : List RunChild) : Run := { r with children := r.children ++ cs }

/-- An empty element in a run. -/
macro "run_leaf" "[" ls:Lean.Parser.Tactic.simpLemma,* "]" : tactic => `(tactic|
  (refine TakesF.leaf' (fun d es hd => ?_) (fun d => ?_)
   · simp [-String.reduceToList, String.toList_inj, runLoop, ignoreElement, Read.bind, Read.map, expectAttrs_nil, attrFirst,
       attrNamed_cons, attrNamed_nil, orErr, Run.addAll, $ls,*]
   · simp [-String.reduceToList, String.toList_inj, runLoop, closesAt]))

theorem runLoop_text (R : Readers) (r : Run) (b : Bool) (t : Str) :
    (runLoop x R).text (r, .text) b t = (r.addTextWithoutEscape (replaceEscaped t), .text) := rfl
theorem runLoop_delete (R : Readers) (r : Run) (b : Bool) (t : Str) :
    (runLoop x R).text (r, .delete) b t = (r.addDeleteTextWithoutEscape (replaceEscaped t), .delete) := rfl
theorem runLoop_instr (R : Readers) (r : Run) (s : TextState) (t : Str) :
    (runLoop x R).text (r, .instr s) false t = ({ r with children := r.children ++ [.instrTextString t] }, s) := rfl
theorem runLoop_idle (R : Readers) (r : Run) (b : Bool) (t : Str) : (runLoop x R).text (r, .idle) b t = (r, .idle) := rfl

theorem Run.addAll_nil (r : Run) : r.addAll [] = r := by cases r; simp [Run.addAll]

theorem takes_sym (font char : Str) (h1 : (decodeAttr font).isSome) (h2 : (decodeAttr char).isSome) :
    TakesR x (emitN (leafN c!"w:sym" [(c!"w:font", font), (c!"w:char", char)])) (fun r => r.addAll [.sym (seen font) (seen char)]) := by
  refine .emit fun r => ?_
  run_leaf [expectAttrs_cons h1, expectAttrs_cons h2, Run.addSym]

theorem takes_tab : TakesR x (emitN (leafN c!"w:tab")) (fun r => r.addAll [.tab]) := by
  refine .emit fun r => ?_
  run_leaf [Run.addTab]

theorem takes_cr : TakesR x (emitN (leafN c!"w:cr")) (fun r => r.addAll [.carriageReturn]) := by
  refine .emit fun r => ?_
  run_leaf [Run.addCarriageReturn]

theorem takes_brk (t : BreakType) : TakesR x (emitN (leafN c!"w:br" [(c!"w:type", t.toStr)])) (fun r => r.addAll [.brk t]) := by
  refine .emit fun r => ?_
  have ht : decodeAttr t.toStr = some t.toStr := by cases t <;> decide +kernel
  run_leaf [expectAttrs_lit _ _ ht, Props.C31_BreakType, Run.addBreak]

theorem takes_fieldChar (t : FieldCharType) (dirty : Bool) :
    TakesR x (emitN (leafN c!"w:fldChar" [(c!"w:fldCharType", t.toStr), (c!"w:dirty", boolText dirty)]))
      (fun r => r.addAll [.fieldChar t dirty]) := by
  refine .emit fun r => ?_
  have ht : decodeAttr t.toStr = some t.toStr := by cases t <;> decide +kernel
  have hb : decodeAttr (boolText dirty) = some (boolText dirty) := by cases dirty <;> decide +kernel
  have hf : isFalse (boolText dirty) = !dirty := by cases dirty <;> decide +kernel
  run_leaf [expectAttrs_lit _ _ ht, expectAttrs_lit _ _ hb, readFieldChar, Props.C31_FieldCharType, hf, Run.addFieldChar]

theorem takes_runShading (s : Shading) : TakesR x (emitN s.nodes) (fun r => r.addAll []) := by
  refine .emit fun r => ?_
  simp only [Run.addAll_nil]
  run_leaf []

theorem takes_footnoteReference (i : Nat) :
    TakesR x (emitN (leafN c!"w:footnoteReference" [(c!"w:id", dec i)])) (fun r => r.addAll []) := by
  refine .emit fun r => ?_
  simp only [Run.addAll_nil]
  run_leaf []

theorem takes_runCommentStart (i : Nat) : TakesR x (emitN (commentStartNodes i)) (fun r => r.addAll []) := by
  refine .emit fun r => ?_
  simp only [Run.addAll_nil]
  run_leaf []

theorem takes_runPtab (t : PositionalTab) : TakesR x (emitN t.nodes) (fun r => r.addAll [.ptab t.reread]) := by
  refine .emit fun r => ?_
  have := returns_ptab (x := x) t
  refine TakesF.child ((this.caught (g := fun t es => match t with
          | some t => .ok (r.addPtab t, .idle) es
          | none => .ok (r, .idle) es) (fun es => rfl)).congr (fun d es hd => ?_))
  simp [-String.reduceToList, runLoop, ignoreElement, Read.bind]
  rfl

theorem takes_wt (t : Str) (h : (decodeText t).isSome) :
    TakesR x (emitN [.elem c!"w:t" [(c!"xml:space", c!"preserve")] [.text t]]) (fun r => r.addAll ((textAgain t).map .text)) := by
  refine .emit fun r => ?_
  refine TakesF.text (s₁ := (r, .text)) (s₂ := (r.addAll ((textAgain t).map .text), .text)) (decodeText_decoded h) (fun d es hd => ?_) (fun d => ?_) (fun d => ?_)
  · simp [-String.reduceToList, String.toList_inj, runLoop, ignoreElement, Read.bind]
  · by_cases he : decoded t = []
    · rw [if_pos he, textAgain, if_pos he, List.map_nil, Run.addAll_nil]
    · rw [if_neg he, runLoop_text, textAgain, if_neg he]; rfl
  · simp [-String.reduceToList, String.toList_inj, runLoop, closesAt]

theorem takes_wdelText (t : Str) (h : (decodeText t).isSome) :
    TakesR x (emitN [.elem c!"w:delText" [(c!"xml:space", c!"preserve")] [.text t]])
      (fun r => r.addAll ((textAgain t).map .deleteText)) := by
  refine .emit fun r => ?_
  refine TakesF.text (s₁ := (r, .delete)) (s₂ := (r.addAll ((textAgain t).map .deleteText), .delete)) (decodeText_decoded h) (fun d es hd => ?_) (fun d => ?_) (fun d => ?_)
  · simp [-String.reduceToList, String.toList_inj, runLoop, ignoreElement, Read.bind]
  · by_cases he : decoded t = []
    · rw [if_pos he, textAgain, if_pos he, List.map_nil, Run.addAll_nil]
    · rw [if_neg he, runLoop_delete, textAgain, if_neg he]; rfl
  · simp [-String.reduceToList, String.toList_inj, runLoop, closesAt]

theorem map_decoded {ts : List Str} (h : ∀ t ∈ ts, (decodeText t).isSome) :
    ts.map decodeText = (ts.map decoded).map some := by
  rw [List.map_map]
  exact List.map_congr_left fun t ht => decodeText_decoded (h t ht)

theorem takes_winstrText (as : List (Str × Str)) (ts : List Str) (h : ReadablePieces ts) :
    TakesR x (emitN [.elem c!"w:instrText" as (ts.map .text)])
      (fun r => r.addAll [.instrTextString (ts.map decoded).flatten]) := by
  refine .emit fun r => ?_
  have hn : (ts.map decoded).flatten ≠ [] := fun e => h.2 (e ▸ fun c hc => by simp at hc)
  have hb := h.2
  unfold Blank at hb
  refine TakesF.pieces (s₁ := (r, .instr .idle)) (s₂ := (r.addAll [.instrTextString (ts.map decoded).flatten], .idle))
    (map_decoded h.1) rfl (fun d es hd => ?_) (fun d => ?_) (fun d => ?_)
  · simp [-String.reduceToList, String.toList_inj, runLoop, ignoreElement, Read.bind]
  · rw [if_neg hn, decide_eq_false hb]
    rw [runLoop_instr]; rfl
  · simp [-String.reduceToList, String.toList_inj, runLoop, closesAt]

theorem takes_wdelInstrText (ts : List Str) (h : ∀ t ∈ ts, (decodeText t).isSome) :
    TakesR x (emitN [.elem c!"w:delInstrText" [] (ts.map .text)]) (fun r => r.addAll []) := by
  refine .emit fun r => ?_
  refine TakesF.pieces (s₁ := (r, .idle)) (s₂ := (r.addAll [], .idle))
    (map_decoded h) rfl (fun d es hd => ?_) (fun d => ?_) (fun d => ?_)
  · simp [-String.reduceToList, String.toList_inj, runLoop, ignoreElement, Read.bind]
  · rw [Run.addAll_nil, runLoop_idle, ite_self]
  · simp [-String.reduceToList, String.toList_inj, runLoop, closesAt]

theorem InstrText.nodes_pieces (i : InstrText) {g g' : Gen} {f : List Node} (h : i.nodes g = some (f, g')) :
    f = [.elem c!"w:instrText" [] (i.pieces.map .text)] := by
  unfold InstrText.nodes at h
  obtain ⟨body, hb, rfl⟩ := elemN_eq h
  cases i <;> simp [catN, N.thenN, emitN, panicN] at hb <;> obtain ⟨rfl, _⟩ := hb <;>
    simp [InstrText.pieces, InstrPAGEREF.nodes] <;> split <;> split <;> simp

theorem DeleteInstrText.nodes_pieces (i : DeleteInstrText) {g g' : Gen} {f : List Node} (h : i.nodes g = some (f, g')) :
    f = [.elem c!"w:delInstrText" [] (i.pieces.map .text)] := by
  unfold DeleteInstrText.nodes at h
  obtain ⟨body, hb, rfl⟩ := elemN_eq h
  cases i <;> simp [catN, N.thenN, emitN, panicN] at hb <;> obtain ⟨rfl, _⟩ := hb <;>
    simp [DeleteInstrText.pieces, InstrPAGEREF.nodes] <;> split <;> split <;> simp

theorem takes_picture (p : Pic) :
    TakesR x (emitN (drawingNodes p)) (fun r => r.addAll [.picture p.reread]) := by
  refine .emit fun r => ?_
  rw [drawingNodes_eq]
  refine TakesF.child (((returns_drawing (x := x) p).caught (g := fun c es => match c with
          | some c => .ok ({ r with children := r.children ++ [c] }, .idle) es
          | none => .ok (r, .idle) es) (fun es => rfl)).congr (fun d es hd => ?_))
  simp [-String.reduceToList, runLoop, ignoreElement, Read.bind]
  rfl

theorem takes_runChild (c : RunChild) (h : c.Readable) : TakesR x c.nodes (fun r => r.addAll c.reread) := by
  cases c with
  | text t => exact takes_wt t h
  | sym f c => exact takes_sym f c h.1 h.2
  | deleteText t => exact takes_wdelText t h
  | tab => exact takes_tab
  | ptab t => exact takes_runPtab t
  | brk t => exact takes_brk t
  | carriageReturn => exact takes_cr
  | picture p => exact takes_picture p
  | textBox b => exact absurd h id
  | emptyDrawing => exact absurd h id
  | shape s => exact absurd h id
  | commentStart i c => exact takes_runCommentStart i
  | commentEnd i => exact absurd h id
  | fieldChar t d => exact takes_fieldChar t d
  | instrText i =>
    intro g f g' e r
    have hf := i.nodes_pieces e
    subst hf
    exact takes_winstrText (x := x) [] i.pieces h g _ g rfl r
  | deleteInstrText i =>
    intro g f g' e r
    have hf := i.nodes_pieces e
    subst hf
    exact takes_wdelInstrText (x := x) i.pieces h g _ g rfl r
  | instrTextString s =>
    refine (takes_winstrText _ [escape s] h).congr fun r => ?_
    simp [RunChild.reread]
  | footnoteReference i s c => exact takes_footnoteReference i
  | shading s => exact takes_runShading s

theorem takes_runChildren : ∀ cs : List RunChild, (∀ c ∈ cs, c.Readable) →
    TakesR x (eachN RunChild.nodes cs) (fun r => r.addAll (cs.flatMap RunChild.reread))
  | [], _ => TakesR.emit fun r => by simpa [Run.addAll_nil] using TakesF.nil _
  | c :: cs, h => ((takes_runChild c (h c (by simp))).then (takes_runChildren cs fun c hc => h c (by simp [hc]))).congr
      fun r => by simp [Run.addAll]

theorem takes_runProperty (p : RunProperty) (h : p.Readable) : TakesR x p.nodes (fun r => { r with property := p.reread }) := by
  intro g f g' e r
  obtain ⟨body, rfl, hr⟩ := returns_runProperty (x := x) p h e
  refine TakesF.child ((hr.map (fun p => (({ r with property := p } : Run), TextState.idle))).congr (fun d es hd => ?_))
  simp [-String.reduceToList, runLoop, ignoreElement, Read.bind]

/-- A run read back. -/
theorem returns_run (r : Run) (h : r.Readable) {g g' : Gen} {f : List Node} (e : r.nodes g = some (f, g')) :
    ∃ body, f = [.elem c!"w:r" [] body] ∧ Returns x (fun R => R.run) c!"w:r" body r.reread := by
  obtain ⟨body, hb, rfl⟩ := elemN_eq e
  refine ⟨body, rfl, Returns.run ?_⟩
  have key := ((takes_runProperty (x := x) r.property h.1).then ((takes_runChildren r.children h.2).then
    (TakesR.emit (f := []) (φ := id) fun r => .nil _))) _ _ _ hb {}
  refine ((Returns.loop key (n := c!"w:r") (fun d => ?_)).map Prod.fst).mono ?_
  · simp [-String.reduceToList, String.toList_inj, runLoop]
  · simp [Run.reread, Run.addAll]

end Docx
