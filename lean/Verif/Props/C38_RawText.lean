import Verif.Model.Api
import Verif.Props.C01_C04_Escape

/-!
# C38: the raw text of a paragraph

The content of a paragraph is described by the calls that make it; what the paragraph shows is a function of the
calls.
-/

namespace Docx.Props

open Docx

/-- A call that adds to a run. -/
inductive RunPart where
  | text (s : Str) | textWithoutEscape (s : Str) | deleteText (s : Str) | tab | ptab (t : PositionalTab)
  | brk (t : BreakType) | carriageReturn | sym (font char : Str) | image (p : Pic)
  | fieldChar (t : FieldCharType) (dirty : Bool) | instrText (i : InstrText) | tc (t : InstrTC)
  | format (f : RunProperty → RunProperty)

/-- Its effect. -/
def RunPart.apply (r : Run) : RunPart → Run
  | text s => r.addText s
  | textWithoutEscape s => r.addTextWithoutEscape s
  | deleteText s => r.addDeleteText s
  | tab => r.addTab
  | ptab t => r.addPtab t
  | brk t => r.addBreak t
  | carriageReturn => r.addCarriageReturn
  | sym f c => r.addSym f c
  | image p => r.addImage p
  | fieldChar t d => r.addFieldChar t d
  | instrText i => r.addInstrText i
  | tc t => r.addTc t
  | format f => r.format f

/-- What the part shows: text without its line feeds, a tab, or a line break. `e` is applied to text: it is the
identity for what the document shows. -/
def RunPart.shown (e : Str → Str) : RunPart → Str
  | text s => e (s.filter (· ≠ '\n'))
  | textWithoutEscape s => s.filter (· ≠ '\n')
  | tab => ['\t']
  | ptab _ => ['\t']
  | brk _ => ['\n']
  | carriageReturn => ['\n']
  | _ => []

/-- The part does not hold a character that is escaped in XML. -/
def RunPart.plain : RunPart → Prop
  | text s => ∀ c ∈ s, c ≠ '&' ∧ c ≠ '<' ∧ c ≠ '>' ∧ c ≠ '"' ∧ c ≠ '\'' ∧ c ≠ '\r'
  | _ => True

/-- A run, by the calls that make it. -/
abbrev RunScript := List RunPart

/-- The run. -/
def RunScript.run (s : RunScript) : Run := s.foldl RunPart.apply {}

/-- What it shows. -/
def RunScript.shown (e : Str → Str) (s : RunScript) : Str := s.flatMap (RunPart.shown e)

/-- Content of an insertion. -/
inductive InsertPart where
  | run (s : RunScript) | delete (runs : List RunScript) | commentEnd (id : Nat)

/-- A call that adds to a paragraph. -/
inductive ParagraphPart where
  | run (s : RunScript) | unshiftRun (s : RunScript) | insert (parts : List InsertPart)
  | delete (runs : List RunScript) | bookmarkStart (id : Nat) (name : Str) | bookmarkEnd (id : Nat)
  | commentEnd (id : Nat) | wrapByBookmark (id : Nat) (name : Str) | format (f : ParagraphProperty → ParagraphProperty)

/-- A deletion. -/
def deletion (runs : List RunScript) : Delete := { children := runs.map fun s => .run s.run }

/-- The insertion. -/
def insertPart : InsertPart → InsertChild
  | .run s => .run s.run
  | .delete rs => .delete (deletion rs)
  | .commentEnd id => .commentEnd id

/-- The effect of a call. -/
def ParagraphPart.apply (p : Paragraph) : ParagraphPart → Paragraph
  | run s => p.addRun s.run
  | unshiftRun s => p.unshiftRun s.run
  | insert parts => p.addChild (.insert { children := parts.map insertPart })
  | delete rs => p.addChild (.delete (deletion rs))
  | bookmarkStart i n => p.addChild (.bookmarkStart i n)
  | bookmarkEnd i => p.addChild (.bookmarkEnd i)
  | commentEnd i => p.addChild (.commentEnd i)
  | wrapByBookmark i n => p.wrapByBookmark i n
  | format f => p.format f

/-- What an insertion shows: its runs, and nothing that is deleted again. -/
def InsertPart.shown (e : Str → Str) : InsertPart → Str
  | .run s => s.shown e
  | _ => []

/-- What the paragraph shows after a call, given what it showed before. -/
def ParagraphPart.show (e : Str → Str) (before : Str) : ParagraphPart → Str
  | run s => before ++ s.shown e
  | unshiftRun s => s.shown e ++ before
  | insert parts => before ++ parts.flatMap (InsertPart.shown e)
  | _ => before

/-- The runs of a call. -/
def ParagraphPart.runs : ParagraphPart → List RunScript
  | run s => [s]
  | unshiftRun s => [s]
  | insert parts => parts.flatMap fun | .run s => [s] | _ => []
  | _ => []

/-- The paragraph made by calls. -/
def paragraphOf (id : Str) (parts : List ParagraphPart) : Paragraph := parts.foldl ParagraphPart.apply (.new id)

/-- The text of the paragraph as a reader of the document sees it. -/
def shownText (parts : List ParagraphPart) : Str := parts.foldl (ParagraphPart.show id) []

/-- The same with every text escaped. -/
def escapedText (parts : List ParagraphPart) : Str := parts.foldl (ParagraphPart.show escapeOwned) []

theorem RunPart.rawText_apply (r : Run) (x : RunPart) :
    (x.apply r).children.flatMap RunChild.rawText = r.children.flatMap RunChild.rawText ++ x.shown escapeOwned := by
  cases x with
  | text s => simp [RunPart.apply, Run.addText, RunChild.rawText, RunPart.shown, dropLineFeeds]
  | textWithoutEscape s => simp [RunPart.apply, Run.addTextWithoutEscape, RunChild.rawText, RunPart.shown, dropLineFeeds]
  | tc t => simp [RunPart.apply, Run.addTc, Run.addFieldChar, Run.addInstrText, RunChild.rawText, RunPart.shown]
  | deleteText s => simp [RunPart.apply, Run.addDeleteText, RunChild.rawText, RunPart.shown]
  | tab => simp [RunPart.apply, Run.addTab, RunChild.rawText, RunPart.shown]
  | ptab t => simp [RunPart.apply, Run.addPtab, RunChild.rawText, RunPart.shown]
  | brk t => simp [RunPart.apply, Run.addBreak, RunChild.rawText, RunPart.shown]
  | carriageReturn => simp [RunPart.apply, Run.addCarriageReturn, RunChild.rawText, RunPart.shown]
  | sym f c => simp [RunPart.apply, Run.addSym, RunChild.rawText, RunPart.shown]
  | image p => simp [RunPart.apply, Run.addImage, RunChild.rawText, RunPart.shown]
  | fieldChar t d => simp [RunPart.apply, Run.addFieldChar, RunChild.rawText, RunPart.shown]
  | instrText i => simp [RunPart.apply, Run.addInstrText, RunChild.rawText, RunPart.shown]
  | format f => simp [RunPart.apply, Run.format, RunPart.shown]

theorem RunScript.rawText (s : RunScript) : s.run.children.flatMap RunChild.rawText = s.shown escapeOwned := by
  have key : ∀ (s : RunScript) (r : Run), (s.foldl RunPart.apply r).children.flatMap RunChild.rawText =
        r.children.flatMap RunChild.rawText ++ s.shown escapeOwned := by
    intro s
    induction s with
    | nil => intro r; simp [RunScript.shown]
    | cons x s ih =>
      intro r
      rw [List.foldl_cons, ih, RunPart.rawText_apply]
      simp [RunScript.shown]
  have := key s {}
  simpa [RunScript.run] using this

theorem insert_rawText (parts : List InsertPart) :
    ParagraphChild.rawText (.insert { children := parts.map insertPart }) = parts.flatMap (InsertPart.shown escapeOwned) := by
  unfold ParagraphChild.rawText
  simp only
  induction parts with
  | nil => rfl
  | cons a parts ih =>
    rw [List.map_cons, List.flatMap_cons, List.flatMap_cons, ih]
    congr 1
    cases a with
    | run s => exact RunScript.rawText s
    | delete rs => rfl
    | commentEnd i => rfl

/-- **C38.** For every history of calls that make a paragraph, the raw text is what the paragraph shows, each
text with XML escapes: the text of its plain and inserted runs in order, with tabs and breaks, and nothing that is
deleted. -/
theorem C38_raw_text (id : Str) (parts : List ParagraphPart) :
    (paragraphOf id parts).rawText = escapedText parts := by
  have key : ∀ (parts : List ParagraphPart) (p : Paragraph) (v : Str), p.rawText = v →
      (parts.foldl ParagraphPart.apply p).rawText = parts.foldl (ParagraphPart.show escapeOwned) v := by
    intro parts
    induction parts with
    | nil => intro p v hv; exact hv
    | cons a parts ih =>
      intro p v hv
      rw [List.foldl_cons, List.foldl_cons]
      refine ih _ _ ?_
      subst hv
      cases a with
      | run s =>
        simp [ParagraphPart.apply, ParagraphPart.show, Paragraph.addRun, Paragraph.addChild, Paragraph.rawText,
          ParagraphChild.rawText, RunScript.rawText s]
      | unshiftRun s =>
        simp [ParagraphPart.apply, ParagraphPart.show, Paragraph.unshiftRun, Paragraph.rawText,
          ParagraphChild.rawText, RunScript.rawText s]
      | insert ps =>
        simp only [ParagraphPart.apply, ParagraphPart.show, Paragraph.addChild, Paragraph.rawText,
          List.flatMap_append, List.flatMap_cons, List.flatMap_nil, List.append_nil, insert_rawText ps]
      | _ =>
        simp [ParagraphPart.apply, ParagraphPart.show, Paragraph.addChild, Paragraph.wrapByBookmark, Paragraph.format,
          Paragraph.rawText, ParagraphChild.rawText]
  exact key parts _ _ rfl

theorem RunScript.shown_congr (s : RunScript) (h : ∀ x ∈ s, RunPart.plain x) : s.shown escapeOwned = s.shown id := by
  unfold RunScript.shown
  induction s with
  | nil => rfl
  | cons x s ih =>
    rw [List.flatMap_cons, List.flatMap_cons, ih fun y hy => h y (.tail _ hy)]
    congr 1
    cases x with
    | text t =>
      have ht : RunPart.plain (.text t) := h _ (.head _)
      show escapeOwned (t.filter _) = t.filter _
      unfold escapeOwned
      rw [if_neg]
      simp only [List.any_eq_true, not_exists, not_and, Bool.not_eq_true]
      intro c hc
      rw [List.mem_filter] at hc
      obtain ⟨h1, h2, h3, h4, h5, h6⟩ := ht c hc.1
      have h7 : c ≠ '\n' := by simpa using hc.2
      simp [needsEscape, h1, h2, h3, h4, h5, h6, h7]
    | _ => rfl

/-- **C38.** If no text holds a character that is escaped in XML, the raw text is what the paragraph shows.
Without the condition it is false: see `C38_fails`. -/
theorem C38_visible_partial (id' : Str) (parts : List ParagraphPart)
    (h : ∀ part ∈ parts, ∀ s ∈ part.runs, ∀ x ∈ s, RunPart.plain x) :
    (paragraphOf id' parts).rawText = shownText parts := by
  rw [C38_raw_text]
  unfold escapedText shownText
  generalize ([] : Str) = v
  induction parts generalizing v with
  | nil => rfl
  | cons a parts ih =>
    rw [List.foldl_cons, List.foldl_cons, ih fun part hp => h part (.tail _ hp)]
    congr 1
    have ha := h a (.head _)
    cases a with
    | run s => simp only [ParagraphPart.show, RunScript.shown_congr s (ha s (by simp [ParagraphPart.runs]))]
    | unshiftRun s => simp only [ParagraphPart.show, RunScript.shown_congr s (ha s (by simp [ParagraphPart.runs]))]
    | insert ps =>
      simp only [ParagraphPart.show]
      congr 1
      clear h ih
      induction ps with
      | nil => rfl
      | cons b ps ih =>
        rw [List.flatMap_cons, List.flatMap_cons, ih]
        · congr 1
          cases b with
          | run s => exact RunScript.shown_congr s (ha s (by simp [ParagraphPart.runs]))
          | _ => rfl
        · intro s hs
          refine ha s ?_
          simp only [ParagraphPart.runs, List.flatMap_cons, List.mem_append] at hs ⊢
          exact .inr hs
    | _ => rfl

/-- **C38, a disagreement.** Text with a character that is escaped in XML comes back escaped, although the
document shows it as given. -/
theorem C38_fails : (paragraphOf c!"1" [.run [.text c!"Q & A"]]).rawText = c!"Q &amp; A" ∧
    shownText [.run [.text c!"Q & A"]] = c!"Q & A" := by decide

/-- **C38, a disagreement.** Tabs and breaks in moved-to content are left out, and so is text in hyperlinks. -/
theorem C38_moved_and_linked :
    (((Paragraph.new c!"1").addChild (.moveTo { children := [.run (RunScript.run [.text c!"a", .tab, .text c!"b"])] })).addChild
      (.hyperlink (((Hyperlink.new 1 c!"http://x" .external)).addChild (.run (RunScript.run [.text c!"link"]))))).rawText =
    c!"ab" := by decide

/-! A non-trivial paragraph. -/

/-- Calls that make a paragraph with plain, inserted and deleted text. -/
def exampleParts : List ParagraphPart :=
  [.run [.text c!"one", .tab, .format RunProperty.setBold], .delete [[.deleteText c!"gone"]],
   .insert [.run [.text c!"t\nwo", .brk .textWrapping], .delete [[.deleteText c!"lost"]]], .wrapByBookmark 3 c!"b",
   .unshiftRun [.text c!"zero "]]

example : shownText exampleParts = c!"zero one\ttwo\n" := by decide
example : (paragraphOf c!"1" exampleParts).rawText = c!"zero one\ttwo\n" := by decide
example : ∀ part ∈ exampleParts, ∀ s ∈ part.runs, ∀ x ∈ s, RunPart.plain x := by
  intro part hp
  simp only [exampleParts, List.mem_cons, List.not_mem_nil, or_false] at hp
  rcases hp with rfl | rfl | rfl | rfl | rfl <;> simp [ParagraphPart.runs, RunPart.plain]

end Docx.Props
