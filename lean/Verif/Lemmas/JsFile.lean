import Verif.Spec.JsFile
import Verif.Props.C80_JsNumbering
import Verif.Props.C19_Headers
import Verif.Lemmas.LinksAgain

/-!
# What the calls after the content do to a document made in JavaScript
-/

namespace Docx.Spec

open Docx Docx.Xml Docx.Props

variable (lib : ImageLib)

/-- The calls `createDocx` makes besides those for content and parts. -/
def quietCall : Call → Bool
  | .addAbstractNumbering _ | .addNumbering _ | .createdAt _ | .updatedAt _ | .customProperty _ _ | .docId _ | .defaultTabStop _
  | .addDocVar _ _ | .titlePg | .pageSize _ _ | .pageMargin _ | .pageOrient _ | .defaultSize _ | .defaultSpacing _ | .defaultFonts _
  | .defaultLineSpacing _ | .taskpanes | .webExtension _ | .addCustomItem _ _ | .pageNumType _ | .addStyle _ => true
  | _ => false

/-- The same of a call into the bridge. -/
def quietBridge : BridgeCall → Bool
  | .builder c => quietCall c
  | _ => true

/-- What such calls leave alone. -/
structure Kept (d d' : DocxFile) : Prop where
  children : d'.document.children = d.document.children
  parts : ∀ side : Side, side.parts d'.document.sectionProperty = side.parts d.document.sectionProperty
  references : ∀ side : Side, side.references d'.document.sectionProperty.base = side.references d.document.sectionProperty.base
  count : ∀ side, Side.count side d' = Side.count side d
  flag : d'.documentRels.hasNumberings = d.documentRels.hasNumberings
  sound : Sound d → Sound d'

theorem Kept.refl (d : DocxFile) : Kept d d := ⟨rfl, fun _ => rfl, fun _ => rfl, fun _ => rfl, rfl, id⟩

theorem Kept.trans {a b c : DocxFile} (h : Kept a b) (g : Kept b c) : Kept a c :=
  ⟨g.children.trans h.children, fun s => (g.parts s).trans (h.parts s), fun s => (g.references s).trans (h.references s),
    fun s => (g.count s).trans (h.count s), g.flag.trans h.flag, fun x => g.sound (h.sound x)⟩

theorem sound_document {d : DocxFile} (h : Sound d) (x : Document) : Sound { d with document := x } where
  links := h.links
  footnotes := h.footnotes
  custom := h.custom
  props := h.props
  crels := h.crels
  header := h.header
  footer := h.footer
  web := h.web
  sorted := h.sorted
  typed y hy := (h.typed y hy).mono (Nat.le_refl _) (Nat.le_refl _) id (Nat.le_refl _) id

theorem call_kept {d d' : DocxFile} {c : Call} (hq : quietCall c = true) (h : d.call c = some d') : Kept d d' := by
  have hs := fun x : Sound d => Sound.call d c d' x h
  cases c with
  | addCustomItem id xml =>
    simp only [DocxFile.call] at h
    split at h
    · cases h
      exact ⟨rfl, fun _ => rfl, fun _ => rfl, fun s => by cases s <;> rfl, rfl, hs⟩
    · cases h
  | _ =>
    first
    | (exfalso; simp only [quietCall, Bool.false_eq_true] at hq; done)
    | (cases h; exact ⟨rfl, fun s => by cases s <;> rfl, fun s => by cases s <;> rfl, fun s => by cases s <;> rfl, rfl, hs⟩)

theorem bridge_kept {d d' : DocxFile} {c : BridgeCall} (hq : quietBridge c = true) (h : c.run d = some d') : Kept d d' := by
  cases c with
  | builder c => exact call_kept hq h
  | adjustLineHeight =>
    cases h
    exact ⟨rfl, fun _ => rfl, fun _ => rfl, fun s => by cases s <;> rfl, rfl, fun x => Sound.call d (.settings _) _ x rfl⟩
  | characterSpacing v =>
    cases h
    exact ⟨rfl, fun _ => rfl, fun _ => rfl, fun s => by cases s <;> rfl, rfl, fun x => Sound.call d (.settings _) _ x rfl⟩
  | docGrid g =>
    cases h
    exact ⟨rfl, fun s => by cases s <;> rfl, fun s => by cases s <;> rfl, fun s => by cases s <;> rfl, rfl, fun x => sound_document x _⟩

theorem bridges_kept : ∀ (cs : List BridgeCall) {d d' : DocxFile}, (∀ c ∈ cs, quietBridge c = true) → bridgeCalls d cs = some d' → Kept d d'
  | [], d, d', _, h => by cases h; exact .refl d
  | c :: cs, d, d', hq, h => by
    rw [bridgeCalls] at h
    cases e : c.run d with
    | none => rw [e] at h; cases h
    | some x =>
      rw [e] at h
      exact (bridge_kept (hq c (.head _)) e).trans (bridges_kept cs (fun y hy => hq y (.tail _ hy)) h)

theorem callOn_quiet {α : Type} (x : Option α) (f : α → Call) (h : ∀ a, quietCall (f a) = true) : ∀ c ∈ callOn x f, quietBridge c = true := by
  intro c hc
  cases x with
  | none => cases hc
  | some a => rw [List.mem_singleton.1 hc]; exact h a

theorem before_quiet (f : JsFile) : ∀ c ∈ f.before, quietBridge c = true := by
  intro c hc
  simp only [JsFile.before, List.mem_append] at hc
  rcases hc with (((((hc | hc) | hc) | hc) | hc) | hc) | hc
  · obtain ⟨_, _, rfl⟩ := List.mem_map.1 hc; rfl
  · obtain ⟨_, _, rfl⟩ := List.mem_map.1 hc; rfl
  · exact callOn_quiet _ _ (fun _ => rfl) c hc
  · split at hc
    · rw [List.mem_singleton.1 hc]; rfl
    · cases hc
  · obtain ⟨v, hv, rfl⟩ := Option.map_eq_some_iff.1 (Option.mem_toList.1 hc); rfl
  · rw [List.mem_singleton.1 hc]; rfl
  · obtain ⟨_, _, rfl⟩ := List.mem_map.1 hc; rfl

theorem after_quiet (f : JsFile) : ∀ c ∈ f.after, quietBridge c = true := by
  intro c hc
  simp only [JsFile.after, List.mem_append] at hc
  rcases hc with ((((((((((((((((hc | hc) | hc) | hc) | hc) | hc) | hc) | hc) | hc) | hc) | hc) | hc) | hc) | hc) | hc) | hc) | hc)
  · exact callOn_quiet _ _ (fun _ => rfl) c hc
  · rw [List.mem_singleton.1 hc]; rfl
  · exact callOn_quiet _ _ (fun _ => rfl) c hc
  · split at hc
    · rw [List.mem_singleton.1 hc]; rfl
    · cases hc
  · exact callOn_quiet _ _ (fun _ => rfl) c hc
  · obtain ⟨v, hv, rfl⟩ := Option.map_eq_some_iff.1 (Option.mem_toList.1 hc); rfl
  · obtain ⟨_, _, rfl⟩ := List.mem_map.1 hc; rfl
  · exact callOn_quiet _ _ (fun _ => rfl) c hc
  · exact callOn_quiet _ _ (fun _ => rfl) c hc
  · exact callOn_quiet _ _ (fun _ => rfl) c hc
  · exact callOn_quiet _ _ (fun _ => rfl) c hc
  · exact callOn_quiet _ _ (fun _ => rfl) c hc
  · exact callOn_quiet _ _ (fun _ => rfl) c hc
  · obtain ⟨_, _, rfl⟩ := List.mem_map.1 hc; rfl
  · exact callOn_quiet _ _ (fun _ => rfl) c hc
  · split at hc
    · rcases List.mem_cons.1 hc with rfl | hc
      · rfl
      · obtain ⟨_, _, rfl⟩ := List.mem_map.1 hc; rfl
    · cases hc
  · obtain ⟨_, _, rfl⟩ := List.mem_map.1 hc; rfl

/-! ## The parts -/

/-- A part of the Rust library is made from one of JavaScript. -/
inductive PartMade : Option JsPart → Option Header → Prop where
  | none : PartMade none none
  | some (p : JsPart) (n : Ids) : PartMade (some p) (some (jsPartChildren lib {} p.children n).1)

/-- The part made with the counters as they are. -/
def partOf (x : Option JsPart) (n : Ids) : Option Header := x.map fun p => (jsPartChildren lib {} p.children n).1

theorem partOf_made (x : Option JsPart) (n : Ids) : PartMade lib x (partOf lib x n) := by
  cases x with
  | none => exact .none
  | some p => exact .some p n

/-- Parts with their relationship ids, from a number on. -/
def ridden (rid : Nat → Str) : Nat → List (Option Header) → List (Option (Str × Header))
  | _, [] => []
  | k, none :: l => none :: ridden rid k l
  | k, some h :: l => some (rid (k + 1), h) :: ridden rid (k + 1) l

theorem ridden_get (rid : Nat → Str) : ∀ (l : List (Option Header)) (k j : Nat) (x : Str × Header),
    ((ridden rid k l).filterMap id)[j]? = some x → x.1 = rid (k + j + 1)
  | [], k, j, x, h => by simp [ridden] at h
  | none :: l, k, j, x, h => by
    simp only [ridden, List.filterMap_cons_none, id] at h
    exact ridden_get rid l k j x h
  | some y :: l, k, j, x, h => by
    rw [ridden, List.filterMap_cons_some (by rfl : id (some (rid (k + 1), y)) = some (rid (k + 1), y))] at h
    cases j with
    | zero =>
      rw [List.getElem?_cons_zero, Option.some.injEq] at h
      rw [← h]
    | succ j =>
      rw [List.getElem?_cons_succ] at h
      have := ridden_get rid l (k + 1) j x h
      rw [this]
      congr 1
      omega

theorem ridden_length (rid : Nat → Str) : ∀ (l : List (Option Header)) (k : Nat), ((ridden rid k l).filterMap id).length = (l.filterMap id).length
  | [], k => rfl
  | none :: l, k => by simpa [ridden] using ridden_length rid l k
  | some y :: l, k => by simpa [ridden] using ridden_length rid l (k + 1)

theorem ridden_heads (rid : Nat → Str) : ∀ (l : List (Option Header)) (k : Nat), (ridden rid k l).map (Option.map Prod.snd) = l
  | [], k => rfl
  | none :: l, k => by simp [ridden, ridden_heads rid l k]
  | some y :: l, k => by simp [ridden, ridden_heads rid l (k + 1)]

theorem jsPartChildren_flag : ∀ (cs : List JsPartChild) (h : Header) (n : Ids), (jsPartChildren lib h cs n).1.hasNumbering = h.hasNumbering
  | [], h, n => by rw [jsPartChildren]
  | .paragraph p :: cs, h, n => by
    rw [jsPartChildren, jsPartChildren_flag cs]
    simp only [Header.addParagraph, jsParagraph_flag, Bool.or_false]
  | .table t :: cs, h, n => by
    rw [jsPartChildren, jsPartChildren_flag cs]
    simp only [Header.addTable, jsTable_flag, Bool.or_false]

/-- What is known after the parts of one side are set. -/
structure SideSet (side other : Side) (ps : List (Option JsPart)) (d d' : DocxFile) : Prop where
  parts : ∃ hs, List.Forall₂ (PartMade lib) ps hs ∧ side.parts d'.document.sectionProperty = ridden side.rid 0 hs ∧
    Side.count side d' = (hs.filterMap id).length
  other_parts : other.parts d'.document.sectionProperty = other.parts d.document.sectionProperty
  other_count : Side.count other d' = Side.count other d
  children : d'.document.children = d.document.children
  referred : Referred d.document.sectionProperty → Referred d'.document.sectionProperty
  flag : d'.documentRels.hasNumberings = d.documentRels.hasNumberings
  sound : Sound d → Sound d'

theorem headers_set (a b c : Option JsPart) (d : DocxFile) (n : Ids) (h0 : Side.count .header d = 0)
    (hp : Side.parts .header d.document.sectionProperty = [none, none, none]) :
    let x := jsPart lib DocxFile.setHeader a d n
    let y := jsPart lib DocxFile.setFirstHeader b x.1 x.2
    let z := jsPart lib DocxFile.setEvenHeader c y.1 y.2
    SideSet lib .header .footer [a, b, c] d z.1 := by
  have h0' : d.documentRels.headerCount = 0 := h0
  simp only [Side.parts, List.cons.injEq, and_true] at hp
  obtain ⟨p1, p2, p3⟩ := hp
  have hs := fun (d : DocxFile) (h : Header) (x : Sound d) => And.intro (Sound.call d (.header h) _ x rfl)
    (And.intro (Sound.call d (.firstHeader h) _ x rfl) (Sound.call d (.evenHeader h) _ x rfl))
  have hr := fun (p : SectionProperty) (x : Header) (r : Str) (h : Referred p) => referred_set h x r
  have hf := fun (p : JsPart) (n : Ids) => (jsPartChildren_flag lib p.children {} n)
  intro x y z
  refine ⟨?_, ?_, ?_, ?_, ?_, ?_, ?_⟩
  · refine ⟨[partOf lib a n, partOf lib b x.2, partOf lib c y.2],
      .cons (partOf_made lib a n) (.cons (partOf_made lib b _) (.cons (partOf_made lib c _) .nil)), ?_⟩
    cases a <;> cases b <;> cases c <;>
      exact ⟨
        by simp [partOf, x, y, z, jsPart, Side.parts, ridden, p1, p2, p3, DocxFile.setHeader, DocxFile.setFirstHeader, DocxFile.setEvenHeader,
          DocxFile.evenAndOdd, DocxFile.updProperty, DocxFile.countHeader, SectionProperty.setHeader, SectionProperty.setFirstHeader,
          SectionProperty.setEvenHeader, DocxFile.nextHeaderRid, h0', Side.rid],
        by simp [partOf, x, y, z, jsPart, Side.count, DocxFile.setHeader, DocxFile.setFirstHeader, DocxFile.setEvenHeader,
          DocxFile.evenAndOdd, DocxFile.updProperty, DocxFile.countHeader, h0']⟩
  · cases a <;> cases b <;> cases c <;> rfl
  · cases a <;> cases b <;> cases c <;> rfl
  · cases a <;> cases b <;> cases c <;> rfl
  · intro h
    have h1 : Referred x.1.document.sectionProperty := by
      cases a with
      | none => exact h
      | some a => exact (hr _ _ _ h).1
    have h2 : Referred y.1.document.sectionProperty := by
      cases b with
      | none => exact h1
      | some a => exact (hr _ _ _ h1).2.1
    cases c with
    | none => exact h2
    | some a => exact (hr _ _ _ h2).2.2.1
  · have h1 : x.1.documentRels.hasNumberings = d.documentRels.hasNumberings := by
      cases a with
      | none => rfl
      | some a => exact (congrArg (d.documentRels.hasNumberings || ·) (hf a n)).trans (Bool.or_false _)
    have h2 : y.1.documentRels.hasNumberings = x.1.documentRels.hasNumberings := by
      cases b with
      | none => rfl
      | some a => exact (congrArg (x.1.documentRels.hasNumberings || ·) (hf a _)).trans (Bool.or_false _)
    refine Eq.trans ?_ (h2.trans h1)
    cases c with
    | none => rfl
    | some a => exact (congrArg (y.1.documentRels.hasNumberings || ·) (hf a _)).trans (Bool.or_false _)
  · intro h
    have h1 : Sound x.1 := by
      cases a with
      | none => exact h
      | some a => exact (hs _ _ h).1
    have h2 : Sound y.1 := by
      cases b with
      | none => exact h1
      | some a => exact (hs _ _ h1).2.1
    cases c with
    | none => exact h2
    | some a => exact (hs _ _ h2).2.2

theorem footers_set (a b c : Option JsPart) (d : DocxFile) (n : Ids) (h0 : Side.count .footer d = 0)
    (hp : Side.parts .footer d.document.sectionProperty = [none, none, none]) :
    let x := jsPart lib DocxFile.setFooter a d n
    let y := jsPart lib DocxFile.setFirstFooter b x.1 x.2
    let z := jsPart lib DocxFile.setEvenFooter c y.1 y.2
    SideSet lib .footer .header [a, b, c] d z.1 := by
  have h0' : d.documentRels.footerCount = 0 := h0
  simp only [Side.parts, List.cons.injEq, and_true] at hp
  obtain ⟨p1, p2, p3⟩ := hp
  have hs := fun (d : DocxFile) (h : Header) (x : Sound d) => And.intro (Sound.call d (.footer h) _ x rfl)
    (And.intro (Sound.call d (.firstFooter h) _ x rfl) (Sound.call d (.evenFooter h) _ x rfl))
  have hr := fun (p : SectionProperty) (x : Header) (r : Str) (h : Referred p) => referred_set h x r
  have hf := fun (p : JsPart) (n : Ids) => (jsPartChildren_flag lib p.children {} n)
  intro x y z
  refine ⟨?_, ?_, ?_, ?_, ?_, ?_, ?_⟩
  · refine ⟨[partOf lib a n, partOf lib b x.2, partOf lib c y.2],
      .cons (partOf_made lib a n) (.cons (partOf_made lib b _) (.cons (partOf_made lib c _) .nil)), ?_⟩
    cases a <;> cases b <;> cases c <;>
      exact ⟨
        by simp [partOf, x, y, z, jsPart, Side.parts, ridden, p1, p2, p3, DocxFile.setFooter, DocxFile.setFirstFooter, DocxFile.setEvenFooter,
          DocxFile.evenAndOdd, DocxFile.updProperty, DocxFile.countFooter, SectionProperty.setFooter, SectionProperty.setFirstFooter,
          SectionProperty.setEvenFooter, DocxFile.nextFooterRid, h0', Side.rid],
        by simp [partOf, x, y, z, jsPart, Side.count, DocxFile.setFooter, DocxFile.setFirstFooter, DocxFile.setEvenFooter,
          DocxFile.evenAndOdd, DocxFile.updProperty, DocxFile.countFooter, h0']⟩
  · cases a <;> cases b <;> cases c <;> rfl
  · cases a <;> cases b <;> cases c <;> rfl
  · cases a <;> cases b <;> cases c <;> rfl
  · intro h
    have h1 : Referred x.1.document.sectionProperty := by
      cases a with
      | none => exact h
      | some a => exact (hr _ _ _ h).2.2.2.1
    have h2 : Referred y.1.document.sectionProperty := by
      cases b with
      | none => exact h1
      | some a => exact (hr _ _ _ h1).2.2.2.2.1
    cases c with
    | none => exact h2
    | some a => exact (hr _ _ _ h2).2.2.2.2.2
  · have h1 : x.1.documentRels.hasNumberings = d.documentRels.hasNumberings := by
      cases a with
      | none => rfl
      | some a => exact (congrArg (d.documentRels.hasNumberings || ·) (hf a n)).trans (Bool.or_false _)
    have h2 : y.1.documentRels.hasNumberings = x.1.documentRels.hasNumberings := by
      cases b with
      | none => rfl
      | some a => exact (congrArg (x.1.documentRels.hasNumberings || ·) (hf a _)).trans (Bool.or_false _)
    refine Eq.trans ?_ (h2.trans h1)
    cases c with
    | none => rfl
    | some a => exact (congrArg (y.1.documentRels.hasNumberings || ·) (hf a _)).trans (Bool.or_false _)
  · intro h
    have h1 : Sound x.1 := by
      cases a with
      | none => exact h
      | some a => exact (hs _ _ h).1
    have h2 : Sound y.1 := by
      cases b with
      | none => exact h1
      | some a => exact (hs _ _ h1).2.1
    cases c with
    | none => exact h2
    | some a => exact (hs _ _ h2).2.2

/-! ## The document -/

/-- The parts a document in JavaScript has. -/
def Side.slots : Side → JsFile → List (Option JsPart)
  | .header, f => [f.header, f.firstHeader, f.evenHeader]
  | .footer, f => [f.footer, f.firstFooter, f.evenFooter]

/-- What is known of the document that is built. -/
structure FileBuilt (f : JsFile) (n : Ids) (d : DocxFile) : Prop where
  children : d.document.children = (jsItems lib DocxFile.new f.docx.children n).1.document.children
  parts : ∀ side : Side, ∃ hs, List.Forall₂ (PartMade lib) (Side.slots side f) hs ∧
    side.parts d.document.sectionProperty = ridden side.rid 0 hs ∧ Side.count side d = (hs.filterMap id).length
  referred : Referred d.document.sectionProperty
  flag : d.documentRels.hasNumberings = f.docx.hasNumberings
  sound : Sound d

theorem jsItems_counts : ∀ (cs : List JsChild) (d : DocxFile) (n : Ids) (side : Side),
    Side.count side (jsItems lib d cs n).1 = Side.count side d
  | [], d, n, side => by rw [jsItems]
  | c :: cs, d, n, side => by
    rw [jsItems, jsItems_counts cs]
    cases c <;> cases side <;> rfl

theorem jsItems_sound (cs : List JsChild) (n : Ids) : Sound (jsItems lib DocxFile.new cs n).1 := by
  obtain ⟨l, hl⟩ := jsItems_calls lib cs DocxFile.new n
  exact calls_sound hl

theorem sound_noted {d : DocxFile} (h : Sound d) (b : Bool) : Sound (d.noteNumbering b) where
  links := h.links
  footnotes := h.footnotes
  custom := h.custom
  props := h.props
  crels := h.crels
  header := h.header
  footer := h.footer
  web := h.web
  sorted := h.sorted
  typed y hy := (h.typed y hy).mono (Nat.le_refl _) (Nat.le_refl _) id (Nat.le_refl _) id

theorem file_built {f : JsFile} {n m : Ids} {d : DocxFile} (h : f.build lib n = some (d, m)) : FileBuilt lib f n d := by
  unfold JsFile.build at h
  dsimp only at h
  obtain ⟨d1, h1, h⟩ := Option.bind_eq_some_iff.1 h
  obtain ⟨d2, h2, h⟩ := Option.map_eq_some_iff.1 h
  simp only [Prod.mk.injEq] at h
  obtain ⟨rfl, -⟩ := h
  have k1 := bridges_kept _ (before_quiet f) h1
  have k2 := bridges_kept _ (after_quiet f) h2
  have hsp := js_sectionProperty lib f.docx.children DocxFile.new n
  have hfresh : ∀ side : Side, side.parts d1.document.sectionProperty = [none, none, none] := fun side => by
    rw [k1.parts, hsp]; cases side <;> rfl
  have hcount : ∀ side : Side, Side.count side d1 = 0 := fun side => by
    rw [k1.count, jsItems_counts]; cases side <;> rfl
  have href : Referred d1.document.sectionProperty := fun side => by
    rw [k1.references, k1.parts, hsp]; cases side <;> rfl
  have hsound := k1.sound (jsItems_sound lib f.docx.children n)
  generalize hx : (jsItems lib DocxFile.new f.docx.children n).2 = n1 at h2
  have hh := headers_set lib f.header f.firstHeader f.evenHeader d1 n1 (hcount .header) (hfresh .header)
  dsimp only at hh
  unfold JsFile.parts at h2 k2
  dsimp only at h2 k2
  rw [hx] at k2
  generalize jsPart lib DocxFile.setEvenHeader f.evenHeader
    (jsPart lib DocxFile.setFirstHeader f.firstHeader (jsPart lib DocxFile.setHeader f.header d1 n1).1
      (jsPart lib DocxFile.setHeader f.header d1 n1).2).1
    (jsPart lib DocxFile.setFirstHeader f.firstHeader (jsPart lib DocxFile.setHeader f.header d1 n1).1
      (jsPart lib DocxFile.setHeader f.header d1 n1).2).2 = z at hh h2 k2
  have hg := footers_set lib f.footer f.firstFooter f.evenFooter z.1 z.2 (by rw [hh.other_count]; exact hcount .footer)
    (by rw [hh.other_parts]; exact hfresh .footer)
  dsimp only at hg
  generalize (jsPart lib DocxFile.setEvenFooter f.evenFooter
    (jsPart lib DocxFile.setFirstFooter f.firstFooter (jsPart lib DocxFile.setFooter f.footer z.1 z.2).1
      (jsPart lib DocxFile.setFooter f.footer z.1 z.2).2).1
    (jsPart lib DocxFile.setFirstFooter f.firstFooter (jsPart lib DocxFile.setFooter f.footer z.1 z.2).1
      (jsPart lib DocxFile.setFooter f.footer z.1 z.2).2).2).1 = u at hg k2
  refine ⟨?_, fun side => ?_, ?_, ?_, ?_⟩
  · exact k2.children.trans (hg.children.trans (hh.children.trans k1.children))
  · cases side with
    | header =>
      obtain ⟨hs, a, b, c⟩ := hh.parts
      exact ⟨hs, a, (k2.parts .header).trans (hg.other_parts.trans b), (k2.count .header).trans (hg.other_count.trans c)⟩
    | footer =>
      obtain ⟨hs, a, b, c⟩ := hg.parts
      exact ⟨hs, a, (k2.parts .footer).trans b, (k2.count .footer).trans c⟩
  · intro side
    have := hg.referred (hh.referred href) side
    show side.references d2.document.sectionProperty.base = List.zipWith _ referenceTypes (side.parts d2.document.sectionProperty)
    rw [k2.references, k2.parts]
    exact this
  · show (d2.documentRels.hasNumberings || f.docx.hasNumberings) = _
    rw [k2.flag, hg.flag, hh.flag, k1.flag, jsItems_flag]
    exact Bool.false_or _
  · exact sound_noted (k2.sound (hg.sound (hh.sound hsound))) _

/-! ## What is in the parts -/

theorem jsPartChildren_shown : ∀ (cs : List JsPartChild) (h : Header) (n : Ids),
    pick shownAt (walkHeader [] (jsPartChildren lib h cs n).1) = pick shownAt (walkHeader [] h) ++ JsPart.content lib ⟨cs, false⟩
  | [], h, n => by simp [jsPartChildren, JsPart.content]
  | .paragraph p :: cs, h, n => by
    have e : pick shownAt (walkHeader [] (h.addParagraph (jsParagraph lib p n).1)) = pick shownAt (walkHeader [] h) ++ JsParagraph.content lib p := by
      simp only [walkHeader, Header.addParagraph, List.flatMap_append, pick_append, List.flatMap_cons, List.flatMap_nil, List.append_nil,
        walkHeaderChild, jsParagraph_shown lib [] rfl p n]
    rw [jsPartChildren, jsPartChildren_shown cs, e, List.append_assoc]
    rfl
  | .table t :: cs, h, n => by
    have e : pick shownAt (walkHeader [] (h.addTable (jsTable lib t n).1)) = pick shownAt (walkHeader [] h) ++ jsTableContent lib [] t := by
      simp only [walkHeader, Header.addTable, List.flatMap_append, pick_append, List.flatMap_cons, List.flatMap_nil, List.append_nil,
        walkHeaderChild, jsTable_shown lib [] rfl t n]
    rw [jsPartChildren, jsPartChildren_shown cs, e, List.append_assoc]
    rfl

theorem part_content (p : JsPart) (n : Ids) : headerContent (jsPartChildren lib {} p.children n).1 = JsPart.content lib p := by
  rw [headerContent, within_shown, jsPartChildren_shown]
  rfl

theorem file_made {f : JsFile} {n : Ids} {d : DocxFile} (h : FileBuilt lib f n d) (ht : ∀ t ∈ jsTocs f.docx, TocMade t) : Made d.document := by
  have hm := js_made lib f.docx n ht
  have hc : d.document.children = (f.docx.build lib n).1.document.children := by rw [h.children, js_document]
  have hd : ∀ (q : Place), q = .header ∨ q = .footer →
      Dead (fun w i => if inPart w then (Item.picture? i).toList else []) (q :: [Place.document]) := by
    intro q hq a i
    have : inPart (a ++ q :: [Place.document]) = false := by
      rcases hq with rfl | rfl <;> simp [inPart]
    simp only [this, Bool.false_eq_true, if_false]
  constructor
  · intro p hp
    refine hm.pictures p ?_
    rw [partPictures, within_pick, walkDocument, pick_append, walkSectionProperty_dead _ _ (hd _ (.inl rfl)) (hd _ (.inr rfl)),
      List.append_nil] at hp ⊢
    rwa [hc] at hp
  · intro x hx
    refine hm.links x ?_
    rw [links_pick, walkDocument, pick_append, sectionProperty_links, List.append_nil] at hx ⊢
    rwa [hc] at hx

end Docx.Spec
