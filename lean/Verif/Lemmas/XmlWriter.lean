import Verif.Model.XmlWriter
import Verif.Spec.WriterTags

namespace Docx.Xml

open Docx Docx.Spec

theorem foldl_attr (attrs : List (Str × Str)) (e : StartElement) :
    attrs.foldl (fun e a => e.attr a.1 a.2) e =
      { encoded := e.encoded ++ printAttrs attrs, nameLen := e.nameLen } := by
  induction attrs generalizing e with
  | nil => simp [printAttrs]
  | cons a as ih =>
    rw [List.foldl_cons, ih]
    simp [StartElement.attr, printAttrs, List.append_assoc]

theorem open_eq (n : Str) (as : List (Str × Str)) :
    open_ n as = .start { encoded := '<' :: n ++ printAttrs as, nameLen := n.length } := by
  simp [open_, foldl_attr, startElement]

theorem slice_name (n r : Str) : slice ('<' :: (n ++ r)) 1 (1 + n.length) = .ok n := by
  simp [slice]
  omega

/-- The state right after a start event. -/
def Writer.opened (w : Writer) (n : Str) (as : List (Str × Str)) : Writer :=
  { w.flushPending with
      names := w.flushPending.names ++ n
      stack := { nameStart := w.flushPending.names.length, nameLen := n.length, pending := true } ::
        w.flushPending.stack
      pendingStart := '<' :: (n ++ printAttrs as) }

/-- Effect of a start event. -/
theorem write_open (w : Writer) (n : Str) (as : List (Str × Str)) :
    w.write (open_ n as) = .ok (w.opened n as) := by
  rw [open_eq]
  simp only [Writer.write, List.cons_append, slice_name]
  rfl

@[simp] theorem flush_flush (w : Writer) : w.flushPending.flushPending = w.flushPending := by
  unfold Writer.flushPending
  cases h : w.stack with
  | nil => simp [h]
  | cons s r => by_cases hp : s.pending <;> simp [h, hp]

theorem flush_names (w : Writer) : w.flushPending.names = w.names := by
  unfold Writer.flushPending
  cases w.stack with
  | nil => rfl
  | cons s r => by_cases hp : s.pending <;> simp [hp]

theorem run_append (w : Writer) (a b : List Event) :
    w.run (a ++ b) = (w.run a).bind fun w' => w'.run b := by
  induction a generalizing w with
  | nil => rfl
  | cons e a ih =>
    simp only [List.cons_append, Writer.run]
    cases w.write e with
    | error x => rfl
    | ok w' => exact ih w'

@[simp] theorem flush_setOut (w : Writer) (o : Str) :
    ({ w.flushPending with out := o } : Writer).flushPending = { w.flushPending with out := o } := by
  unfold Writer.flushPending
  cases h : w.stack with
  | nil => simp [h]
  | cons s r => by_cases hp : s.pending <;> simp [h, hp]

/-- The state after writing `s` in the flushed state. -/
def Writer.emit (w : Writer) (s : Str) : Writer :=
  { w.flushPending with out := w.flushPending.out ++ s }

theorem emit_emit (w : Writer) (s t : Str) : (w.emit s).emit t = w.emit (s ++ t) := by
  simp only [Writer.emit, flush_setOut, List.append_assoc]

theorem flush_emit (w : Writer) (s : Str) : (w.emit s).flushPending = w.emit s := by
  simp only [Writer.emit, flush_setOut]

/-- Between events no start tag is left over in the buffer unless the top element is pending. -/
def Writer.Clean (w : Writer) : Prop := w.flushPending.pendingStart = []

theorem clean_emit {w : Writer} (h : w.Clean) (s : Str) : (w.emit s).Clean := by
  unfold Writer.Clean
  rw [flush_emit]
  exact h

theorem clean_opened (w : Writer) (n : Str) (as : List (Str × Str)) : (w.opened n as).Clean := by
  simp [Writer.Clean, Writer.opened, Writer.flushPending]

theorem close_pending {w : Writer} (h : w.Clean) (n : Str) (as : List (Str × Str)) :
    (w.opened n as).write .«end» = .ok (w.emit ('<' :: n ++ printAttrs as ++ c!" />")) := by
  simp only [Writer.write, Writer.opened, if_true, Writer.emit]
  simp only [List.take_left', List.cons_append]
  congr 1
  have : w.flushPending.pendingStart = [] := h
  cases hw : w.flushPending
  rw [hw] at this
  simp_all

theorem close_nonpending {w : Writer} (h : w.Clean) (n : Str) (as : List (Str × Str)) (s : Str) :
    ((w.opened n as).emit s).write .«end» =
      .ok (w.emit ('<' :: n ++ printAttrs as ++ ['>'] ++ s ++ c!"</" ++ n ++ ['>'])) := by
  have hp : w.flushPending.pendingStart = [] := h
  simp only [Writer.emit, Writer.opened]
  cases hw : w.flushPending with
  | mk out stack names ps =>
    rw [hw] at hp
    simp only at hp
    subst hp
    simp [Writer.flushPending, Writer.write, slice, Bind.bind, Except.bind]

mutual
theorem run_node (n : Node) (w : Writer) (hw : w.Clean) :
    w.run (n.tags.map tagEvent) = .ok (w.emit n.print) := by
  match n with
  | .text s => simp [Node.tags, Node.print, tagEvent, Writer.run, Writer.write, Writer.emit]; rfl
  | .elem name attrs [] =>
    simp only [Node.tags, tagsForest, List.nil_append, List.map_cons, List.map_nil, tagEvent,
      Writer.run, write_open, Node.print]
    simp only [Bind.bind, Except.bind, close_pending hw name attrs]
  | .elem name attrs (c :: cs) =>
    have hf := run_forest (c :: cs) (w.opened name attrs) (by simp) (clean_opened w name attrs)
    have hc := close_nonpending hw name attrs (printForest (c :: cs))
    simp only [Node.tags, List.map_cons, List.map_append, List.map_nil, tagEvent, Writer.run,
      write_open, Node.print, Bind.bind, Except.bind]
    rw [run_append, hf]
    simp only [Except.bind, Writer.run, hc, Bind.bind]
    rw [printForest]
theorem run_forest (f : List Node) (w : Writer) (h : f ≠ []) (hw : w.Clean) :
    w.run ((tagsForest f).map tagEvent) = .ok (w.emit (printForest f)) := by
  match f with
  | [] => exact absurd rfl h
  | [n] =>
    have := run_node n w hw
    simpa [tagsForest, printForest] using this
  | n :: m :: ns =>
    have h1 := run_node n w hw
    have h2 := run_forest (m :: ns) (w.emit n.print) (by simp) (clean_emit hw _)
    rw [tagsForest, List.map_append, run_append, h1]
    simp only [Except.bind]
    rw [h2, emit_emit]
    rfl
end

/-! ### Errors -/

/-- The recorded name positions are inside the name buffer. -/
def StackInv : List ElementState → Nat → Prop
  | [], n => n = 0
  | s :: r, n => s.nameStart + s.nameLen = n ∧ StackInv r s.nameStart

theorem flush_stack_length (w : Writer) : w.flushPending.stack.length = w.stack.length := by
  unfold Writer.flushPending
  cases h : w.stack with
  | nil => simp [h]
  | cons s r => by_cases hp : s.pending <;> simp [h, hp]

theorem flush_inv {w : Writer} (h : StackInv w.stack w.names.length) :
    StackInv w.flushPending.stack w.flushPending.names.length := by
  unfold Writer.flushPending
  cases hs : w.stack with
  | nil => simpa [hs] using h
  | cons s r =>
    rw [hs] at h
    by_cases hp : s.pending
    · simpa [hs, hp, StackInv] using h
    · simpa [hs, hp] using h

/-- Depth after the tags, `none` when some prefix closes too much. -/
def depth : Nat → List Tag → Option Nat
  | d, [] => some d
  | d, .opn _ _ :: ts => depth (d + 1) ts
  | 0, .cls :: _ => none
  | d + 1, .cls :: ts => depth d ts
  | d, .txt _ :: ts => depth d ts

theorem run_depth (ts : List Tag) (w : Writer) (h : StackInv w.stack w.names.length) :
    match depth w.stack.length ts with
    | none => w.run (ts.map tagEvent) = .error .unbalancedEndTag
    | some d => ∃ w', w.run (ts.map tagEvent) = .ok w' ∧ w'.stack.length = d := by
  induction ts generalizing w with
  | nil => simp [depth, Writer.run]
  | cons t ts ih =>
    cases t with
    | opn n as =>
      simp only [depth, List.map_cons, tagEvent, Writer.run, write_open, Bind.bind, Except.bind]
      have := ih (w.opened n as) (by
        simp only [Writer.opened, StackInv, List.length_append, true_and]
        exact flush_inv h)
      simpa [Writer.opened, flush_stack_length] using this
    | txt s =>
      simp only [depth, List.map_cons, tagEvent, Writer.run, Writer.write, Bind.bind, Except.bind]
      have := ih { w.flushPending with out := w.flushPending.out ++ s } (flush_inv h)
      simpa [flush_stack_length] using this
    | cls =>
      cases hs : w.stack with
      | nil => simp [depth, tagEvent, Writer.run, Writer.write, hs, Bind.bind, Except.bind]
      | cons s r =>
        rw [hs] at h
        simp only [StackInv] at h
        simp only [List.length_cons, depth, List.map_cons, tagEvent, Writer.run, Writer.write, hs]
        have hle : s.nameStart ≤ w.names.length := by omega
        by_cases hp : s.pending
        · simp only [hp, if_true, Bind.bind, Except.bind]
          have := ih { w with
            stack := r, out := w.out ++ w.pendingStart ++ c!" />", pendingStart := [],
            names := w.names.take s.nameStart } (by simpa [Nat.min_eq_left hle] using h.2)
          simpa using this
        · have hsl : slice w.names s.nameStart (s.nameStart + s.nameLen) =
              .ok ((w.names.drop s.nameStart).take s.nameLen) := by
            have h1 := h.1
            unfold slice
            rw [if_pos ⟨by omega, by omega⟩, Nat.add_sub_cancel_left]
          simp only [hp, hsl, Bind.bind, Except.bind]
          have := ih { w with
            stack := r
            out := w.out ++ c!"</" ++ (w.names.drop s.nameStart).take s.nameLen ++ c!">"
            names := w.names.take s.nameStart } (by simpa [Nat.min_eq_left hle] using h.2)
          simpa using this

theorem opens_cons_opn (n as ts) : opens (.opn n as :: ts) = opens ts + 1 := by simp [opens]
theorem opens_cons_cls (ts) : opens (.cls :: ts) = opens ts := by simp [opens]
theorem opens_cons_txt (s ts) : opens (.txt s :: ts) = opens ts := by simp [opens]
theorem closes_cons_opn (n as ts) : closes (.opn n as :: ts) = closes ts := by simp [closes]
theorem closes_cons_cls (ts) : closes (.cls :: ts) = closes ts + 1 := by simp [closes]
theorem closes_cons_txt (s ts) : closes (.txt s :: ts) = closes ts := by simp [closes]

theorem depth_none (d : Nat) (ts : List Tag) :
    depth d ts = none ↔ ∃ k, d + opens (ts.take k) < closes (ts.take k) := by
  induction ts generalizing d with
  | nil => simp [depth, opens, closes]
  | cons t ts ih =>
    cases t with
    | opn n as =>
      rw [depth, ih]
      constructor
      · rintro ⟨k, hk⟩
        exact ⟨k + 1, by rw [List.take_succ_cons, opens_cons_opn, closes_cons_opn]; omega⟩
      · rintro ⟨k, hk⟩
        cases k with
        | zero => simp [opens, closes] at hk
        | succ k =>
          rw [List.take_succ_cons, opens_cons_opn, closes_cons_opn] at hk
          exact ⟨k, by omega⟩
    | txt s =>
      rw [depth, ih]
      constructor
      · rintro ⟨k, hk⟩
        exact ⟨k + 1, by rw [List.take_succ_cons, opens_cons_txt, closes_cons_txt]; omega⟩
      · rintro ⟨k, hk⟩
        cases k with
        | zero => simp [opens, closes] at hk
        | succ k =>
          rw [List.take_succ_cons, opens_cons_txt, closes_cons_txt] at hk
          exact ⟨k, by omega⟩
    | cls =>
      cases d with
      | zero =>
        simp only [depth, true_iff]
        exact ⟨1, by simp [opens, closes]⟩
      | succ d =>
        rw [depth, ih]
        constructor
        · rintro ⟨k, hk⟩
          exact ⟨k + 1, by rw [List.take_succ_cons, opens_cons_cls, closes_cons_cls]; omega⟩
        · rintro ⟨k, hk⟩
          cases k with
          | zero => simp [opens, closes] at hk
          | succ k =>
            rw [List.take_succ_cons, opens_cons_cls, closes_cons_cls] at hk
            exact ⟨k, by omega⟩

theorem depth_some (d d' : Nat) (ts : List Tag) (h : depth d ts = some d') :
    d + opens ts = d' + closes ts := by
  induction ts generalizing d with
  | nil => simp [depth] at h; simp [opens, closes, h]
  | cons t ts ih =>
    cases t with
    | opn n as => rw [depth] at h; have := ih _ h; rw [opens_cons_opn, closes_cons_opn]; omega
    | txt s => rw [depth] at h; have := ih _ h; rw [opens_cons_txt, closes_cons_txt]; omega
    | cls =>
      cases d with
      | zero => simp [depth] at h
      | succ d => rw [depth] at h; have := ih _ h; rw [opens_cons_cls, closes_cons_cls]; omega

/-! ### Every balanced sequence is the tag sequence of a forest -/

theorem tagsForest_append (a b : List Node) : tagsForest (a ++ b) = tagsForest a ++ tagsForest b := by
  induction a with
  | nil => rfl
  | cons n a ih => simp [tagsForest, ih]

theorem forest_of_depth (ts : List Tag) :
    (∀ d, depth (d + 1) ts = some 0 → ∃ f rest, ts = tagsForest f ++ .cls :: rest ∧
        depth d rest = some 0) ∧
    (depth 0 ts = some 0 → ∃ f, ts = tagsForest f) := by
  induction h : ts.length using Nat.strongRecOn generalizing ts with
  | ind n IH =>
    have main : ∀ d, depth (d + 1) ts = some 0 → ∃ f rest, ts = tagsForest f ++ .cls :: rest ∧
        depth d rest = some 0 := by
      intro d hd
      match ts, hd with
      | .opn m as :: ts, hd =>
        rw [depth] at hd
        obtain ⟨f1, r1, e1, h1⟩ := (IH ts.length (by simp at h; omega) ts rfl).1 (d + 1) hd
        have hl : r1.length < n := by
          rw [e1] at h; simp at h; omega
        obtain ⟨f2, r2, e2, h2⟩ := (IH r1.length hl r1 rfl).1 d h1
        exact ⟨.elem m as f1 :: f2, r2, by simp [tagsForest, Node.tags, e1, e2], h2⟩
      | .txt s :: ts, hd =>
        rw [depth] at hd
        obtain ⟨f1, r1, e1, h1⟩ := (IH ts.length (by simp at h; omega) ts rfl).1 d hd
        exact ⟨.text s :: f1, r1, by simp [tagsForest, Node.tags, e1], h1⟩
      | .cls :: ts, hd =>
        rw [depth] at hd
        exact ⟨[], ts, by simp [tagsForest], hd⟩
    refine ⟨main, ?_⟩
    intro hd
    clear main
    match ts, hd, h with
    | [], _, _ => exact ⟨[], rfl⟩
    | .opn m as :: ts, hd, h =>
      rw [depth] at hd
      obtain ⟨f1, r1, e1, h1⟩ := (IH ts.length (by simp at h; omega) ts rfl).1 0 hd
      have hl : r1.length < n := by
        rw [e1] at h; simp at h; omega
      obtain ⟨f2, e2⟩ := (IH r1.length hl r1 rfl).2 h1
      exact ⟨.elem m as f1 :: f2, by simp [tagsForest, Node.tags, e1, e2]⟩
    | .txt s :: ts, hd, h =>
      rw [depth] at hd
      obtain ⟨f1, e1⟩ := (IH ts.length (by simp at h; omega) ts rfl).2 hd
      exact ⟨.text s :: f1, by simp [tagsForest, Node.tags, e1]⟩

end Docx.Xml
