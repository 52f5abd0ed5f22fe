import Verif.Model.ParaIds

/-!
# Id generators

`generate_bookmark_id`, `generate_footnote_id`, `generate_hyperlink_id`, `generate_pic_id`,
`HistoryId::generate`, `ParagraphPropertyChangeId::generate` and `TocKeyGenerator::generate` all do
`let id = COUNTER.load(Relaxed); COUNTER.store(id + 1, Relaxed); id` on a process-wide `AtomicUsize`.
-/

namespace Docx

/-- `usize` has 64 bits. -/
def usizeCount : Nat := 2 ^ 64

/-- One call with no other thread running: the returned id and the new counter.
bookmark_id.rs:7-13, footnote_id.rs:7-13, hyperlink_id.rs:7-13, pic_id.rs:7-13, history_id.rs:8-14,
paragraph_property_change_id.rs:8-14, toc_key.rs:8-14. Simplification: the last three use `id + 1`,
which panics at the end of the range in debug builds; the wrapping of release builds is modelled. -/
def generateId (counter : Nat) : Nat × Nat := (counter, (counter + 1) % usizeCount)

/-- `n` successive calls on one thread. -/
def generateIds : Nat → Nat → List Nat × Nat
  | 0, c => ([], c)
  | n + 1, c =>
    let g := generateId c
    let r := generateIds n g.2
    (g.1 :: r.1, r.2)

/-- `create_hyperlink_rid`. hyperlink_id.rs:20-22. -/
def createHyperlinkRid (n : Nat) : Str := c!"rIdHyperlink" ++ dec n
/-- `create_pic_rid`. pic_id.rs:20-22. -/
def createPicRid (n : Nat) : Str := c!"rIdImage" ++ dec n
/-- `create_header_rid`. header_id.rs:20-22. -/
def createHeaderRid (n : Nat) : Str := c!"rIdHeader" ++ dec n
/-- `create_footer_rid`. footer_id.rs:22-24. -/
def createFooterRid (n : Nat) : Str := c!"rIdFooter" ++ dec n
/-- `format!("_Toc{id:08}")`. toc_key.rs:13. -/
def tocKeyText (n : Nat) : Str := c!"_Toc" ++ pad0 8 (dec n)
/-- `format!("{id}")`. history_id.rs:13, paragraph_property_change_id.rs:13. -/
def historyIdText (n : Nat) : Str := dec n

/-- Several threads share the counter. `loaded t` is the value thread `t` has loaded and not yet
stored; `out` lists the returned ids, latest last, with the thread that got each.
Simplification: `Relaxed` operations on one atomic object are totally ordered (coherence), so an
execution is an interleaving of loads and stores. -/
structure Shared where
  counter : Nat
  loaded : Nat → Option Nat
  out : List (Nat × Nat)

/-- Thread `t` takes its next step: the load, or the store followed by the return. history_id.rs:11-13. -/
def Shared.step (s : Shared) (t : Nat) : Shared :=
  match s.loaded t with
  | none => { s with loaded := fun u => if u = t then some s.counter else s.loaded u }
  | some v =>
    { counter := (v + 1) % usizeCount
      loaded := fun u => if u = t then none else s.loaded u
      out := s.out ++ [(t, v)] }

/-- Run a schedule: the list of threads in the order in which they take steps. history_id.rs:8-14. -/
def Shared.run (s : Shared) (schedule : List Nat) : Shared := schedule.foldl Shared.step s

/-- No call in progress. -/
def Shared.start (c : Nat) : Shared := { counter := c, loaded := fun _ => none, out := [] }

/-- The paragraph id counters: one per thread. paragraph_id.rs:4-8. -/
structure ParaCounters where
  next : Nat → Nat
  out : List (Nat × Str)

/-- A `generate_para_id` call by thread `t`: it uses its own counter.
paragraph_id.rs:12-19. -/
def ParaCounters.generate (s : ParaCounters) (t : Nat) : ParaCounters :=
  let g := generateParaId (s.next t)
  { next := fun u => if u = t then g.2 else s.next u, out := s.out ++ [(t, g.1)] }

/-- All counters at 1. paragraph_id.rs:8. -/
def ParaCounters.start : ParaCounters := { next := fun _ => 1, out := [] }

end Docx
