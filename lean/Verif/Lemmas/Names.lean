import Verif.Lemmas.Collect
import Verif.Spec.Reading

/-!
# The element names run content can write, and collectors that look at one name
-/

namespace Docx.Spec

mutual
/-- The element names of a node, in document order. -/
def Node.names : Node → List Str
  | .elem n _ cs => n :: namesForest cs
  | .text _ => []
/-- The element names of a list of nodes, in document order. -/
def namesForest : List Node → List Str
  | [] => []
  | x :: f => x.names ++ namesForest f
end

end Docx.Spec

namespace Docx

set_option linter.unusedSimpArgs false

open Docx.Spec

/-- `own` only looks at elements called `name`. -/
def OnName {α} (name : Str) (own : Str → List (Str × Str) → List Node → List α) : Prop :=
  ∀ n as cs, n ≠ name → own n as cs = []

mutual
theorem Node.collect_noName {α} {name : Str} {own : Str → List (Str × Str) → List Node → List α}
    (h : OnName name own) : (x : Node) → name ∉ x.names → x.collect own = []
  | .text s, _ => rfl
  | .elem n as cs, hn => by
    simp only [Node.names, List.mem_cons, not_or] at hn
    simp only [Node.collect, h n as cs (fun e => hn.1 e.symm), collectForest_noName h cs hn.2, List.append_nil]
theorem collectForest_noName {α} {name : Str} {own : Str → List (Str × Str) → List Node → List α}
    (h : OnName name own) : (f : List Node) → name ∉ namesForest f → collectForest own f = []
  | [], _ => rfl
  | x :: f, hn => by
    simp only [namesForest, List.mem_append, not_or] at hn
    simp only [collectForest, Node.collect_noName h x hn.1, collectForest_noName h f hn.2, List.append_nil]
end

mutual
theorem Node.names_tags : (x : Node) → ∀ n ∈ x.names, ∃ as, Tag.opn n as ∈ x.tags
  | .text s, n, h => by simp [Node.names] at h
  | .elem m as cs, n, h => by
    simp only [Node.names, List.mem_cons] at h
    rcases h with rfl | h
    · exact ⟨as, by simp [Node.tags]⟩
    · obtain ⟨bs, hb⟩ := namesForest_tags cs n h
      exact ⟨bs, by simp [Node.tags, hb]⟩
theorem namesForest_tags : (f : List Node) → ∀ n ∈ namesForest f, ∃ as, Tag.opn n as ∈ tagsForest f
  | [], n, h => by simp [namesForest] at h
  | x :: f, n, h => by
    simp only [namesForest, List.mem_append] at h
    rcases h with h | h
    · obtain ⟨bs, hb⟩ := Node.names_tags x n h
      exact ⟨bs, by simp [tagsForest, hb]⟩
    · obtain ⟨bs, hb⟩ := namesForest_tags f n h
      exact ⟨bs, by simp [tagsForest, hb]⟩
end

theorem QuietF.names {f : List Node} (h : QuietF f) : ∀ n ∈ namesForest f, QuietName n := by
  intro n hn
  obtain ⟨as, ha⟩ := namesForest_tags f n hn
  exact h n as ha

/-- The content names a piece of run content can write. -/
def RunChild.contentNames : RunChild → List Str
  | .text _ => [c!"w:t"]
  | .sym _ _ => [c!"w:sym"]
  | .deleteText _ => [c!"w:delText"]
  | .brk _ => [c!"w:br"]
  | .carriageReturn => [c!"w:cr"]
  | .picture _ => [c!"w:drawing", c!"a:blip"]
  | .commentStart _ _ => [c!"w:commentRangeStart"]
  | .commentEnd _ => [c!"w:r", c!"w:commentRangeEnd", c!"w:commentReference"]
  | .fieldChar _ _ => [c!"w:fldChar"]
  | .instrText _ => [c!"w:instrText"]
  | .deleteInstrText _ => [c!"w:delInstrText"]
  | .instrTextString _ => [c!"w:instrText"]
  | .footnoteReference _ _ _ => [c!"w:footnoteReference"]
  | _ => []

/-- A name is either plain or in the list, as a test. -/
def quietOr (l : List Str) (n : Str) : Bool := l.contains n || !(Docx.contentNames ++ revisionNames).contains n

theorem quietOr_iff {l : List Str} {n : Str} : quietOr l n = true ↔ n ∈ l ∨ PlainName n := by
  simp [quietOr, PlainName, -List.mem_append, -List.contains_append, List.contains_iff_mem, ← Bool.not_eq_true]

theorem drawing_names (p : Pic) :
    (namesForest (drawingNodes p)).all (quietOr [c!"w:drawing", c!"a:blip"]) = true := by
  obtain ⟨id, image, sz, pt, sp, spx, spy, lic, rh, ao, ph, pv, rfh, rfv, dt, db, dl, dr, rot⟩ := p
  cases pt
  · cases ao <;> cases ph <;> cases pv <;> rfl
  · cases ao <;> rfl

theorem PlainF.names {f : List Node} (h : PlainF f) : ∀ n ∈ namesForest f, PlainName n := by
  intro n hn
  obtain ⟨as, ha⟩ := namesForest_tags f n hn
  exact h n as ha

theorem RunChild.names_ok (c : RunChild) (g f g') (h : c.nodes g = some (f, g')) :
    ∀ n ∈ namesForest f, n ∈ c.contentNames ∨ PlainName n := by
  have lit : ∀ (f' : List Node), f' = f → (namesForest f').all (quietOr c.contentNames) = true →
      ∀ n ∈ namesForest f, n ∈ c.contentNames ∨ PlainName n := by
    rintro f' rfl h n hn
    exact quietOr_iff.1 (List.all_eq_true.1 h n hn)
  have plain : ∀ {f' : List Node}, PlainF f' → emitN f' g = some (f, g') →
      ∀ n ∈ namesForest f, n ∈ c.contentNames ∨ PlainName n := fun hq e n hn => by
    simp only [emitN, Option.some.injEq, Prod.mk.injEq] at e
    rw [← e.1] at hn
    exact .inr (hq.names n hn)
  cases c with
  | shading s => exact plain s.plain h
  | ptab s => exact plain s.plain h
  | tab => exact plain (.leaf (by decide)) h
  | textBox _ => simp [RunChild.nodes, panicN] at h
  | emptyDrawing => simp [RunChild.nodes, panicN] at h
  | shape _ => simp [RunChild.nodes, panicN] at h
  | picture p =>
    simp only [RunChild.nodes, emitN, Option.some.injEq, Prod.mk.injEq] at h
    exact lit _ h.1 (drawing_names p)
  | instrText i =>
    cases i with
    | pageRef i =>
      obtain ⟨r, a, b⟩ := i
      simp only [RunChild.nodes, InstrText.nodes, elemN, catN, N.thenN, emitN, Option.some.injEq, Prod.mk.injEq] at h
      exact lit _ h.1 (by cases a <;> cases b <;> rfl)
    | hyperlink _ => simp [RunChild.nodes, InstrText.nodes, elemN, catN, N.thenN, panicN] at h
    | _ =>
      simp only [RunChild.nodes, InstrText.nodes, elemN, catN, N.thenN, emitN, Option.some.injEq, Prod.mk.injEq] at h
      exact lit _ h.1 rfl
  | deleteInstrText i =>
    cases i with
    | pageRef i =>
      obtain ⟨r, a, b⟩ := i
      simp only [RunChild.nodes, DeleteInstrText.nodes, elemN, catN, N.thenN, emitN, Option.some.injEq,
        Prod.mk.injEq] at h
      exact lit _ h.1 (by cases a <;> cases b <;> rfl)
    | hyperlink _ => simp [RunChild.nodes, DeleteInstrText.nodes, elemN, catN, N.thenN, panicN] at h
    | _ =>
      simp only [RunChild.nodes, DeleteInstrText.nodes, elemN, catN, N.thenN, emitN, Option.some.injEq,
        Prod.mk.injEq] at h
      exact lit _ h.1 rfl
  | _ =>
    simp only [RunChild.nodes, emitN, Option.some.injEq, Prod.mk.injEq] at h
    exact lit _ h.1 rfl

/-- Run content that cannot write `name` contributes nothing. -/
theorem RunChild.collect_nil {α} {name : Str} {own : Str → List (Str × Str) → List Node → List α}
    (h : OnName name own) (hname : name ∈ Docx.contentNames) (c : RunChild) (hc : name ∉ c.contentNames)
    (g f g') (hn : c.nodes g = some (f, g')) : collectForest own f = [] := by
  refine collectForest_noName h f fun hm => ?_
  rcases c.names_ok g f g' hn name hm with h1 | h1
  · exact hc h1
  · exact h1 (List.mem_append.2 (.inl hname))

theorem textIn_onName (name : Str) : OnName name (textIn name) := by
  intro n as cs h
  simp only [textIn, if_neg h]
theorem attrIn_onName (name attr : Str) : OnName name (attrIn name attr) := by
  intro n as cs h
  simp only [attrIn, if_neg h]

theorem OnName.quiet {α} {name : Str} {own : Str → List (Str × Str) → List Node → List α}
    (h : OnName name own) (hname : name ∈ Docx.contentNames) (n as cs) (hn : QuietName n) : own n as cs = [] :=
  h n as cs fun e => hn (e ▸ hname)

end Docx
