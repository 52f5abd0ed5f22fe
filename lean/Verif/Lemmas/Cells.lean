import Verif.Spec.Cells
import Verif.Lemmas.Collectors

/-!
# The elements inside a written cell
-/

namespace Docx

set_option linter.unusedSimpArgs false

open Docx.Spec

theorem topNames_append (a b : List Node) : topNames (a ++ b) = topNames a ++ topNames b := by
  induction a with
  | nil => rfl
  | cons x a ih => cases x <;> simp [topNames, ih]

/-- The elements written by `n` have the names `l`. -/
def Tops (n : N) (l : List Str) : Prop := ∀ g f g', n g = some (f, g') → topNames f = l

theorem Tops.emit {f : List Node} {l : List Str} (h : topNames f = l) : Tops (emitN f) l := by
  intro g f' g' e
  simp only [emitN, Option.some.injEq, Prod.mk.injEq] at e
  rw [← e.1]; exact h
theorem Tops.thenN {m n : N} {a b : List Str} (hm : Tops m a) (hn : Tops n b) : Tops (m.thenN n) (a ++ b) := by
  intro g f g' e
  unfold N.thenN at e
  cases e1 : m g with
  | none => rw [e1] at e; exact absurd e (by simp)
  | some r =>
    obtain ⟨f1, g1⟩ := r
    rw [e1] at e
    dsimp only at e
    cases e2 : n g1 with
    | none => rw [e2] at e; exact absurd e (by simp)
    | some r =>
      obtain ⟨f2, g2⟩ := r
      rw [e2] at e
      simp only [Option.some.injEq, Prod.mk.injEq] at e
      rw [← e.1, topNames_append, hm _ _ _ e1, hn _ _ _ e2]
theorem Tops.congr {n : N} {l l' : List Str} (h : Tops n l) (e : l = l') : Tops n l' := e ▸ h
theorem Tops.catNil : Tops (catN []) [] := .emit rfl
theorem Tops.catCons {m : N} {l : List N} {a b : List Str} (hm : Tops m a) (hl : Tops (catN l) b) :
    Tops (catN (m :: l)) (a ++ b) := .thenN hm hl
theorem Tops.elem {n : Str} {as : List (Str × Str)} {m : N} : Tops (elemN n as m) [n] := by
  intro g f g' e
  unfold elemN at e
  cases e1 : m g with
  | none => rw [e1] at e; exact absurd e (by simp)
  | some r =>
    obtain ⟨f1, g1⟩ := r
    rw [e1] at e
    simp only [Option.some.injEq, Prod.mk.injEq] at e
    rw [← e.1]; rfl
theorem Tops.ifN {c : Bool} {m : N} {l : List Str} (hm : Tops m l) :
    Tops (Docx.ifN c m) (if c then l else []) := by
  cases c
  · exact .emit rfl
  · exact hm
theorem Tops.paraId {n : Str → N} {l : List Str} (h : ∀ i, Tops (n i) l) : Tops (withParaIdN n) l := by
  intro g f g' e
  exact h _ _ _ _ e
theorem Tops.newParagraphN {p : ParagraphProperty} {n : N} : Tops (newParagraphN p n) [c!"w:p"] :=
  .paraId fun _ => .elem

theorem Paragraph.tops (p : Paragraph) : Tops p.nodes [c!"w:p"] := by
  cases p; simp only [Paragraph.nodes]; exact .elem
theorem Table.tops (t : Table) : Tops t.nodes [c!"w:tbl"] := by
  cases t; simp only [Table.nodes]; exact .elem
theorem Sdt.tops (s : Sdt) : Tops s.nodes [c!"w:sdt"] := by
  cases s; simp only [Sdt.nodes]; exact .elem

theorem Block.tops (b : Block) : Tops b.nodes [blockElement b] := by
  cases b with
  | paragraph p => simp only [Block.nodes]; exact p.tops
  | table t => simp only [Block.nodes]; exact t.tops
theorem nodesBlocks_tops : (bs : List Block) → Tops (nodesBlocks bs) (bs.map blockElement)
  | [] => by simp only [nodesBlocks]; exact .emit rfl
  | b :: bs => by simp only [nodesBlocks]; exact (Tops.thenN b.tops (nodesBlocks_tops bs)).congr rfl
theorem Block.topsAfter (pos : TocPosition) (b : Block) :
    Tops (b.nodesAfter pos) ((match pos, b with | .later, _ => [] | _, .table _ => [c!"w:p"] | _, .paragraph _ => []) ++
      [blockElement b]) := by
  cases b with
  | paragraph p =>
    cases p; simp only [Block.nodesAfter]; cases pos <;> exact .elem
  | table t =>
    simp only [Block.nodesAfter]
    refine (Tops.catCons (a := match pos with | .later => [] | _ => [c!"w:p"]) ?_
      (.catCons t.tops .catNil)).congr ?_
    · cases pos
      · exact .newParagraphN
      · exact .newParagraphN
      · exact .emit rfl
    · cases pos <;> rfl
theorem nodesAfter_topsLater : (bs : List Block) → Tops (nodesAfter .later bs) (bs.map blockElement)
  | [] => by simp only [nodesAfter]; exact .emit rfl
  | b :: bs => by
    simp only [nodesAfter]
    exact (Tops.thenN (Block.topsAfter .later b) (nodesAfter_topsLater bs)).congr rfl
theorem nodesAfter_tops {pos : TocPosition} (hp : pos ≠ .later) (bs : List Block) :
    Tops (nodesAfter pos bs) (afterElements bs) := by
  cases bs with
  | nil => simp only [nodesAfter]; exact .emit rfl
  | cons b bs =>
    simp only [nodesAfter]
    refine (Tops.thenN (Block.topsAfter pos b) (nodesAfter_topsLater bs)).congr ?_
    cases b <;> cases pos <;> first | rfl | exact absurd rfl hp

theorem Toc.tops (t : Toc) : Tops t.nodes (tocElements t) := by
  obtain ⟨instr, items, au, dirty, withoutSdt, alias, placeholder, before, after, delete, property⟩ := t
  simp only [Toc.nodes, wrapSdt, tocElements]
  cases withoutSdt with
  | false => exact .elem
  | true =>
    simp only [if_true]
    cases items with
    | nil =>
      refine (Tops.catCons (nodesBlocks_tops before) (.catCons .newParagraphN
        (.catCons (.paraId fun i => .catCons (.ifN (l := [c!"w:p"]) .elem)
          (.catCons (nodesAfter_tops (by simp) after) .catNil)) .catNil))).congr ?_
      cases after <;> simp
    | cons i is =>
      exact (Tops.catCons (nodesBlocks_tops before) (.catCons .elem
        (.catCons (nodesAfter_tops (by simp) after) .catNil))).congr (by simp)

theorem CellContent.tops (only : Bool) (c : CellContent) :
    Tops (c.nodes only) (contentElements c ++ (match c with | .table _ => if only then [c!"w:p"] else [] | _ => [])) := by
  cases c with
  | paragraph p => simp only [CellContent.nodes]; exact p.tops
  | table t => simp only [CellContent.nodes]; exact .thenN t.tops (.ifN .newParagraphN)
  | sdt s => simp only [CellContent.nodes]; exact s.tops
  | toc t => simp only [CellContent.nodes]; exact t.tops.congr (by simp [contentElements])

theorem nodesCellContents_tops : (cs : List CellContent) →
    Tops (nodesCellContents false cs) (cs.flatMap contentElements)
  | [] => by simp only [nodesCellContents]; exact .emit rfl
  | c :: cs => by
    simp only [nodesCellContents]
    exact (Tops.thenN (c.tops false) (nodesCellContents_tops cs)).congr (by cases c <;> simp)

/-- The elements inside a written cell. -/
theorem Cell.tops (c : Cell) (g cs g') (h : c.nodes g = some ([.elem c!"w:tc" [] cs], g')) :
    topNames cs = cellElements c := by
  obtain ⟨children, property, hn⟩ := c
  simp only [Cell.nodes] at h
  have key : Tops (catN [emitN property.nodes, nodesCellContents (decide (children.length = 1)) children,
      Docx.ifN children.isEmpty (newParagraphN {} (emitN []))]) (cellElements ⟨children, property, hn⟩) := by
    have h1 : Tops (emitN property.nodes) [c!"w:tcPr"] := .emit rfl
    match children with
    | [] =>
      simp only [nodesCellContents]
      exact (Tops.catCons h1 (.catCons (.emit (l := []) rfl) (.catCons (.ifN .newParagraphN) .catNil))).congr
        (by simp [cellElements, addedParagraph])
    | [c] =>
      simp only [nodesCellContents]
      refine (Tops.catCons h1 (.catCons (Tops.thenN (c.tops _) (.emit (l := []) rfl))
        (.catCons (.ifN .newParagraphN) .catNil))).congr ?_
      cases c <;> simp [cellElements, addedParagraph]
    | c :: d :: cs =>
      have e : decide ((c :: d :: cs).length = 1) = false := by simp
      rw [e]
      refine (Tops.catCons h1 (.catCons (nodesCellContents_tops _)
        (.catCons (.ifN .newParagraphN) .catNil))).congr ?_
      cases c <;> simp [cellElements, addedParagraph]
  unfold elemN at h
  cases e : catN [emitN property.nodes, nodesCellContents (decide (children.length = 1)) children,
      Docx.ifN children.isEmpty (Docx.newParagraphN {} (emitN []))] g with
  | none => rw [e] at h; simp at h
  | some r =>
    obtain ⟨f1, g1⟩ := r
    rw [e] at h
    simp only [Option.some.injEq, Prod.mk.injEq, List.cons.injEq, Node.elem.injEq, true_and, and_true] at h
    rw [← h.1]
    exact key _ _ _ e

/-- The elements of the cells among some items. -/
def Spec.Item.cellNames : Item → List (List Str)
  | .cell c => [cellElements c]
  | _ => []

theorem childrenIn_onName (name : Str) : OnName name (childrenIn name) := by
  intro n as cs h
  simp only [childrenIn, if_neg h]

theorem gathers_cells : Gathers (childrenIn c!"w:tc") Item.cellNames Eq where
  nil := rfl
  append := eqAppend
  quiet := (childrenIn_onName _).quiet (by decide)
  run := fun _ _ => rfl
  runGen := fun _ => rfl
  runChild := by
    intro c g f g' e
    cases c with
    | _ => exact (RunChild.collect_nil (childrenIn_onName _) (by decide) _ (by simp only [RunChild.contentNames]; decide) _ _ _ e).symm
  gen := by
    intro c hc g f g' e
    cases hc <;>
    exact (RunChild.collect_nil (childrenIn_onName _) (by decide) _ (by simp only [RunChild.contentNames]; decide) _ _ _ e).symm
  commentStart := fun _ _ => rfl
  commentEnd := fun _ => rfl
  bookmarkStart := fun _ _ => rfl
  bookmarkEnd := fun _ => rfl
  hyperlink := fun _ _ => rfl
  hyperlinkGen := fun _ _ => rfl
  sdt := fun _ _ => rfl
  sdtGen := fun _ => rfl
  sdtContent := fun _ => rfl
  paragraph := fun _ _ => rfl
  paragraphGen := fun _ _ => rfl
  table := fun _ _ => rfl
  row := fun _ => rfl
  cell := fun c g cs g' e => by
    show [cellElements c] = [topNames cs]
    rw [Cell.tops c g cs g' e]
  toc := fun _ => rfl

end Docx
