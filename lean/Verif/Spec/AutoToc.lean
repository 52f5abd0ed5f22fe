import Verif.Model.AutoToc

/-!
# Specification of automatic tables of contents (C27, C28)
-/

namespace Docx.Spec

/-- `p` with bookmarks around all of its content; `marks` are the ids and names, innermost first. -/
def wrapAll (p : Paragraph) (marks : List (Nat × Str)) : Paragraph :=
  { p with children := marks.foldl (fun cs m => .bookmarkStart m.1 m.2 :: cs ++ [.bookmarkEnd m.1]) p.children }

/-- The levels under which a table of contents with instruction `i` lists the paragraph `p`: the level of its
style if that is a heading style, and the level the instruction gives to its style, as far as they are in the
range of the instruction (`0..9` if there is none). An instruction that lists styles without giving a range
lists nothing. -/
def listedLevels (styles : List Style) (i : InstrToC) (p : Paragraph) : List Nat :=
  if i.headingStylesRange = none ∧ i.stylesWithLevels ≠ [] then []
  else
    match p.property.base.style with
    | none => []
    | some s =>
      ((hashGet (headingStyleMap styles) s).toList ++ (hashGet i.stylesWithLevels s).toList).filter fun l =>
        decide ((i.headingStylesRange.getD (0, 9)).1 ≤ l ∧ l ≤ (i.headingStylesRange.getD (0, 9)).2)

/-- What a table of contents with instruction `i` should say: text and level of each entry, in the order of the
paragraphs. -/
def entries (styles : List Style) (i : InstrToC) : List DocumentChild → List (Str × Nat)
  | [] => []
  | .paragraph p :: cs => (listedLevels styles i p).map (fun l => (p.rawText, l)) ++ entries styles i cs
  | _ :: cs => entries styles i cs

/-- A table of contents to be filled in. -/
def isAuto (t : Toc) : Bool := t.items.isEmpty && t.auto

/-- `c'` is `c` after the automatic tables of contents of a document have been filled in: a paragraph may get
bookmarks around its content, an automatic table of contents gets its entries, and nothing else changes. -/
def ChildExpanded (styles : List Style) (all : List DocumentChild) : DocumentChild → DocumentChild → Prop
  | .paragraph p, c' => ∃ marks, c' = .paragraph (wrapAll p marks)
  | .toc t, c' =>
    if isAuto t then
      ∃ items, c' = .toc { t with items := items } ∧
        items.map (fun x => (x.text, x.level)) = entries styles t.instr all
    else c' = .toc t
  | c, c' => c' = c

/-- The entries made for the automatic tables of contents, in order. -/
def newItems : List DocumentChild → List DocumentChild → List TocItem
  | .toc t :: cs, .toc t' :: cs' => (if isAuto t then t'.items else []) ++ newItems cs cs'
  | _ :: cs, _ :: cs' => newItems cs cs'
  | _, _ => []

end Docx.Spec
