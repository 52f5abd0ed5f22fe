import Verif.Model.Styles

/-!
# Automatic tables of contents (`documents/mod.rs`: `expand_auto_tocs`, `update_document_by_toc`)
-/

namespace Docx

/-- The counters used while a table of contents is expanded: `TOC_KEY` and `BOOKMARK_ID`. -/
structure TocGen where
  key : Nat := 0
  bookmark : Nat := 1
deriving DecidableEq, Repr

/-- One entry, its key and the bookmark around its paragraph. documents/mod.rs:2336-2343 and 2359-2366. -/
def tocEntry (level : Nat) (p : Paragraph) (g : TocGen) : Paragraph × TocItem × TocGen :=
  let key := tocKeyText (generateId g.key).1
  let item : TocItem := { text := p.rawText, tocKey := key, level := level }
  (p.wrapByBookmark (generateId g.bookmark).1 key, item,
    { key := (generateId g.key).2, bookmark := (generateId g.bookmark).2 })

/-- The entry for one of the two ways a paragraph can be listed, if its level is in the range. -/
def tocEntry? (level : Option Nat) (min max : Nat) (p : Paragraph) (g : TocGen) : Paragraph × List TocItem × TocGen :=
  match level with
  | none => (p, [], g)
  | some l =>
    if min ≤ l ∧ max ≥ l then
      let r := tocEntry l p g
      (r.1, [r.2.1], r.2.2)
    else (p, [], g)

/-- The loop body for a paragraph. documents/mod.rs:2328-2368: first by heading style, then by listed style. -/
def tocParagraph (headings styles : Str → Option Nat) (min max : Nat) (p : Paragraph) (g : TocGen) :
    Paragraph × List TocItem × TocGen :=
  let a := tocEntry? (p.property.base.style.bind headings) min max p g
  let b := tocEntry? (a.1.property.base.style.bind styles) min max a.1 a.2.2
  (b.1, a.2.1 ++ b.2.1, b.2.2)

/-- The loop over the top-level content. documents/mod.rs:2327-2369. -/
def tocChildren (headings styles : Str → Option Nat) (min max : Nat) :
    List DocumentChild → TocGen → List DocumentChild × List TocItem × TocGen
  | [], g => ([], [], g)
  | .paragraph p :: cs, g =>
    let r := tocParagraph headings styles min max p g
    let s := tocChildren headings styles min max cs r.2.2
    (.paragraph r.1 :: s.1, r.2.1 ++ s.2.1, s.2.2)
  | c :: cs, g =>
    let s := tocChildren headings styles min max cs g
    (c :: s.1, s.2.1, s.2.2)

/-- `update_document_by_toc`. documents/mod.rs:2302-2376. -/
def updateDocumentByToc (children : List DocumentChild) (styles : List Style) (toc : Toc) (index : Nat) (g : TocGen) :
    List DocumentChild × TocGen :=
  if toc.instr.headingStylesRange.isNone ∧ toc.instr.stylesWithLevels ≠ [] then
    (children.set index (.toc toc), g)
  else
    let range := toc.instr.headingStylesRange.getD (0, 9)
    let r := tocChildren (hashGet (headingStyleMap styles)) (hashGet toc.instr.stylesWithLevels) range.1 range.2 children g
    (r.1.set index (.toc { toc with items := r.2.1 }), r.2.2)

/-- The positions of the tables of contents to be expanded. documents/mod.rs:805-817. -/
def autoTocIndexes : Nat → List DocumentChild → List Nat
  | _, [] => []
  | i, .toc t :: cs => if t.items = [] ∧ t.auto then i :: autoTocIndexes (i + 1) cs else autoTocIndexes (i + 1) cs
  | i, _ :: cs => autoTocIndexes (i + 1) cs

/-- One round of the loop in `expand_auto_tocs`. documents/mod.rs:819-829. The `unreachable!` arm leaves the document
as it is; `Lemmas/AutoToc.lean` shows it is not taken. -/
def expandAutoToc (styles : List Style) (s : List DocumentChild × TocGen) (index : Nat) : List DocumentChild × TocGen :=
  match s.1[index]? with
  | some (.toc t) => updateDocumentByToc (s.1.set index (.toc {})) styles t index s.2
  | _ => s

/-- `expand_auto_tocs`. documents/mod.rs:803-832. -/
def expandAutoTocs (styles : List Style) (children : List DocumentChild) (g : TocGen) : List DocumentChild × TocGen :=
  (autoTocIndexes 0 children).foldl (expandAutoToc styles) (children, g)

end Docx
