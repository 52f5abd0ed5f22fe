import Verif.Lemmas.Numbered

/-!
# The numbering flag of a document made by calls
-/

namespace Docx

open Docx.Spec

/-- The flag tells whether a paragraph uses numbering. -/
structure Noted (d : DocxFile) : Prop where
  children : Told (d.document.children.flatMap (walkDocumentChild [.document])) d.documentRels.hasNumberings
  heads : ∀ (side : Side) (x : Str × Header), some x ∈ side.parts d.document.sectionProperty → ∀ w, Told (walkHeader w x.2) d.documentRels.hasNumberings

theorem told_flatMap {α : Type} (f : α → Walk) (b : Bool) : ∀ (l : List α), (∀ x ∈ l, Told (f x) b) → Told (l.flatMap f) b
  | [], _ => told_nil b
  | x :: l, h => by
    rw [List.flatMap_cons]
    exact (h x (List.mem_cons_self ..)).append' (told_flatMap f b l fun y hy => h y (List.mem_cons_of_mem _ hy))

theorem told_property {p : SectionProperty} {b : Bool} (w : List Place)
    (h : ∀ (side : Side) (x : Str × Header), some x ∈ side.parts p → ∀ w, Told (walkHeader w x.2) b) : Told (walkSectionProperty w p) b := by
  refine Told.append' (told_flatMap _ b _ fun x hx => ?_) (told_flatMap _ b _ fun x hx => ?_)
  · obtain ⟨o, ho, e⟩ := List.mem_filterMap.1 hx
    cases e
    exact h .header x ho _
  · obtain ⟨o, ho, e⟩ := List.mem_filterMap.1 hx
    cases e
    exact h .footer x ho _

theorem Noted.document {d : DocxFile} (h : Noted d) : Told (walkDocument d.document) d.documentRels.hasNumberings :=
  h.children.append' (told_property _ h.heads)

/-- A child is added. -/
theorem Noted.add {d d' : DocxFile} (h : Noted d) (x : DocumentChild) (hc : d'.document.children = d.document.children ++ [x])
    (hp : d'.document.sectionProperty = d.document.sectionProperty)
    (hm : d.documentRels.hasNumberings = true → d'.documentRels.hasNumberings = true)
    (hx : Told (walkDocumentChild [.document] x) d'.documentRels.hasNumberings) : Noted d' := by
  refine ⟨?_, fun side y hy w => ?_⟩
  · rw [hc, List.flatMap_append, List.flatMap_cons, List.flatMap_nil, List.append_nil]
    exact (h.children.mono hm).append' hx
  · rw [hp] at hy
    exact (h.heads side y hy w).mono hm

/-- A header or footer is set. -/
theorem Noted.part {d d' : DocxFile} (h : Noted d) (x : Header) (hc : d'.document.children = d.document.children)
    (hp : ∀ (side : Side) (y : Str × Header), some y ∈ side.parts d'.document.sectionProperty → y.2 = x ∨ some y ∈ side.parts d.document.sectionProperty)
    (hm : d'.documentRels.hasNumberings = (d.documentRels.hasNumberings || x.hasNumbering)) (hx : MadeHeader x) : Noted d' := by
  refine ⟨?_, fun side y hy w => ?_⟩
  · rw [hc]
    exact h.children.mono fun e => by rw [hm, e]; rfl
  · rcases hp side y hy with e | e
    · rw [e]
      exact (told_header hx w).mono fun e => by rw [hm, e, Bool.or_true]
    · exact (h.heads side y e w).mono fun e => by rw [hm, e]; rfl

theorem Noted.same {d d' : DocxFile} (h : Noted d) (hc : d'.document.children = d.document.children)
    (hp : ∀ side : Side, side.parts d'.document.sectionProperty = side.parts d.document.sectionProperty)
    (hm : d'.documentRels.hasNumberings = d.documentRels.hasNumberings) : Noted d' := by
  refine ⟨by rw [hc, hm]; exact h.children, fun side y hy w => ?_⟩
  rw [hm]
  rw [hp] at hy
  exact h.heads side y hy w

/-- Adding a section looks at all its flags. -/
theorem attachParts_flag (d : DocxFile) (s : Section) : (d.attachParts s).1.documentRels.hasNumberings =
    (d.documentRels.hasNumberings || (s.hasNumbering || ([.header, .footer].flatMap fun side : Side => side.ofSection s).any fun o => o.any Header.hasNumbering)) := by
  obtain ⟨p, cs, n, t1, t2, t3, u1, u2, u3⟩ := s
  cases t1 <;> cases t2 <;> cases t3 <;> cases u1 <;> cases u2 <;> cases u3 <;>
    simp [DocxFile.attachParts, attachHeader, attachFooter, DocxFile.countHeader, DocxFile.countFooter, DocxFile.noteNumbering, Side.ofSection, Bool.or_assoc]

theorem attachParts_document (d : DocxFile) (s : Section) : (d.attachParts s).1.document = d.document := by
  obtain ⟨p, cs, n, t1, t2, t3, u1, u2, u3⟩ := s
  cases t1 <;> cases t2 <;> cases t3 <;> cases u1 <;> cases u2 <;> cases u3 <;> rfl

theorem call_noted {d d' : DocxFile} {c : Call} (e : d.call c = some d') (hm : MadeCall c) (h : Noted d) : Noted d' := by
  cases c with
  | document x => exact hm.elim
  | addParagraph p =>
    simp only [DocxFile.call, Option.some.injEq] at e
    subst e
    refine h.add (.paragraph p) rfl rfl (fun e => by simp [DocxFile.addParagraph, DocxFile.noteNumbering, e]) ((told_paragraph hm _).mono fun e => ?_)
    simp [DocxFile.addParagraph, DocxFile.noteNumbering, e]
  | addTable p =>
    simp only [DocxFile.call, Option.some.injEq] at e
    subst e
    refine h.add (.table p) rfl rfl (fun e => by simp [DocxFile.addTable, DocxFile.noteNumbering, e]) ((told_table hm _).mono fun e => ?_)
    simp [DocxFile.addTable, DocxFile.noteNumbering, e]
  | addSdt p =>
    simp only [DocxFile.call, Option.some.injEq] at e
    subst e
    refine h.add (.sdt p) rfl rfl (fun e => by simp [DocxFile.addSdt, DocxFile.noteNumbering, e]) ((told_sdt hm _).mono fun e => ?_)
    simp [DocxFile.addSdt, DocxFile.noteNumbering, e]
  | addToc p =>
    simp only [DocxFile.call, Option.some.injEq] at e
    subst e
    exact h.add (.toc p) rfl rfl id (told_none _ (toc_unnumbered _ p))
  | addBookmarkStart i n =>
    simp only [DocxFile.call, Option.some.injEq] at e
    subst e
    exact h.add (.bookmarkStart i n) rfl rfl id (told_nil _)
  | addBookmarkEnd i =>
    simp only [DocxFile.call, Option.some.injEq] at e
    subst e
    exact h.add (.bookmarkEnd i) rfl rfl id (told_nil _)
  | addSection s =>
    simp only [DocxFile.call, Option.some.injEq] at e
    subst e
    have hs := told_section hm
    have hflag := attachParts_flag d s
    have hheads := fun side => attachParts_heads side d s hs.bare
    have hdoc := attachParts_document d s
    unfold DocxFile.addSection
    dsimp only
    generalize d.attachParts s = r at *
    refine h.add (.section { s with property := r.2, tempHeader := none, tempFirstHeader := none, tempEvenHeader := none, tempFooter := none, tempFirstFooter := none, tempEvenFooter := none })
      (by rw [Document.addSection, hdoc]) (by rw [Document.addSection, hdoc])
      (fun e => by dsimp only; rw [hflag, e]; rfl) ?_
    dsimp only
    rw [walkDocumentChild, walkSection]
    refine ((hs.children _).mono fun e => by rw [hflag, e]; simp).append' (told_property _ fun side x hx w => ?_)
    have hx' : some x.2 ∈ side.ofSection s := by
      rw [← hheads side]
      exact List.mem_map.2 ⟨some x, hx, rfl⟩
    refine (told_header (hs.heads side _ hx') w).mono fun e => ?_
    rw [hflag]
    have : (([.header, .footer].flatMap fun side : Side => side.ofSection s).any fun o => o.any Header.hasNumbering) = true := by
      rw [List.any_eq_true]
      exact ⟨some x.2, List.mem_flatMap.2 ⟨side, by cases side <;> simp, hx'⟩, e⟩
    rw [this, Bool.or_true, Bool.or_true]
  | header x | firstHeader x | evenHeader x | footer x | firstFooter x | evenFooter x =>
    simp only [DocxFile.call, Option.some.injEq] at e
    subst e
    refine h.part x rfl (fun side y hy => ?_) rfl hm
    cases side <;> simp [Side.parts, DocxFile.setHeader, DocxFile.setFirstHeader, DocxFile.setEvenHeader, DocxFile.setFooter, DocxFile.setFirstFooter,
      DocxFile.setEvenFooter, DocxFile.updProperty, DocxFile.evenAndOdd, DocxFile.countHeader, DocxFile.countFooter, SectionProperty.setHeader,
      SectionProperty.setFirstHeader, SectionProperty.setEvenHeader, SectionProperty.setFooter, SectionProperty.setFirstFooter, SectionProperty.setEvenFooter] at hy ⊢ <;>
      first
      | tauto
      | (rcases hy with e | e | e <;> first | (subst e; simp) | tauto)
  | addCustomItem i x =>
    simp only [DocxFile.call] at e
    split at e
    · cases e
      exact h.same rfl (fun side => by cases side <;> rfl) rfl
    · cases e
  | _ =>
    simp only [DocxFile.call, Option.some.injEq] at e
    rw [← e]
    exact h.same rfl (fun side => by cases side <;> rfl) rfl

theorem calls_noted : ∀ (cs : List Call) (d d' : DocxFile), d.calls cs = some d' → (∀ c ∈ cs, MadeCall c) → Noted d → Noted d'
  | [], d, d', e, _, h => by
    simp only [DocxFile.calls, Option.some.injEq] at e
    rwa [← e]
  | c :: cs, d, d', e, hm, h => by
    simp only [DocxFile.calls] at e
    split at e
    · cases e
    · next d1 e1 => exact calls_noted cs d1 d' e (fun x hx => hm x (List.mem_cons_of_mem _ hx)) (call_noted e1 (hm c (List.mem_cons_self ..)) h)

theorem new_noted : Noted DocxFile.new := ⟨told_nil _, fun side x hx => by cases side <;> simp [Side.parts, DocxFile.new] at hx⟩

end Docx
