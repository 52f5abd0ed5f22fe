import Verif.Spec.FlatRead
import Verif.Lemmas.FlatOpc
import Verif.Lemmas.ReadBooks
import Verif.Lemmas.ReadFile

/-!
# Lookups in a flat file
-/

namespace Docx.FlatOpc

open Docx Docx.Spec Docx.Xml

theorem contentOf_none {ps : List Part} {name : Str} (h : ∀ p ∈ ps, p.name ≠ name) : contentOf ps name = none := by
  rw [contentOf, List.filter_eq_nil_iff.2 (fun p hp => by simpa using h p hp)]
  rfl

theorem contentOf_one {ps : List Part} {p : Part} (hp : p ∈ ps) (h : ∀ q ∈ ps, q.name = p.name → q = p) : contentOf ps p.name = some p.data := by
  rw [contentOf]
  have hne : (ps.filter fun q => decide (q.name = p.name)) ≠ [] := by
    intro h0
    exact absurd (List.filter_eq_nil_iff.1 h0 p hp) (by simp)
  rw [List.getLast?_eq_some_getLast hne]
  have := List.getLast_mem hne
  rw [List.mem_filter] at this
  rw [h _ this.1 (by simpa using this.2)]
  rfl

/-- Replacing stops at a character that is not in the pattern. -/
theorem replaceAux_sep {pat new : Str} {x : Char} (hx : x ∉ pat) (hp : pat ≠ []) (b : Str) : ∀ (a : Str) (k : Nat), k ≤ a.length →
    replaceAux pat new k (a ++ x :: b) = replaceAux pat new k a ++ x :: replaceAux pat new 0 b
  | [], k, hk => by
    obtain rfl : k = 0 := by simpa using hk
    have : pat.isPrefixOf (x :: b) = false := by
      cases pat with
      | nil => exact absurd rfl hp
      | cons y p =>
        rw [← Bool.not_eq_true, List.isPrefixOf_iff_prefix, List.cons_prefix_cons]
        exact fun h => hx (by simp [h.1])
    simp only [List.nil_append, replaceAux, this, Bool.false_eq_true, if_false]
  | c :: a, k + 1, hk => by
    rw [List.cons_append, replaceAux, replaceAux, replaceAux_sep hx hp b a k (by simpa using hk)]
  | c :: a, 0, _ => by
    rw [List.cons_append, replaceAux, replaceAux]
    have he : pat.isPrefixOf (c :: (a ++ x :: b)) = pat.isPrefixOf (c :: a) := by
      rw [Bool.eq_iff_iff, List.isPrefixOf_iff_prefix, List.isPrefixOf_iff_prefix, ← List.cons_append]
      refine ⟨fun h => ?_, fun h => h.trans (List.prefix_append _ _)⟩
      by_cases hl : pat.length ≤ (c :: a).length
      · exact List.prefix_of_prefix_length_le h (List.prefix_append _ _) hl
      · exfalso
        have h2 : c :: a ++ [x] <+: pat := by
          refine List.prefix_of_prefix_length_le (l₃ := c :: a ++ x :: b) ⟨b, by simp⟩ h ?_
          simp only [List.length_append, List.length_cons, List.length_nil] at hl ⊢; omega
        exact hx (h2.subset (by simp))
    rw [he]
    split
    · next h =>
      have hl := (List.isPrefixOf_iff_prefix.1 h).length_le
      rw [replaceAux_sep hx hp b a _ (by simp only [List.length_cons] at hl; omega), List.append_assoc]
    · rw [replaceAux_sep hx hp b a 0 (Nat.zero_le _), List.cons_append]

theorem replaceAux_none {pat new : Str} : ∀ {a : Str}, ¬ pat <:+: a → replaceAux pat new 0 a = a
  | [], _ => rfl
  | c :: a, h => by
    rw [List.infix_cons_iff] at h
    push Not at h
    have : pat.isPrefixOf (c :: a) = false := by rw [← Bool.not_eq_true, List.isPrefixOf_iff_prefix]; exact h.1
    rw [replaceAux, this]
    simp only [Bool.false_eq_true, if_false]
    rw [replaceAux_none h.2]

theorem folderOf_in (dir : Str) : folderOf (dir ++ c!"/document.xml") = replaceStr c!"document.xml" [] dir ++ c!"/" := by
  have := replaceAux_sep (pat := c!"document.xml") (new := []) (x := '/') (by decide) (by decide) c!"document.xml" dir 0 (Nat.zero_le _)
  rw [folderOf, replaceStr, show dir ++ c!"/document.xml" = dir ++ '/' :: c!"document.xml" from rfl, this]
  rfl

theorem partPath_double {path : Str} (h : ∃ dir, path = dir ++ c!"/document.xml") (target : Str) : Occurs c!"//" (partPath path target) := by
  obtain ⟨dir, rfl⟩ := h
  rw [partPath, folderOf_in]
  exact ⟨replaceStr c!"document.xml" [] dir, target, by simp⟩

theorem trimEnd_head {c : Char} (hc : c ≠ '/') (s : Str) : ∃ t, (((c :: s).reverse.dropWhile fun x => decide (x = '/'))).reverse = c :: t := by
  rw [List.reverse_cons]
  induction s using List.reverseRecOn with
  | nil => exact ⟨[], by simp [hc]⟩
  | append_singleton s d ih =>
    rw [List.reverse_append, List.reverse_singleton, List.singleton_append, List.cons_append, List.dropWhile_cons]
    split
    · exact ih
    · exact ⟨s ++ [d], by simp⟩

theorem basePath_head {path : Str} (h : InFolder path) (target : Str) : (basePath path target).head? ≠ some '/' := by
  obtain ⟨dir, rfl, hne, hs, ho⟩ := h
  rw [basePath, baseOf, folderOf_in, replaceStr, replaceAux_none (fun hi => ho (occurs_iff.2 hi))]
  cases dir with
  | nil => exact absurd rfl hne
  | cons c s =>
    obtain ⟨t, ht⟩ := trimEnd_head (c := c) (fun h => hs (by rw [h]; rfl)) (s ++ c!"/")
    rw [List.cons_append, ht]
    exact fun h => hs h

variable {ps : List Part}

theorem named {name : Str} (W : ∀ n ∈ ps.map (·.name), n ≠ name) : contentOf ps name = none :=
  contentOf_none fun p hp => W _ (List.mem_map_of_mem hp)

theorem rooted_none (W : WordNames (ps.map (·.name))) {name : Str} (h : name.head? ≠ some '/') : contentOf ps name = none :=
  named fun n hn e => h (e ▸ W.rooted n hn)

theorem double_none (W : ∀ n ∈ ps.map (·.name), ¬ Occurs c!"//" n) {name : Str} (h : Occurs c!"//" name) : contentOf ps name = none :=
  named fun n hn e => W n hn (e ▸ h)

/-- Headers, footers and comments are looked for under paths no part has. -/
theorem sideParts_none (x : ReadEnv) (n : Nat) {path : Str} (h : ∀ t, contentOf ps (partPath path t) = none) (kind : Str) :
    ∀ l, readSideParts x n ps path kind l = .ok []
  | [] => rfl
  | t :: ts => by
    rw [readSideParts, h]
    dsimp only
    rw [sideParts_none x n h kind ts, ite_self]

theorem readIfThere_none {α : Type} (a : α) (f : Str → Got α) : readIfThere none a f = .ok a := rfl

theorem records_none (n : Nat) {path : Str} (h : ∀ t, contentOf ps (partPath path t) = none) (m : Rels) : readRecords n ps path m = .ok [] := by
  rw [readRecords]
  have : ∀ o : Option Str, (o.bind fun t => contentOf ps (partPath path t)) = none := by
    intro o; cases o with
    | none => rfl
    | some t => exact h t
  rw [this]; rfl

theorem notes_none (x : ReadEnv) (n : Nat) {path : Str} (h : ∀ t, contentOf ps (partPath path t) = none) (m : Rels) (rs : List CommentExtended) :
    readNotes x n ps path m rs = .ok [] := by
  rw [readNotes]
  have : ∀ o : Option Str, (o.bind fun t => contentOf ps (partPath path t)) = none := by
    intro o; cases o with
    | none => rfl
    | some t => exact h t
  rw [this]; rfl

/-- Without headers and footers there is nothing to put in. -/
theorem assignParts_none (e : FileEnv) (r : ReadFile) : assignParts e [] [] [] r = .ok r := by
  have h1 : ∀ ref set r, assignHeader e [] [] ref set r = .ok r := by
    intro ref set r; unfold assignHeader; split <;> rfl
  have h2 : ∀ ref set r, assignFooter e [] [] ref set r = .ok r := by
    intro ref set r; unfold assignFooter; split <;> rfl
  simp only [assignParts, h1, h2, Got.bind]

/-- Pictures only add to the list of pictures. -/
theorem addPictures_same (e : FileEnv) (base64 : Str → Option Bytes) (path : Str) : ∀ (l : List (Str × Str × Str)) (r : ReadFile),
    ∃ i, addPictures e base64 ps path l r = .ok { r with images := i }
  | [], r => ⟨r.images, rfl⟩
  | t :: ts, r => by
    rw [addPictures]
    split
    · split
      · exact addPictures_same e base64 path ts r
      · next s _ =>
        obtain ⟨i, hi⟩ := r.addImage_ok { e with previews := true } t.2.1 t.2.2 (pictureBytes base64 s)
        rw [hi]
        obtain ⟨j, hj⟩ := addPictures_same e base64 path ts { r with images := i }
        exact ⟨j, hj⟩
    · exact addPictures_same e base64 path ts r

/-! ## The declaration does not matter -/

theorem lex_pi : ∀ (r acc : Str), lex (.pi acc) r =
    match (if acc.getLast? = some '?' ∧ r.head? = some '>' then some (r.drop 1) else behindMark r) with
    | some b => .other :: lex (.text []) b
    | none => [.error]
  | [], acc => by simp [lex, behindMark]
  | c :: r, acc => by
    rw [lex]
    by_cases h : c = '>' ∧ acc.getLast? = some '?'
    · rw [if_pos h, if_pos ⟨h.2, by rw [h.1]; rfl⟩]
      rfl
    · rw [if_neg h, lex_pi r (acc ++ [c])]
      have h2 : ¬ (acc.getLast? = some '?' ∧ (c :: r).head? = some '>') := by
        rintro ⟨a, b⟩
        exact h ⟨by simpa using b, a⟩
      rw [if_neg h2, behindMark]
      simp

theorem readEvents_undeclared (s : Str) : readEvents (undeclared s) = readEvents s := by
  unfold undeclared
  split
  · next h =>
    obtain ⟨r, rfl⟩ := List.isPrefixOf_iff_prefix.1 h
    have h1 : (c!"<?" ++ r).drop 2 = r := rfl
    rw [h1]
    cases hb : behindMark r with
    | none => rfl
    | some b =>
      have : lex (.text []) (c!"<?" ++ r) = .other :: lex (.text []) b := by
        have h2 := lex_pi r []
        rw [if_neg (by simp), hb] at h2
        exact h2
      simp only [Option.getD_some, readEvents, this]
      rfl
  · rfl

/-! ## The parts of an archive -/

variable {encode : Bytes → Str} {typeOf : Str → Str} {es : List Entry}

theorem flat_names {p : Part} (h : p ∈ flatParts encode typeOf es) : ∃ e ∈ es, p.name = '/' :: e.name ∧ e.name ≠ c!"[Content_Types].xml" ∧
    ∀ s, e.content = .text s → p.data = undeclared s := by
  obtain ⟨e, he, h⟩ := List.mem_filterMap.1 h
  unfold flatPart at h
  split at h
  · cases h
  · next hn =>
    refine ⟨e, he, ?_⟩
    split at h
    · cases h
    all_goals
      cases h
      refine ⟨rfl, hn, fun s hs => ?_⟩
      simp_all

theorem flatPart_text {name s : Str} (hn : name ≠ c!"[Content_Types].xml") :
    flatPart encode typeOf ⟨name, .text s⟩ = some ⟨'/' :: name, typeOf name, undeclared s⟩ := by
  unfold flatPart
  rw [if_neg hn]

theorem flatPart_name {e : Entry} {p : Part} (h : flatPart encode typeOf e = some p) : p.name = '/' :: e.name := by
  unfold flatPart at h
  split at h
  · cases h
  · split at h
    · cases h
    all_goals
      cases h
      rfl

theorem flat_content (hd : (es.map Entry.name).Nodup) {name s : Str} (h : ⟨name, .text s⟩ ∈ es) (hn : name ≠ c!"[Content_Types].xml") :
    contentOf (flatParts encode typeOf es) ('/' :: name) = some (undeclared s) := by
  have hp : (⟨'/' :: name, typeOf name, undeclared s⟩ : Part) ∈ flatParts encode typeOf es :=
    List.mem_filterMap.2 ⟨_, h, flatPart_text hn⟩
  refine contentOf_one hp fun q hq hqn => ?_
  obtain ⟨e, he, hq⟩ := List.mem_filterMap.1 hq
  have hname : e.name = name := (List.cons.inj ((flatPart_name hq).symm.trans hqn)).2
  have he' : e = ⟨name, .text s⟩ := List.inj_on_of_nodup_map hd he h hname
  rw [he', flatPart_text hn] at hq
  exact (Option.some.inj hq).symm

end Docx.FlatOpc
