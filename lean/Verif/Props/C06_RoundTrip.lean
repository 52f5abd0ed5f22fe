import Verif.Lemmas.XmlParser
import Verif.Lemmas.XmlWriter
import Verif.Props.C01_C04_Escape
import Verif.Props.C05_Writer

/-! # C06: what the writer writes, the reader reads -/

namespace Docx.Props

open Docx Docx.Spec Docx.Xml

/-- Name splitting, independent of how it is computed: the prefix is what stands before the first
colon. -/
theorem C06_splitQName (raw : Str) :
    (':' ∉ raw ∧ splitQName raw = ⟨none, raw⟩) ∨
    (∃ p l, raw = p ++ ':' :: l ∧ ':' ∉ p ∧ splitQName raw = ⟨some p, l⟩) := by
  by_cases h : ':' ∈ raw
  · right
    have key : ∃ p l, raw = p ++ ':' :: l ∧ ':' ∉ p := by
      induction raw with
      | nil => simp at h
      | cons c r ih =>
        by_cases hc : c = ':'
        · exact ⟨[], r, by simp [hc], by simp⟩
        · have : ':' ∈ r := by
            rcases List.mem_cons.1 h with e | e
            · exact absurd e.symm hc
            · exact e
          obtain ⟨p, l, rfl, hp⟩ := ih this
          exact ⟨c :: p, l, by simp, by simp [hp]; exact fun e => hc e.symm⟩
    obtain ⟨p, l, e, hp⟩ := key
    refine ⟨p, l, e, hp, ?_⟩
    have h1 : (p ++ ':' :: l).takeWhile (· ≠ ':') = p := by
      rw [List.takeWhile_append_of_pos]
      · simp
      · intro a ha; simp; intro e; exact hp (e ▸ ha)
    have h2 : (p ++ ':' :: l).dropWhile (· ≠ ':') = ':' :: l := by
      rw [List.dropWhile_append_of_pos]
      · simp
      · intro a ha; simp; intro e; exact hp (e ▸ ha)
    unfold splitQName
    rw [if_pos h, e, h1, h2]
    rfl
  · left
    exact ⟨h, by simp [splitQName, h]⟩

/-- **C06.** The canonical text of any nodes with well-formed names, attribute values and character
data is read back as the events of exactly those nodes. -/
theorem C06_read_print (f : List Node) (h : ∀ t ∈ tagsForest f, TagOk t) :
    readEvents (printForest f) = expect [] none (tagsForest f) := by
  have := reads_forest f [] [] [] h reads_eof none [] (by simp)
  simpa [readEvents] using this

theorem lex_decl (body rest acc : Str) (h : '>' ∉ body) :
    lex (.pi acc) (body ++ '?' :: '>' :: rest) = .other :: lex (.text []) rest := by
  induction body generalizing acc with
  | nil => simp [lex]
  | cons c b ih =>
    simp only [List.mem_cons, not_or] at h
    rw [List.cons_append, lex, if_neg (fun e => h.1 e.1.symm), ih _ h.2]

/-- **C06.** Writer and reader composed: any balanced sequence of well-formed tags is accepted by
the writer, and reading the output reports exactly those tags. -/
theorem C06_read_write (ts : List Tag) (hu : NeverUnderflows ts) (hb : opens ts = closes ts)
    (h : ∀ t ∈ ts, TagOk t) :
    ∃ out, render (ts.map tagEvent) = .ok out ∧ readEvents out = expect [] none ts := by
  obtain ⟨f, e, hr⟩ := C05_balanced_output ts hu hb
  exact ⟨_, hr, by subst e; exact C06_read_print f h⟩

/-- **C06.** The same behind an XML declaration. -/
theorem C06_read_write_declared (v : Str) (enc : Option Str) (sa : Option Bool) (f : List Node)
    (hv : '>' ∉ v) (henc : ∀ e, enc = some e → '>' ∉ e) (h : ∀ t ∈ tagsForest f, TagOk t) :
    ∃ out, render (.startDocument v enc sa :: (tagsForest f).map tagEvent) = .ok out ∧
      readEvents out = expect [] none (tagsForest f) := by
  refine ⟨_, C05_declaration v enc sa f, ?_⟩
  have hd : ∃ b, declaration v enc sa = '<' :: '?' :: (b ++ ['?', '>']) ∧ '>' ∉ b := by
    have key : ∀ E S : Str, '>' ∉ E → '>' ∉ S →
        ∃ b, c!"<?xml version=\"" ++ v ++ c!"\"" ++ E ++ S ++ c!"?>" =
          '<' :: '?' :: (b ++ ['?', '>']) ∧ '>' ∉ b := by
      intro E S hE hS
      refine ⟨c!"xml version=\"" ++ v ++ c!"\"" ++ E ++ S, by simp, ?_⟩
      simp only [List.mem_append, not_or]
      exact ⟨⟨⟨⟨by decide, hv⟩, by decide⟩, hE⟩, hS⟩
    unfold declaration
    apply key
    · cases enc with
      | none => decide
      | some e => have := henc e rfl; simp [this]
    · match sa with
      | none => decide
      | some true => decide
      | some false => decide
  obtain ⟨b, e, hb⟩ := hd
  have h2 := C06_read_print f h
  unfold readEvents at h2 ⊢
  rw [e]
  have : '<' :: '?' :: (b ++ ['?', '>']) ++ printForest f =
      '<' :: '?' :: (b ++ '?' :: '>' :: printForest f) := by simp
  rw [this, lex]
  simp only [if_true]
  rw [lex]
  simp only [Char.reduceEq, if_false, if_true]
  rw [lex_decl _ _ _ hb]
  simp [textTok, events, flushText, h2]

/-- Escaping leaves the balance of tags alone. -/
theorem opens_map_escape (ts : List Tag) :
    opens (ts.map escapeTag) = opens ts ∧ closes (ts.map escapeTag) = closes ts := by
  induction ts with
  | nil => simp [opens, closes]
  | cons t ts ih => cases t <;> simp_all [opens, closes, escapeTag]

theorem decodeAttr_escape (s : Str) (hr : '\r' ∉ s) (ht : '\t' ∉ s) :
    decodeAttr (escape s) = some s := by
  rw [C01_escape_attribute, List.filter_eq_self.2]
  · congr 1
    conv => rhs; rw [← List.map_id s]
    apply List.map_congr_left
    intro c hc
    rw [if_neg (fun (e : c = '\t') => ht (e ▸ hc))]
    rfl
  · intro c hc; simp; intro e; exact hr (e ▸ hc)

theorem tagOk_escape (t : Tag) (h : PlainOk t) : TagOk (escapeTag t) := by
  cases t with
  | opn n as =>
    refine ⟨h.1, ?_⟩
    intro a ha
    simp only [List.mem_map] at ha
    obtain ⟨b, hb, rfl⟩ := ha
    have := h.2 b hb
    exact ⟨this.1, by rw [decodeAttr_escape _ this.2.1 this.2.2]; rfl⟩
  | cls => trivial
  | txt s =>
    exact ⟨by rw [C01_escape_roundtrip s h]; rfl, fun e => (escape_no_delim s _ e).2.2.2.2.2 rfl⟩

theorem expect_escape (ts : List Tag) (h : ∀ t ∈ ts, PlainOk t) (stk : List Str) (acc : Option Str) :
    expect stk acc (ts.map escapeTag) = expectPlain stk acc ts := by
  induction ts generalizing stk acc with
  | nil => rfl
  | cons t ts ih =>
    have ih := ih (fun t ht => h t (by simp [ht]))
    have ht := h t (by simp)
    cases t with
    | opn n as =>
      have ha : expectAttrs (as.map fun a => (a.1, escape a.2)) =
          as.map fun a => (splitQName a.1, a.2) := by
        have h2 := ht.2
        clear ih ht h
        induction as with
        | nil => rfl
        | cons a as ih2 =>
          have := h2 a (by simp)
          simp only [List.map_cons, expectAttrs, decodeAttr_escape _ this.2.1 this.2.2]
          rw [ih2 (fun b hb => h2 b (by simp [hb]))]
      simp only [List.map_cons, escapeTag, expect, expectPlain, ih, ha]
    | cls =>
      cases stk with
      | nil => rfl
      | cons n stk => simp only [List.map_cons, escapeTag, expect, expectPlain, ih]
    | txt s =>
      simp only [List.map_cons, escapeTag, expect, C01_escape_roundtrip s ht]
      cases s <;> simp only [expectPlain, ih]

/-- **C06.** For plain user strings: whatever names, attribute values and texts are written through
`escape`, reading the file reports exactly those strings. -/
theorem C06_user_strings (ts : List Tag) (hu : NeverUnderflows ts) (hb : opens ts = closes ts)
    (h : ∀ t ∈ ts, PlainOk t) :
    ∃ out, render ((ts.map escapeTag).map tagEvent) = .ok out ∧
      readEvents out = expectPlain [] none ts := by
  have h1 : NeverUnderflows (ts.map escapeTag) := by
    intro k
    rw [← List.map_take, (opens_map_escape _).1, (opens_map_escape _).2]
    exact hu k
  have h2 : opens (ts.map escapeTag) = closes (ts.map escapeTag) := by
    rw [(opens_map_escape _).1, (opens_map_escape _).2, hb]
  obtain ⟨out, e1, e2⟩ := C06_read_write (ts.map escapeTag) h1 h2 (by
    intro t ht
    simp only [List.mem_map] at ht
    obtain ⟨u, hu, rfl⟩ := ht
    exact tagOk_escape u (h u hu))
  exact ⟨out, e1, by rw [e2, expect_escape ts h]⟩

/-! Concrete cases. -/

/-- A paragraph with a hostile attribute value and text. -/
def hostileTags : List Tag :=
  [.opn c!"w:p" [(c!"w:id", c!"\"><x y='&amp;")], .opn c!"w:t" [], .txt c!"a < b && c\n", .cls, .cls]

example : ∀ t ∈ hostileTags, PlainOk t := by
  intro t ht
  simp only [hostileTags, List.mem_cons, List.not_mem_nil, or_false] at ht
  rcases ht with rfl | rfl | rfl | rfl | rfl
  · exact ⟨⟨by decide, by decide⟩, by
      intro a ha
      simp only [List.mem_cons, List.not_mem_nil, or_false] at ha
      subst ha
      exact ⟨⟨by decide, by decide⟩, by decide, by decide⟩⟩
  · exact ⟨⟨by decide, by decide⟩, by simp⟩
  · show '\r' ∉ _; decide
  · trivial
  · trivial
example : opens hostileTags = closes hostileTags := by decide
example : expectPlain [] none hostileTags =
    [.start ⟨some c!"w", c!"p"⟩ [(⟨some c!"w", c!"id"⟩, c!"\"><x y='&amp;")],
     .start ⟨some c!"w", c!"t"⟩ [], .chars c!"a < b && c\n", .«end» ⟨some c!"w", c!"t"⟩,
     .«end» ⟨some c!"w", c!"p"⟩, .endDocument] := by decide
example : readEvents c!"<?xml version=\"1.0\"?><a k=\"v\">x<b />&amp;</a>" =
    [.start ⟨none, c!"a"⟩ [(⟨none, c!"k"⟩, c!"v")], .chars c!"x", .start ⟨none, c!"b"⟩ [],
     .«end» ⟨none, c!"b"⟩, .chars c!"&", .«end» ⟨none, c!"a"⟩, .endDocument] := by decide

end Docx.Props
