import Verif.Spec.XmlRead

namespace Docx.Xml

open Docx Docx.Spec

/-- Accumulated text after appending raw characters. -/
def merge (acc : Option Str) (a : Str) : Option Str :=
  if a = [] then acc else some (acc.getD [] ++ a)

@[simp] theorem merge_nil (acc : Option Str) : merge acc [] = acc := by simp [merge]

theorem merge_merge (acc : Option Str) (a b : Str) : merge (merge acc a) b = merge acc (a ++ b) := by
  unfold merge
  by_cases ha : a = [] <;> by_cases hb : b = [] <;> simp [ha, hb]

theorem normalizeEol_id (s : Str) (h : '\r' ∉ s) : normalizeEol s = s := by
  induction s with
  | nil => rfl
  | cons c s ih =>
    simp only [List.mem_cons, not_or] at h
    rw [normalizeEol, ih h.2]
    · intro r e; exact absurd e.symm h.1
    · intro e; exact absurd e.symm h.1

theorem events_textTok (stk : List Str) (acc : Option Str) (a : Str) (X : List Tok)
    (h : '\r' ∉ a) : events stk acc (textTok a ++ X) = events stk (merge acc a) X := by
  unfold textTok merge
  by_cases ha : a = []
  · simp [ha]
  · simp [ha, events, normalizeEol_id a h]

theorem flushText_eq (acc : Option Str) : flushText acc = expectText acc := by
  cases acc with
  | none => rfl
  | some t =>
    simp only [flushText, expectText, textEvent]
    have : t.all isSpace = true ↔ ∀ c ∈ t, c = ' ' ∨ c = '\t' ∨ c = '\n' ∨ c = '\r' := by
      simp [List.all_eq_true, isSpace, or_assoc]
    by_cases h : t.all isSpace
    · rw [if_pos h, if_pos (this.1 h)]
    · rw [if_neg h, if_neg (fun e => h (this.2 e))]

/-- Lexing a piece of well-formed character data. -/
theorem lex_text (stk : List Str) (t : Str) :
    (∀ d acc a, decodeFrom none t = some d → '\r' ∉ t → '\r' ∉ a →
      ∃ acc' a', '\r' ∉ a' ∧ merge acc' a' = merge (merge acc a) d ∧
        ∀ rest, events stk acc (lex (.text a) (t ++ rest)) = events stk acc' (lex (.text a') rest)) ∧
    (∀ d acc p, decodeFrom (some p) t = some d → '\r' ∉ t →
      ∃ acc' a', '\r' ∉ a' ∧ merge acc' a' = merge acc d ∧
        ∀ rest, events stk acc (lex (.ref p) (t ++ rest)) = events stk acc' (lex (.text a') rest)) := by
  induction t with
  | nil =>
    constructor
    · intro d acc a h _ ha
      simp only [decodeFrom, Option.some.injEq] at h
      subst h
      exact ⟨acc, a, ha, by simp, by simp⟩
    · intro d acc p h
      simp [decodeFrom] at h
  | cons c t ih =>
    constructor
    · intro d acc a h hr ha
      simp only [List.mem_cons, not_or] at hr
      simp only [decodeFrom] at h
      by_cases h1 : c = '&'
      · subst h1
        simp only [if_true] at h
        obtain ⟨acc', a', h2, h3, h4⟩ := ih.2 d (merge acc a) [] h hr.2
        refine ⟨acc', a', h2, h3, fun rest => ?_⟩
        rw [List.cons_append, lex]
        simp only [Char.reduceEq, if_false, if_true]
        rw [events_textTok _ _ _ _ ha, h4]
      · rw [if_neg h1] at h
        by_cases h2 : c = '<'
        · simp [h2] at h
        · rw [if_neg h2] at h
          obtain ⟨d', hd, e⟩ := Option.map_eq_some_iff.1 h
          obtain ⟨acc', a', h3, h4, h5⟩ := ih.1 d' acc (a ++ [c]) hd hr.2 (by
            simp [ha]; exact hr.1)
          refine ⟨acc', a', h3, ?_, fun rest => ?_⟩
          · rw [h4, merge_merge, merge_merge, ← e]; simp
          · rw [List.cons_append, lex]
            simp only [h1, h2, if_false]
            exact h5 rest
    · intro d acc p h hr
      simp only [List.mem_cons, not_or] at hr
      simp only [decodeFrom] at h
      by_cases h1 : c = ';'
      · rw [if_pos h1] at h
        obtain ⟨ch, hch, h⟩ := Option.bind_eq_some_iff.1 h
        obtain ⟨d', hd, e⟩ := Option.map_eq_some_iff.1 h
        obtain ⟨acc', a', h3, h4, h5⟩ := ih.1 d' (merge acc [ch]) [] hd hr.2 (by simp)
        refine ⟨acc', a', h3, ?_, fun rest => ?_⟩
        · rw [h4, merge_merge, merge_merge, ← e]; simp
        · rw [List.cons_append, lex]
          simp only [h1, if_true, events, decodeReference, hch]
          exact h5 rest
      · rw [if_neg h1] at h
        by_cases h2 : c = '&' ∨ c = '<'
        · simp [h2] at h
        · rw [if_neg h2] at h
          obtain ⟨acc', a', h3, h4, h5⟩ := ih.2 d acc (p ++ [c]) h hr.2
          refine ⟨acc', a', h3, h4, fun rest => ?_⟩
          rw [List.cons_append, lex]
          simp only [h1, h2, if_false]
          exact h5 rest

/-! ### Tags -/

theorem not_delim {c : Char} (h : c ∉ delimiters) :
    c ≠ ' ' ∧ c ≠ '\t' ∧ c ≠ '\n' ∧ c ≠ '\r' ∧ c ≠ '<' ∧ c ≠ '>' ∧ c ≠ '/' ∧ c ≠ '"' ∧ c ≠ '\'' ∧
      c ≠ '=' ∧ c ≠ '&' ∧ c ≠ '!' ∧ c ≠ '?' := by
  simpa [delimiters] using h

theorem isSpace_name {c : Char} (h : c ∉ delimiters) : isSpace c = false := by
  have := not_delim h
  simp [isSpace, this]

theorem lex_tag_plain (acc n rest : Str) (h : ∀ c ∈ n, c ≠ '>' ∧ c ≠ '"' ∧ c ≠ '\'') :
    lex (.tag acc none) (n ++ rest) = lex (.tag (acc ++ n) none) rest := by
  induction n generalizing acc with
  | nil => simp
  | cons c n ih =>
    have hc := h c (by simp)
    rw [List.cons_append, lex]
    simp only [hc, or_self, if_false]
    rw [ih _ (fun c' e => h c' (by simp [e]))]
    simp

theorem lex_tag_quoted (acc v rest : Str) (h : '"' ∉ v) :
    lex (.tag acc (some '"')) (v ++ '"' :: rest) = lex (.tag (acc ++ v ++ ['"']) none) rest := by
  induction v generalizing acc with
  | nil => simp [lex]
  | cons c v ih =>
    simp only [List.mem_cons, not_or] at h
    rw [List.cons_append, lex]
    rw [if_neg (fun e => h.1 e.symm), ih _ h.2]
    simp

/-- A name or attribute name may be scanned inside a tag. -/
theorem name_plain {n : Str} (h : NameOk n) : ∀ c ∈ n, c ≠ '>' ∧ c ≠ '"' ∧ c ≠ '\'' := by
  intro c hc
  have := not_delim (h.2 c hc)
  simp [this]

theorem lex_tag_attrs (as : List (Str × Str)) (acc rest : Str)
    (h : ∀ a ∈ as, NameOk a.1 ∧ '"' ∉ a.2) :
    lex (.tag acc none) (printAttrs as ++ rest) = lex (.tag (acc ++ printAttrs as) none) rest := by
  induction as generalizing acc with
  | nil => simp [printAttrs]
  | cons a as ih =>
    have ha := h a (by simp)
    have e : printAttrs (a :: as) = (' ' :: a.1 ++ ['=']) ++ ('"' :: (a.2 ++ '"' :: printAttrs as)) := by
      simp [printAttrs]
    rw [e, List.append_assoc, lex_tag_plain]
    · simp only [List.cons_append, List.append_assoc]
      rw [lex]
      simp only [Char.reduceEq, if_false, true_or, if_true]
      rw [lex_tag_quoted _ _ _ ha.2, ih _ (fun b hb => h b (by simp [hb]))]
      simp
    · intro c hc
      simp only [List.mem_append, List.mem_cons, List.not_mem_nil, or_false] at hc
      rcases hc with (rfl | hc) | rfl
      · decide
      · exact name_plain ha.1 c hc
      · decide

theorem lex_lt_name (n : Str) (rest : Str) (h : NameOk n) :
    lex .lt (n ++ rest) = lex (.tag n none) rest := by
  obtain ⟨hne, hc⟩ := h
  cases n with
  | nil => exact absurd rfl hne
  | cons c n =>
    have h1 := not_delim (hc c (by simp))
    rw [List.cons_append, lex]
    simp only [h1, or_self, if_false]
    rw [lex_tag_plain]
    · simp
    · intro d hd
      have := not_delim (hc d (by simp [hd]))
      simp [this]

theorem takeWhile_name (n r : Str) (h : ∀ c ∈ n, c ∉ delimiters)
    (hr : r = [] ∨ ∃ c r', r = c :: r' ∧ isSpace c = true) :
    tagName (n ++ r) = n ∧ tagAttrs (n ++ r) = r := by
  unfold tagName tagAttrs
  induction n with
  | nil =>
    rcases hr with rfl | ⟨c, r', rfl, hs⟩
    · simp
    · simp [hs]
  | cons c n ih =>
    have hc := isSpace_name (h c (by simp))
    have := ih (fun d hd => h d (by simp [hd]))
    simp [hc, this]

theorem parse_key (k acc rest : Str) (h : ∀ c ∈ k, c ∉ delimiters) :
    parseAttrs (.key acc) (k ++ '=' :: rest) = parseAttrs (.val (acc ++ k)) rest := by
  induction k generalizing acc with
  | nil => simp [parseAttrs]
  | cons c k ih =>
    have hc := not_delim (h c (by simp))
    have hs := isSpace_name (h c (by simp))
    rw [List.cons_append, parseAttrs]
    simp only [hc, if_false, hs]
    rw [if_neg (by simp), ih _ (fun d hd => h d (by simp [hd]))]
    simp

theorem parse_val (k v acc rest : Str) (h : '"' ∉ v) :
    parseAttrs (.inVal k '"' acc) (v ++ '"' :: rest) =
      (parseAttrs .skip rest).map ((k, acc ++ v) :: ·) := by
  induction v generalizing acc with
  | nil => simp [parseAttrs]
  | cons c v ih =>
    simp only [List.mem_cons, not_or] at h
    rw [List.cons_append, parseAttrs, if_neg (fun e => h.1 e.symm), ih _ h.2]
    simp

theorem parse_printAttrs (as : List (Str × Str)) (sp : Str) (hsp : sp = [] ∨ sp = [' '])
    (h : ∀ a ∈ as, NameOk a.1 ∧ '"' ∉ a.2) :
    parseAttrs .skip (printAttrs as ++ sp) = some as := by
  induction as with
  | nil => rcases hsp with rfl | rfl <;> simp [printAttrs, parseAttrs, isSpace]
  | cons a as ih =>
    obtain ⟨k, v⟩ := a
    have ha := h (k, v) (by simp)
    have hih := ih (fun b hb => h b (by simp [hb]))
    cases k with
    | nil => exact absurd rfl ha.1.1
    | cons c k =>
      have hc := not_delim (ha.1.2 c (by simp))
      have hs := isSpace_name (ha.1.2 c (by simp))
      have e : printAttrs ((c :: k, v) :: as) ++ sp =
          ' ' :: c :: (k ++ '=' :: ('"' :: (v ++ '"' :: (printAttrs as ++ sp)))) := by
        simp [printAttrs]
      rw [e, parseAttrs, if_pos (by decide), parseAttrs]
      simp only [hs, hc, if_false]
      rw [if_neg (by simp), parse_key _ _ _ (fun d hd => ha.1.2 d (by simp [hd])), parseAttrs]
      rw [if_neg (by decide), if_pos (by simp), parse_val _ _ _ _ ha.2, hih]
      simp

theorem decodeAttr_some {v v' : Str} (h : decodeAttr v = some v') :
    '"' ∉ v ∧ decodeText (v.map attrSpace) = some v' := by
  unfold decodeAttr at h
  split at h
  · simp at h
  · exact ⟨by assumption, h⟩

theorem mapM_attrs (as : List (Str × Str)) (h : ∀ a ∈ as, (decodeAttr a.2).isSome) :
    as.mapM (fun kv => (decodeText (kv.2.map attrSpace)).map fun v => (splitQName kv.1, v)) =
      some (expectAttrs as) := by
  induction as with
  | nil => rfl
  | cons a as ih =>
    obtain ⟨k, v⟩ := a
    obtain ⟨v', hv⟩ := Option.isSome_iff_exists.1 (h (k, v) (by simp))
    have := (decodeAttr_some hv).2
    simp only [List.mapM_cons, this, Option.map_some, expectAttrs, hv,
      ih (fun b hb => h b (by simp [hb]))]
    rfl

theorem buildStart_ok (n sp : Str) (as : List (Str × Str)) (hn : NameOk n)
    (hsp : sp = [] ∨ sp = [' ']) (h : ∀ a ∈ as, NameOk a.1 ∧ (decodeAttr a.2).isSome) :
    tagName (n ++ (printAttrs as ++ sp)) = n ∧
    buildStartEvent (n ++ (printAttrs as ++ sp)) = .start (splitQName n) (expectAttrs as) := by
  have hq : ∀ a ∈ as, NameOk a.1 ∧ '"' ∉ a.2 := by
    intro a ha
    obtain ⟨v', hv⟩ := Option.isSome_iff_exists.1 (h a ha).2
    exact ⟨(h a ha).1, (decodeAttr_some hv).1⟩
  have ht := takeWhile_name n (printAttrs as ++ sp) hn.2 (by
    cases as with
    | nil =>
      rcases hsp with rfl | rfl
      · left; rfl
      · right; exact ⟨' ', [], rfl, rfl⟩
    | cons a as => right; exact ⟨' ', _, rfl, rfl⟩)
  refine ⟨ht.1, ?_⟩
  unfold buildStartEvent buildAttributes
  rw [ht.1, ht.2, parse_printAttrs as sp hsp hq]
  simp only [Option.bind_some]
  rw [mapM_attrs as (fun a ha => (h a ha).2)]

theorem lex_endTag (n acc rest : Str) (h : NameOk n) :
    lex (.endTag acc) (n ++ '>' :: rest) = .«end» (trimEnd (acc ++ n)) :: lex (.text []) rest := by
  have hc := h.2
  clear h
  induction n generalizing acc with
  | nil => simp [lex]
  | cons c n ih =>
    have h1 := not_delim (hc c (by simp))
    rw [List.cons_append, lex]
    simp only [h1, if_false]
    rw [ih _ (fun d hd => hc d (by simp [hd]))]
    simp

theorem trimEnd_name (n : Str) (h : NameOk n) : trimEnd n = n := by
  obtain ⟨hne, hc⟩ := h
  unfold trimEnd
  rcases List.eq_nil_or_concat n with rfl | ⟨m, c, rfl⟩
  · exact absurd rfl hne
  · have := isSpace_name (hc c (by simp))
    simp [this]

theorem getLast_printAttrs (n : Str) (as : List (Str × Str)) (h : NameOk n) :
    (n ++ printAttrs as).getLast? ≠ some '/' := by
  rcases List.eq_nil_or_concat as with rfl | ⟨bs, b, rfl⟩
  · simp only [printAttrs, List.flatMap_nil, List.append_nil]
    intro e
    have := List.mem_of_getLast? e
    exact (not_delim (h.2 _ this)).2.2.2.2.2.2.1 rfl
  · have : n ++ printAttrs (bs.concat b) =
        (n ++ printAttrs bs ++ ' ' :: b.1 ++ c!"=\"" ++ b.2) ++ ['"'] := by
      simp [printAttrs]
    rw [this, List.getLast?_append]
    simp

theorem closeTag_start (n : Str) (as : List (Str × Str)) (h : NameOk n) :
    closeTag (n ++ printAttrs as) = .start (n ++ printAttrs as) := by
  have h1 := getLast_printAttrs n as h
  unfold closeTag
  rw [if_neg h1]

theorem closeTag_empty (s : Str) : closeTag (s ++ [' ', '/']) = .empty (s ++ [' ']) := by
  have : s ++ [' ', '/'] = (s ++ [' ']) ++ ['/'] := by simp
  unfold closeTag
  rw [this, List.getLast?_append, List.dropLast_concat]
  simp

/-- Every tag of the nodes is acceptable. -/
def AllOk (ts : List Tag) : Prop := ∀ t ∈ ts, TagOk t

/-- The continuation hypothesis of the main induction. -/
def Reads (stk : List Str) (rest : Str) (ts : List Tag) : Prop :=
  ∀ acc a, '\r' ∉ a → events stk acc (lex (.text a) rest) = expect stk (merge acc a) ts

/-- Reading a start tag. -/
theorem reads_start (stk : List Str) (n : Str) (as : List (Str × Str)) (rest : Str) (ts : List Tag)
    (h : TagOk (.opn n as)) (hr : Reads (n :: stk) rest ts) :
    Reads stk ('<' :: (n ++ printAttrs as ++ '>' :: rest)) (.opn n as :: ts) := by
  intro acc a ha
  obtain ⟨hn, has⟩ := h
  have hq : ∀ b ∈ as, NameOk b.1 ∧ '"' ∉ b.2 := by
    intro b hb
    obtain ⟨v', hv⟩ := Option.isSome_iff_exists.1 (has b hb).2
    exact ⟨(has b hb).1, (decodeAttr_some hv).1⟩
  rw [lex]
  simp only [if_true]
  rw [events_textTok _ _ _ _ ha, List.append_assoc, lex_lt_name n _ hn, lex_tag_attrs as _ _ hq, lex]
  simp only [if_true]
  rw [closeTag_start n as hn]
  have hb := buildStart_ok n [] as hn (.inl rfl) has
  simp only [List.append_nil] at hb
  simp only [events, hb.1, hb.2, expect, flushText_eq]
  have := hr none [] (by simp)
  simp only [merge_nil] at this
  rw [this]

/-- Reading a self-closing tag. -/
theorem reads_empty (stk : List Str) (n : Str) (as : List (Str × Str)) (rest : Str) (ts : List Tag)
    (h : TagOk (.opn n as)) (hr : Reads stk rest ts) :
    Reads stk ('<' :: (n ++ printAttrs as ++ ' ' :: '/' :: '>' :: rest)) (.opn n as :: .cls :: ts) := by
  intro acc a ha
  obtain ⟨hn, has⟩ := h
  have hq : ∀ b ∈ as, NameOk b.1 ∧ '"' ∉ b.2 := by
    intro b hb
    obtain ⟨v', hv⟩ := Option.isSome_iff_exists.1 (has b hb).2
    exact ⟨(has b hb).1, (decodeAttr_some hv).1⟩
  rw [lex]
  simp only [if_true]
  rw [events_textTok _ _ _ _ ha, List.append_assoc, lex_lt_name n _ hn, lex_tag_attrs as _ _ hq]
  have hp := lex_tag_plain (n ++ printAttrs as) [' ', '/'] ('>' :: rest) (by decide)
  simp only [List.cons_append, List.nil_append] at hp
  rw [hp, lex]
  simp only [if_true]
  rw [closeTag_empty]
  have hb := buildStart_ok n [' '] as hn (.inr rfl) has
  rw [← List.append_assoc] at hb
  simp only [events, hb.1, hb.2, expect, flushText_eq, expectText, List.nil_append]
  have := hr none [] (by simp)
  simp only [merge_nil] at this
  rw [this]

/-- Reading an end tag. -/
theorem reads_end (stk : List Str) (n : Str) (rest : Str) (ts : List Tag) (hn : NameOk n)
    (hr : Reads stk rest ts) :
    Reads (n :: stk) ('<' :: '/' :: (n ++ '>' :: rest)) (.cls :: ts) := by
  intro acc a ha
  rw [lex]
  simp only [if_true]
  rw [events_textTok _ _ _ _ ha, lex]
  simp only [if_true]
  rw [lex_endTag n [] rest hn]
  simp only [List.nil_append, trimEnd_name n hn, events, if_true, expect, flushText_eq]
  have := hr none [] (by simp)
  simp only [merge_nil] at this
  rw [this]

/-- Reading character data. -/
theorem reads_text (stk : List Str) (s : Str) (rest : Str) (ts : List Tag) (h : TagOk (.txt s))
    (hr : Reads stk rest ts) : Reads stk (s ++ rest) (.txt s :: ts) := by
  intro acc a ha
  obtain ⟨d, hd⟩ := Option.isSome_iff_exists.1 h.1
  obtain ⟨acc', a', h1, h2, h3⟩ := (lex_text stk s).1 d acc a hd h.2 ha
  rw [h3, hr _ _ h1, h2, expect, hd]
  cases d with
  | nil => simp
  | cons c d => simp [merge]

mutual
theorem reads_node (n : Node) (stk : List Str) (rest : Str) (ts : List Tag) (h : AllOk n.tags)
    (hr : Reads stk rest ts) : Reads stk (n.print ++ rest) (n.tags ++ ts) := by
  match n with
  | .text s =>
    simpa [Node.print, Node.tags] using reads_text stk s rest ts (h _ (by simp [Node.tags])) hr
  | .elem m as [] =>
    have := reads_empty stk m as rest ts (h _ (by simp [Node.tags])) hr
    simpa [Node.print, Node.tags, tagsForest] using this
  | .elem m as (c :: cs) =>
    have hm : TagOk (.opn m as) := h _ (by simp [Node.tags])
    have h1 := reads_end stk m rest ts hm.1 hr
    have h2 := reads_forest (c :: cs) (m :: stk) _ _ (fun t ht => h t (by simp [Node.tags, ht])) h1
    have h3 := reads_start stk m as _ _ hm h2
    simpa [Node.print, Node.tags, printForest] using h3
theorem reads_forest (f : List Node) (stk : List Str) (rest : Str) (ts : List Tag)
    (h : AllOk (tagsForest f)) (hr : Reads stk rest ts) :
    Reads stk (printForest f ++ rest) (tagsForest f ++ ts) := by
  match f with
  | [] => simpa [printForest, tagsForest] using hr
  | n :: ns =>
    have h1 := reads_forest ns stk rest ts (fun t ht => h t (by simp [tagsForest, ht])) hr
    have h2 := reads_node n stk _ _ (fun t ht => h t (by simp [tagsForest, ht])) h1
    simpa [printForest, tagsForest] using h2
end

theorem reads_eof : Reads [] [] [] := by
  intro acc a ha
  rw [lex, events_textTok _ _ _ _ ha]
  simp [events, expect, flushText_eq]

end Docx.Xml
