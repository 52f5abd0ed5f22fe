import Verif.Spec.XmlData
import Verif.Lemmas.XmlParser

/-!
# C32: custom XML values survive printing and parsing
-/

namespace Docx.Props

open Docx Docx.Spec Docx.Xml

/-! ## Which event streams are accepted -/

/-- `parse` with enough fuel: it never runs out, and it accepts exactly what is properly nested. -/
private theorem parse_nested (n : Nat) : ∀ es : List REvent, es.length < n →
    (∀ nm as d cs acc, match parseData n es (some (.mk nm as d cs)) acc with
      | .ok (_, rest) => rest.length ≤ es.length ∧ ∀ st, nested (nm :: st) es = nested st rest
      | .error .invalid => ∀ st, nested (nm :: st) es = false
      | .error .fuel => False) ∧
    (∀ acc, match parseData n es none acc with
      | .ok _ => nested [] es = true
      | .error .invalid => nested [] es = false
      | .error .fuel => False) := by
  induction n with
  | zero => intro es h; omega
  | succ n ih =>
    intro es h
    cases es with
    | nil => exact ⟨fun nm as d cs acc => by simp [parseData, nested], fun acc => by simp [parseData, nested]⟩
    | cons e es =>
      have hl : es.length < n := by simpa using h
      have ih' := ih es hl
      cases e with
      | start name as =>
        have key := ih'.1 (formatName name) (ownedAttributes as) none [] []
        constructor
        · intro nm as' d cs acc
          rw [parseData]
          cases hp : parseData n es (some (.mk (formatName name) (ownedAttributes as) none [])) [] with
          | error e =>
            rw [hp] at key
            cases e with
            | fuel => exact key.elim
            | invalid => exact fun st => by rw [nested]; exact key _
          | ok r =>
            obtain ⟨inner, rest⟩ := r
            rw [hp] at key
            obtain ⟨k1, k2⟩ := key
            have := (ih rest (by omega)).1 nm as' d (cs ++ inner) acc
            dsimp only
            cases hq : parseData n rest (some (.mk nm as' d (cs ++ inner))) acc with
            | error e =>
              rw [hq] at this
              cases e with
              | fuel => exact this.elim
              | invalid => exact fun st => by rw [nested, k2]; exact this st
            | ok r =>
              rw [hq] at this
              refine ⟨by simp only [List.length_cons]; omega, fun st => ?_⟩
              rw [nested, k2]; exact this.2 st
        · intro acc
          rw [parseData]
          cases hp : parseData n es (some (.mk (formatName name) (ownedAttributes as) none [])) [] with
          | error e =>
            rw [hp] at key
            cases e with
            | fuel => exact key.elim
            | invalid => rw [nested]; exact key _
          | ok r =>
            obtain ⟨inner, rest⟩ := r
            rw [hp] at key
            obtain ⟨k1, k2⟩ := key
            have := (ih rest (by omega)).2 (acc ++ inner)
            dsimp only
            cases hq : parseData n rest none (acc ++ inner) with
            | error e =>
              rw [hq] at this
              cases e with
              | fuel => exact this.elim
              | invalid => rw [nested, k2]; exact this
            | ok r =>
              rw [hq] at this
              rw [nested, k2]; exact this
      | chars s =>
        constructor
        · intro nm as d cs acc
          rw [parseData]
          have := ih'.1 nm as (some (trimStr s)) cs acc
          revert this
          cases parseData n es (some (.mk nm as (some (trimStr s)) cs)) acc with
          | error e => cases e <;> simp [nested]
          | ok r => intro t; exact ⟨by simp only [List.length_cons]; have := t.1; omega, fun st => by rw [nested]; exact t.2 st⟩
        · intro acc
          simp [parseData, nested]
      | «end» name =>
        constructor
        · intro nm as d cs acc
          rw [parseData]
          by_cases hn : nm = formatName name
          · rw [if_pos hn]; exact ⟨by simp, fun st => by simp [nested, hn]⟩
          · rw [if_neg hn]; exact fun st => by simp [nested, hn]
        · intro acc
          simp [parseData, nested]
      | whitespace s =>
        constructor
        · intro nm as d cs acc
          rw [parseData]
          have := ih'.1 nm as d cs acc
          revert this
          cases parseData n es (some (.mk nm as d cs)) acc with
          | error e => cases e <;> simp [nested]
          | ok r => intro t; exact ⟨by simp only [List.length_cons]; have := t.1; omega, fun st => by rw [nested]; exact t.2 st⟩
        · intro acc
          rw [parseData]
          have := ih'.2 acc
          revert this
          cases parseData n es none acc with
          | error e => cases e <;> simp [nested]
          | ok r => simp [nested]
      | endDocument =>
        constructor
        · intro nm as d cs acc
          rw [parseData]
          have := ih'.1 nm as d cs acc
          revert this
          cases parseData n es (some (.mk nm as d cs)) acc with
          | error e => cases e <;> simp [nested]
          | ok r => intro t; exact ⟨by simp only [List.length_cons]; have := t.1; omega, fun st => by rw [nested]; exact t.2 st⟩
        · intro acc
          rw [parseData]
          have := ih'.2 acc
          revert this
          cases parseData n es none acc with
          | error e => cases e <;> simp [nested]
          | ok r => simp [nested]
      | error =>
        constructor
        · intro nm as d cs acc
          rw [parseData]
          have := ih'.1 nm as d cs acc
          revert this
          cases parseData n es (some (.mk nm as d cs)) acc with
          | error e => cases e <;> simp [nested]
          | ok r => intro t; exact ⟨by simp only [List.length_cons]; have := t.1; omega, fun st => by rw [nested]; exact t.2 st⟩
        · intro acc
          rw [parseData]
          have := ih'.2 acc
          revert this
          cases parseData n es none acc with
          | error e => cases e <;> simp [nested]
          | ok r => simp [nested]

/-- **C32.** Parsing a text gives a value exactly when the XML reader has no complaint and the elements are properly nested: every end tag
names the element it ends, every element is ended, and there is no text outside the elements. -/
theorem C32_accepts (s : Str) :
    (∃ ds, xmlDocumentFromStr s = some (.ok ds)) ↔ REvent.error ∉ readEvents s ∧ nested [] (readEvents s) = true := by
  have key := (parse_nested ((readEvents s).length + 1) (readEvents s) (by omega)).2 []
  have he : ((readEvents s).any fun e => decide (e = .error)) = true ↔ REvent.error ∈ readEvents s := by simp
  unfold xmlDocumentFromStr
  dsimp only
  split
  · rename_i h
    rw [he] at h
    simp [h]
  · rename_i h
    rw [he] at h
    simp only [h, not_false_eq_true, true_and, Option.some.injEq]
    revert key
    cases parseData ((readEvents s).length + 1) (readEvents s) none [] with
    | error e => cases e <;> simp [Except.map]
    | ok r => simp [Except.map]

/-- **C32.** When the reader has no complaint but the nesting is wrong, parsing returns an error. When the reader complains, it panics. -/
theorem C32_rejects (s : Str) :
    (REvent.error ∈ readEvents s ∧ xmlDocumentFromStr s = none) ∨
    (REvent.error ∉ readEvents s ∧ nested [] (readEvents s) = false ∧ xmlDocumentFromStr s = some (.error .invalid)) ∨
    (nested [] (readEvents s) = true ∧ ∃ ds, xmlDocumentFromStr s = some (.ok ds)) := by
  have key := (parse_nested ((readEvents s).length + 1) (readEvents s) (by omega)).2 []
  have he : ((readEvents s).any fun e => decide (e = .error)) = true ↔ REvent.error ∈ readEvents s := by simp
  unfold xmlDocumentFromStr
  dsimp only
  split
  · rename_i h
    rw [he] at h
    exact .inl ⟨h, rfl⟩
  · rename_i h
    rw [he] at h
    refine .inr ?_
    revert key
    cases parseData ((readEvents s).length + 1) (readEvents s) none [] with
    | error e =>
      cases e with
      | fuel => exact fun k => k.elim
      | invalid => exact fun k => .inl ⟨h, k, rfl⟩
    | ok r => exact fun k => .inr ⟨k, _, rfl⟩

/-! ## Reading what was printed -/

private theorem formatAttributes_eq (as : List (Str × Str)) : formatAttributes as = printAttrs as := rfl

theorem formatName_split (n : Str) (h : n.getLast? ≠ some ':') : formatName (splitQName n) = n := by
  unfold splitQName
  split
  · rename_i hc
    have e : n = n.takeWhile (· ≠ ':') ++ n.dropWhile (· ≠ ':') := (List.takeWhile_append_dropWhile ..).symm
    have hd : ∃ r, n.dropWhile (· ≠ ':') = ':' :: r := by
      cases hd : n.dropWhile (· ≠ ':') with
      | nil =>
        rw [hd, List.append_nil] at e
        rw [e] at hc
        have := List.all_eq_true.1 (List.all_takeWhile (p := fun x => decide (x ≠ ':')) (l := n)) ':' hc
        simp at this
      | cons c r =>
        have : ¬ (decide (c ≠ ':') = true) := by
          have := List.head?_dropWhile_not (fun x => decide (x ≠ ':')) n
          rw [hd] at this
          simpa using this
        simp only [ne_eq, decide_not, Bool.not_eq_eq_eq_not, Bool.not_true, decide_eq_false_iff_not, Decidable.not_not] at this
        exact ⟨r, by rw [this]⟩
    obtain ⟨r, hr⟩ := hd
    rw [hr] at e
    simp only [formatName, hr, List.drop_succ_cons, List.drop_zero]
    split
    · rename_i h0
      rw [h0] at e
      rw [e, List.getLast?_append] at h
      simp at h
    · rw [List.append_assoc]; exact e.symm
  · rfl

mutual
private theorem reads_data (x : XmlData) (stk : List Str) (rest : Str) (ts : List Tag) (h : XmlOk x) (hr : Reads stk rest ts) :
    Reads stk (x.format ++ rest) (dataTags x ++ ts) := by
  match x with
  | .mk name as data children =>
    obtain ⟨h1, h2, h3, h4⟩ := h
    have a1 := reads_end stk name rest ts h1.1 hr
    have a2 := reads_dataAll children (name :: stk) _ _ h4 a1
    have a3 : Reads (name :: stk) (data.getD [] ++ (formatAll children ++ ('<' :: '/' :: (name ++ '>' :: rest))))
        ((data.map Tag.txt).toList ++ (dataTagsAll children ++ .cls :: ts)) := by
      cases data with
      | none => simpa using a2
      | some d => simpa using reads_text (name :: stk) d _ _ (h3 d rfl) a2
    have a4 := reads_start stk name as _ _ ⟨h1.1, fun a ha => ⟨(h2 a ha).1.1, (h2 a ha).2⟩⟩ a3
    simpa [XmlData.format, dataTags, formatAttributes_eq] using a4
private theorem reads_dataAll (xs : List XmlData) (stk : List Str) (rest : Str) (ts : List Tag) (h : XmlOkAll xs)
    (hr : Reads stk rest ts) : Reads stk (formatAll xs ++ rest) (dataTagsAll xs ++ ts) := by
  match xs with
  | [] => simpa [formatAll, dataTagsAll] using hr
  | x :: xs =>
    have h1 := reads_dataAll xs stk rest ts h.2 hr
    have h2 := reads_data x stk _ _ h.1 h1
    simpa [formatAll, dataTagsAll] using h2
end

/-- The events of text inside an element. -/
private def textEvents (data : Option Str) : List REvent :=
  match data.bind decodeText with
  | none => []
  | some [] => []
  | some d => expectText (some d)

private theorem expect_text (stk : List Str) (d : Str) (ts : List Tag) (hd : (decodeText d).isSome)
    (hts : ∀ acc, expect stk acc ts = expectText acc ++ expect stk none ts) :
    expect stk none (.txt d :: ts) = textEvents (some d) ++ expect stk none ts := by
  obtain ⟨v, hv⟩ := Option.isSome_iff_exists.1 hd
  rw [expect, hv]
  simp only [textEvents, Option.bind_some, hv]
  cases v with
  | nil => rfl
  | cons c v => dsimp only; rw [hts]; rfl

mutual
private def dataEvents : XmlData → List REvent
  | .mk name as data children =>
    .start (splitQName name) (expectAttrs as) :: (textEvents data ++ (dataEventsAll children ++ [.«end» (splitQName name)]))
private def dataEventsAll : List XmlData → List REvent
  | [] => []
  | x :: xs => dataEvents x ++ dataEventsAll xs
end

mutual
private theorem expect_data (x : XmlData) (stk : List Str) (acc : Option Str) (ts : List Tag) (h : XmlOk x) :
    expect stk acc (dataTags x ++ ts) = expectText acc ++ (dataEvents x ++ expect stk none ts) := by
  match x with
  | .mk name as data children =>
    obtain ⟨h1, h2, h3, h4⟩ := h
    rw [dataTags, List.cons_append, expect, dataEvents, List.cons_append]
    congr 2
    have hc : ∀ acc, expect (name :: stk) acc (.cls :: ts) =
        expectText acc ++ expect (name :: stk) none (.cls :: ts) := by
      intro acc; rw [expect, expect]; rfl
    have hk : ∀ acc, expect (name :: stk) acc (dataTagsAll children ++ .cls :: ts) =
        expectText acc ++ (dataEventsAll children ++ expect (name :: stk) none (.cls :: ts)) :=
      fun acc => expect_dataAll children (name :: stk) acc (.cls :: ts) h4 hc
    have hk' : ∀ acc, expect (name :: stk) acc (dataTagsAll children ++ .cls :: ts) =
        expectText acc ++ expect (name :: stk) none (dataTagsAll children ++ .cls :: ts) := by
      intro acc; rw [hk acc, hk none]; rfl
    cases data with
    | none =>
      simp only [Option.map_none, Option.toList_none, List.nil_append, List.append_assoc, List.cons_append]
      rw [hk none, expect]; rfl
    | some d =>
      simp only [Option.map_some, Option.toList_some, List.append_assoc, List.cons_append, List.nil_append]
      rw [expect_text _ d _ (h3 d rfl).1 hk', hk none, expect]
      simp [expectText]
private theorem expect_dataAll (xs : List XmlData) (stk : List Str) (acc : Option Str) (ts : List Tag) (h : XmlOkAll xs)
    (hts : ∀ acc, expect stk acc ts = expectText acc ++ expect stk none ts) :
    expect stk acc (dataTagsAll xs ++ ts) = expectText acc ++ (dataEventsAll xs ++ expect stk none ts) := by
  match xs with
  | [] => simpa [dataTagsAll, dataEventsAll] using hts acc
  | x :: xs =>
    rw [dataTagsAll, List.append_assoc, expect_data x stk acc _ h.1, expect_dataAll xs stk none ts h.2 hts]
    simp [dataEventsAll, expectText]
end

private theorem owned_expect (as : List (Str × Str)) (h : ∀ a ∈ as, DataName a.1 ∧ (decodeAttr a.2).isSome) :
    ownedAttributes (expectAttrs as) = as.map fun a => (a.1, (decodeAttr a.2).getD []) := by
  induction as with
  | nil => rfl
  | cons a as ih =>
    obtain ⟨v, hv⟩ := Option.isSome_iff_exists.1 (h a (.head _)).2
    have := ih fun b hb => h b (.tail _ hb)
    obtain ⟨k, w⟩ := a
    dsimp only at hv
    simp only [expectAttrs, hv, ownedAttributes, List.map_cons, Option.getD_some] at *
    rw [this, formatName_split _ (h _ (.head _)).1.2]

private def addChild : Option XmlData → List XmlData → List XmlData → Option XmlData × List XmlData
  | none, acc, xs => (none, acc ++ xs)
  | some (.mk nm as d cs), acc, xs => (some (.mk nm as d (cs ++ xs)), acc)

private theorem addChild_add (c : Option XmlData) (acc xs ys : List XmlData) :
    addChild (addChild c acc xs).1 (addChild c acc xs).2 ys = addChild c acc (xs ++ ys) := by
  cases c with
  | none => simp [addChild]
  | some x => obtain ⟨nm, as, d, cs⟩ := x; simp [addChild]

/-- With enough fuel, parsing gives `r`. -/
private def Parses (es : List REvent) (c : Option XmlData) (acc : List XmlData)
    (r : Except ParseFail (List XmlData × List REvent)) : Prop :=
  ∃ k, ∀ m, k ≤ m → parseData m es c acc = r

private theorem Parses.succ {es es' : List REvent} {c c' : Option XmlData} {acc acc' : List XmlData}
    {r : Except ParseFail (List XmlData × List REvent)}
    (h : Parses es c acc r) (hs : ∀ m, parseData (m + 1) es' c' acc' = parseData m es c acc) : Parses es' c' acc' r := by
  obtain ⟨k, hk⟩ := h
  refine ⟨k + 1, fun m hm => ?_⟩
  obtain ⟨m, rfl⟩ : ∃ m', m = m' + 1 := ⟨m - 1, by omega⟩
  rw [hs]
  exact hk m (by omega)

private theorem parses_start {name : QName} {as : List (QName × Str)} {es rest : List REvent} {inner : List XmlData}
    {c : Option XmlData} {acc : List XmlData} {r : Except ParseFail (List XmlData × List REvent)}
    (h1 : Parses es (some (.mk (formatName name) (ownedAttributes as) none [])) [] (.ok (inner, rest)))
    (h2 : Parses rest (addChild c acc inner).1 (addChild c acc inner).2 r) : Parses (.start name as :: es) c acc r := by
  obtain ⟨k1, hk1⟩ := h1
  obtain ⟨k2, hk2⟩ := h2
  refine ⟨k1 + k2 + 1, fun m hm => ?_⟩
  obtain ⟨m, rfl⟩ : ∃ m', m = m' + 1 := ⟨m - 1, by omega⟩
  rw [parseData, hk1 m (by omega)]
  have := hk2 m (by omega)
  cases c with
  | none => exact this
  | some x => obtain ⟨nm, as', d, cs⟩ := x; exact this

private theorem parses_text {data : Option Str} {rest : List REvent} {nm : Str} {as : List (Str × Str)} {acc : List XmlData}
    {r : Except ParseFail (List XmlData × List REvent)} (h : Parses rest (some (.mk nm as (readText data) [])) acc r) :
    Parses (textEvents data ++ rest) (some (.mk nm as none [])) acc r := by
  unfold textEvents
  unfold readText at h
  cases hd : data.bind decodeText with
  | none => rw [hd] at h; exact h
  | some d =>
    rw [hd] at h
    cases d with
    | nil => simpa using h
    | cons c d =>
      dsimp only at h ⊢
      unfold expectText
      dsimp only
      by_cases hw : ∀ x ∈ c :: d, x = ' ' ∨ x = '\t' ∨ x = '\n' ∨ x = '\r'
      · rw [if_pos hw]
        unfold xmlSpace at h
        rw [if_pos hw] at h
        exact h.succ fun m => by rw [List.cons_append, List.nil_append, parseData]
      · rw [if_neg hw]
        unfold xmlSpace at h
        rw [if_neg hw] at h
        exact h.succ fun m => by rw [List.cons_append, List.nil_append, parseData]

mutual
private theorem parses_data (x : XmlData) (rest : List REvent) (c : Option XmlData) (acc : List XmlData)
    (r : Except ParseFail (List XmlData × List REvent)) (h : XmlOk x)
    (hr : Parses rest (addChild c acc [readData x]).1 (addChild c acc [readData x]).2 r) : Parses (dataEvents x ++ rest) c acc r := by
  match x with
  | .mk name as data children =>
    obtain ⟨h1, h2, h3, h4⟩ := h
    rw [dataEvents, List.cons_append]
    refine parses_start ?_ hr
    rw [owned_expect as h2, formatName_split _ h1.2, List.append_assoc]
    refine parses_text ?_
    rw [List.append_assoc]
    refine parses_dataAll children _ _ _ _ h4 ?_
    refine ⟨1, fun m hm => ?_⟩
    obtain ⟨m, rfl⟩ : ∃ m', m = m' + 1 := ⟨m - 1, by omega⟩
    simp only [addChild, List.cons_append, List.nil_append, parseData, formatName_split _ h1.2, if_true, readData]
private theorem parses_dataAll (xs : List XmlData) (rest : List REvent) (c : Option XmlData) (acc : List XmlData)
    (r : Except ParseFail (List XmlData × List REvent)) (h : XmlOkAll xs)
    (hr : Parses rest (addChild c acc (readDataAll xs)).1 (addChild c acc (readDataAll xs)).2 r) :
    Parses (dataEventsAll xs ++ rest) c acc r := by
  match xs with
  | [] =>
    rw [dataEventsAll, List.nil_append]
    rw [readDataAll] at hr
    cases c with
    | none => simpa [addChild] using hr
    | some x => obtain ⟨nm, as', d, cs⟩ := x; simpa [addChild] using hr
  | x :: xs =>
    rw [dataEventsAll, List.append_assoc]
    refine parses_data x _ _ _ _ h.1 (parses_dataAll xs _ _ _ _ h.2 ?_)
    rw [addChild_add]
    exact hr
end

private theorem parse_mono (n : Nat) : ∀ (es : List REvent) (c : Option XmlData) (acc : List XmlData),
    parseData n es c acc ≠ .error .fuel → parseData (n + 1) es c acc = parseData n es c acc := by
  induction n with
  | zero => intro es c acc h; exact absurd rfl h
  | succ n ih =>
    intro es c acc h
    cases es with
    | nil => cases c <;> rfl
    | cons e es =>
      cases e with
      | start name as =>
        rw [parseData] at h
        rw [parseData, parseData.eq_4 _ _ n]
        have h1 : parseData n es (some (.mk (formatName name) (ownedAttributes as) none [])) [] ≠ .error .fuel := by
          intro e; rw [e] at h; exact h rfl
        rw [ih _ _ _ h1]
        cases hp : parseData n es (some (.mk (formatName name) (ownedAttributes as) none [])) [] with
        | error e => rfl
        | ok v =>
          obtain ⟨inner, rest⟩ := v
          rw [hp] at h
          cases c with
          | none => exact ih _ _ _ h
          | some x => obtain ⟨nm, as', d, cs⟩ := x; exact ih _ _ _ h
      | chars s =>
        cases c with
        | none => rfl
        | some x => obtain ⟨nm, as', d, cs⟩ := x; exact ih _ _ _ h
      | «end» name =>
        cases c with
        | none => rfl
        | some x => obtain ⟨nm, as', d, cs⟩ := x; rfl
      | whitespace s => cases c <;> exact ih _ _ _ h
      | endDocument => cases c <;> exact ih _ _ _ h
      | error => cases c <;> exact ih _ _ _ h

private theorem parses_full {es : List REvent} {r : Except ParseFail (List XmlData × List REvent)} (h : Parses es none [] r) :
    parseData (es.length + 1) es none [] = r := by
  obtain ⟨k, hk⟩ := h
  have hf : ∀ j, parseData (es.length + 1 + j) es none [] = parseData (es.length + 1) es none [] := by
    intro j
    induction j with
    | zero => rfl
    | succ j ih =>
      rw [← ih]
      refine parse_mono _ _ _ _ ?_
      intro e
      have := (parse_nested (es.length + 1 + j) es (by omega)).2 []
      rw [show parseData (es.length + 1 + j) es none [] = _ from e] at this
      exact this
  rw [← hf k]
  exact hk _ (by omega)

private theorem textEvents_noError (data : Option Str) : REvent.error ∉ textEvents data := by
  unfold textEvents
  split
  · simp
  · simp
  · unfold expectText
    dsimp only
    split <;> simp

mutual
private theorem dataEvents_noError (x : XmlData) : REvent.error ∉ dataEvents x := by
  match x with
  | .mk name as data children =>
    simp only [dataEvents, List.mem_cons, List.mem_append, reduceCtorEq, List.not_mem_nil, or_false, false_or, not_or]
    exact ⟨textEvents_noError data, dataEventsAll_noError children⟩
private theorem dataEventsAll_noError (xs : List XmlData) : REvent.error ∉ dataEventsAll xs := by
  match xs with
  | [] => simp [dataEventsAll]
  | x :: xs => simp only [dataEventsAll, List.mem_append, not_or]; exact ⟨dataEvents_noError x, dataEventsAll_noError xs⟩
end

/-- **C32.** Parsing the printed form of a value whose names are names and whose strings are XML gives exactly what the value says to a
reader: the same elements and attributes in the same order, with references decoded and texts trimmed. -/
theorem C32_read (ds : List XmlData) (h : XmlOkAll ds) : xmlDocumentFromStr (formatAll ds) = some (.ok (readDataAll ds)) := by
  have e : readEvents (formatAll ds) = dataEventsAll ds ++ [.endDocument] := by
    have := reads_dataAll ds [] [] [] h reads_eof none [] (by simp)
    simp only [List.append_nil] at this
    rw [readEvents, this]
    have h2 := expect_dataAll ds [] none [] h fun acc => by rw [expect, expect]; rfl
    simp only [List.append_nil] at h2
    rw [show merge none [] = none from rfl, h2, expect]
    rfl
  have hp : Parses (dataEventsAll ds ++ [.endDocument]) none [] (.ok (readDataAll ds, [])) := by
    refine parses_dataAll ds _ _ _ _ h ?_
    refine ⟨2, fun m hm => ?_⟩
    obtain ⟨m, rfl⟩ : ∃ m', m = m' + 2 := ⟨m - 2, by omega⟩
    simp [addChild, parseData]
  unfold xmlDocumentFromStr
  dsimp only
  rw [e, if_neg, parses_full hp]
  · rfl
  · simp only [List.any_append, List.any_cons, List.any_nil, Bool.or_false, reduceCtorEq, decide_false, List.any_eq_true,
      decide_eq_true_eq, exists_eq_right, not_exists, not_and]
    exact dataEventsAll_noError ds

/-- **C32.** So a value survives exactly when it is what a reader sees in it. -/
theorem C32_round_trip_iff (ds : List XmlData) (h : XmlOkAll ds) :
    xmlDocumentFromStr (formatAll ds) = some (.ok ds) ↔ readDataAll ds = ds := by
  rw [C32_read ds h]
  simp

private theorem decode_plainText (d : Str) (h : ∀ c ∈ d, c ∉ ['&', '<', '\r']) : decodeText d = some d := by
  have key : ∀ d : Str, (∀ c ∈ d, c ∉ ['&', '<', '\r']) → decodeFrom none d = some d := by
    intro d
    induction d with
    | nil => intro _; rfl
    | cons c d ih =>
      intro h
      have hc := h c (.head _)
      simp only [List.mem_cons, List.not_mem_nil, or_false, not_or] at hc
      rw [decodeFrom]
      simp [hc.1, hc.2.1, ih fun x hx => h x (.tail _ hx)]
  exact key d h

mutual
private theorem plain_ok (x : XmlData) (h : PlainData x) : XmlOk x ∧ readData x = x := by
  match x with
  | .mk name as data children =>
    obtain ⟨h1, h2, h3, h4⟩ := h
    obtain ⟨c1, c2⟩ := plain_okAll children h4
    have hv : ∀ a ∈ as, decodeAttr a.2 = some a.2 := by
      intro a ha
      have hc := (h2 a ha).2
      unfold decodeAttr
      rw [if_neg (fun e => hc _ e (by simp))]
      rw [show a.2.map attrSpace = a.2 by
        conv => rhs; rw [← List.map_id a.2]
        apply List.map_congr_left
        intro c hcm
        have := hc c hcm
        simp only [List.mem_cons, List.not_mem_nil, or_false, not_or] at this
        simp [attrSpace, this]]
      refine decode_plainText _ fun c hcm e => hc c hcm ?_
      simp only [List.mem_cons, List.not_mem_nil, or_false] at e ⊢
      rcases e with e | e | e <;> simp [e]
    have hd : ∀ d ∈ data, decodeText d = some d := fun d hd => decode_plainText d (h3 d hd).2.1
    refine ⟨⟨h1, fun a ha => ⟨(h2 a ha).1, by rw [hv a ha]; rfl⟩, fun d hdm => ⟨by rw [hd d hdm]; rfl, fun e => (h3 d hdm).2.1 _ e (by simp)⟩,
      c1⟩, ?_⟩
    rw [readData, c2]
    congr 1
    · conv => rhs; rw [← List.map_id as]
      exact List.map_congr_left fun a ha => by rw [hv a ha]; rfl
    · cases data with
      | none => rfl
      | some d =>
        obtain ⟨n1, n2, n3⟩ := h3 d rfl
        simp only [readText, Option.bind_some, hd d rfl, n3]
        rw [if_neg]
        intro hall
        cases d with
        | nil => exact n1 rfl
        | cons c d =>
          have hs : isUnicodeSpace c = true := by
            rcases hall c (.head _) with e | e | e | e <;> rw [e] <;> decide
          have hl : (trimStr (c :: d)).length ≤ d.length := by
            unfold trimStr
            rw [List.dropWhile_cons_of_pos hs, List.length_reverse]
            refine Nat.le_trans (List.dropWhile_suffix _).length_le ?_
            rw [List.length_reverse]
            exact (List.dropWhile_suffix _).length_le
          rw [n3, List.length_cons] at hl
          omega
private theorem plain_okAll (xs : List XmlData) (h : PlainDataAll xs) : XmlOkAll xs ∧ readDataAll xs = xs := by
  match xs with
  | [] => exact ⟨trivial, rfl⟩
  | x :: xs =>
    obtain ⟨a, b⟩ := plain_ok x h.1
    obtain ⟨c, e⟩ := plain_okAll xs h.2
    exact ⟨⟨a, c⟩, by rw [readDataAll, b, e]⟩
end

/-- **C32, partial.** A value whose strings have no `&`, `<`, `"` or line breaks (and whose texts are trimmed and not empty) survives
printing and parsing. Missing because the code does not do it: strings with these characters, which the printer copies unescaped
(`C32_fails_reference`, `C32_fails_markup`), and texts with white space around them (`C32_fails_space`). -/
theorem C32_round_trip_partial (ds : List XmlData) (h : PlainDataAll ds) : xmlDocumentFromStr (formatAll ds) = some (.ok ds) := by
  obtain ⟨a, b⟩ := plain_okAll ds h
  exact (C32_round_trip_iff ds a).2 b

/-- A bibliography-like value with nested elements, attributes, a prefix and text that is met by the hypothesis of
`C32_round_trip_partial`. -/
example : PlainDataAll [.mk c!"b:Sources" [(c!"xmlns:b", c!"http://x/y")] none
    [.mk c!"b:Source" [] none [.mk c!"b:Tag" [] (some c!"Doe 2020") [], .mk c!"b:Year" [(c!"k", c!"'v' > w")] none []]]] := by
  simp only [PlainDataAll, PlainData]
  decide

/-- A value with references and white space, met by the hypothesis of `C32_read`. -/
example : XmlOkAll [.mk c!"a" [(c!"k", c!"x &lt; y")] (some c!" p &amp; q ") [.mk c!"b" [] none []]] := by
  simp only [XmlOkAll, XmlOk]
  decide

/-- **C32 fails** for a text that looks like a reference: it comes back as the character. -/
theorem C32_fails_reference :
    xmlDocumentFromStr (formatAll [.mk c!"a" [] (some c!"&amp;") []]) = some (.ok [.mk c!"a" [] (some c!"&") []]) := by
  rw [C32_read]
  · simp only [readDataAll, readData]
    rfl
  · simp only [XmlOkAll, XmlOk]
    decide

/-- **C32 fails** for a text with markup: it comes back as an element. -/
theorem C32_fails_markup :
    xmlDocumentFromStr (formatAll [.mk c!"a" [] (some c!"<b></b>") []]) = some (.ok [.mk c!"a" [] none [.mk c!"b" [] none []]]) := by
  have : formatAll [.mk c!"a" [] (some c!"<b></b>") []] = formatAll [.mk c!"a" [] none [.mk c!"b" [] none []]] := by decide
  rw [this]
  refine C32_round_trip_partial _ ?_
  simp only [PlainDataAll, PlainData]
  decide

/-- **C32 fails** for a text with an ampersand: parsing the printed form panics. -/
theorem C32_fails_ampersand : xmlDocumentFromStr (formatAll [.mk c!"a" [] (some c!"x & y") []]) = none := by
  decide +kernel

/-- **C32 fails** for a text with white space around it. -/
theorem C32_fails_space :
    xmlDocumentFromStr (formatAll [.mk c!"a" [] (some c!" x") []]) = some (.ok [.mk c!"a" [] (some c!"x") []]) := by
  rw [C32_read]
  · simp only [readDataAll, readData]
    rfl
  · simp only [XmlOkAll, XmlOk]
    decide

/-- A missing end tag is an error, a wrong one a panic. -/
theorem C32_missing : xmlDocumentFromStr c!"<a><b></b>" = some (.error .invalid) ∧ xmlDocumentFromStr c!"<a><b></a></b>" = none := by
  constructor
  · rcases C32_rejects c!"<a><b></b>" with h | h | h
    · exact absurd h.1 (by decide)
    · exact h.2.2
    · exact absurd h.1 (by decide)
  · rcases C32_rejects c!"<a><b></a></b>" with h | h | h
    · exact h.2
    · exact absurd h.1 (by decide)
    · exact absurd h.1 (by decide)

end Docx.Props
