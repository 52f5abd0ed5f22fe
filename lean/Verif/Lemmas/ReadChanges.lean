import Verif.Lemmas.ReadRuns

/-!
# Reading back tracked changes, bookmarks and comment ranges
-/

namespace Docx

open Docx.Xml Docx.Spec

variable {x : ReadEnv} {σ : Type}

/-- A number the reader can hold. -/
def Fits (n : Nat) : Prop := n < 2 ^ 64

theorem readCommentId_dec {n : Nat} (h : Fits n) : readCommentId (expectAttrs [(c!"w:id", dec n)]) = some n := by
  simp [-String.reduceToList, String.toList_inj, readCommentId, expectAttrs_dec, expectAttrs_nil, attrNamed_cons, usizeFromStr_dec h]

theorem readBookmarkStart_attrs {n : Nat} {s : Str} (h : Fits n) (hs : (decodeAttr s).isSome) (es : List REvent) :
    readBookmarkStart (expectAttrs [(c!"w:id", dec n), (c!"w:name", s)]) es = .ok (n, seen s) es := by
  simp [-String.reduceToList, String.toList_inj, readBookmarkStart, expectAttrs_dec, expectAttrs_cons hs, expectAttrs_nil, foldAttrs,
    usizeFromStr_dec h, orErr, Read.map, Read.bind]

theorem readBookmarkEnd_attrs {n : Nat} (h : Fits n) (es : List REvent) :
    readBookmarkEnd (expectAttrs [(c!"w:id", dec n)]) es = .ok n es := by
  simp [-String.reduceToList, String.toList_inj, readBookmarkEnd, expectAttrs_dec, expectAttrs_nil, foldAttrs,
    usizeFromStr_dec h, orErr, Read.map, Read.bind]

/-- The runs written beside the end of a comment range are read as empty runs. -/
theorem returns_runBefore : Returns x (fun R => R.run) c!"w:r" (leafN c!"w:rPr") {} := by
  refine Returns.run ?_
  have h1 : Returns x (readRunProperty x) c!"w:rPr" [] {} := Returns.loop (TakesF.nil _) (fun d => by
    simp [-String.reduceToList, String.toList_inj, runPropertyLoop, closesAt])
  have key : TakesF x (runLoop x) (({} : Run), TextState.idle) (leafN c!"w:rPr") ({}, .idle) := by
    refine TakesF.child ((h1.map (fun p => (({ (({} : Run)) with property := p } : Run), TextState.idle))).congr (fun d es hd => ?_))
    simp [-String.reduceToList, runLoop, ignoreElement, Read.bind]
  exact (Returns.loop key (n := c!"w:r") (fun d => by simp [-String.reduceToList, runLoop])).map Prod.fst

theorem returns_runBehind (n : Nat) :
    Returns x (fun R => R.run) c!"w:r" (leafN c!"w:commentReference" [(c!"w:id", dec n)]) {} := by
  refine Returns.run ?_
  have key : TakesF x (runLoop x) (({} : Run), TextState.idle) (leafN c!"w:commentReference" [(c!"w:id", dec n)]) ({}, .idle) := by
    run_leaf []
  exact (Returns.loop key (n := c!"w:r") (fun d => by simp [-String.reduceToList, runLoop])).map Prod.fst

/-! ## Deletions -/

/-- What is read back for a child of a deletion. The end of a comment range comes with two empty runs. -/
def DeleteChild.reread : DeleteChild → List DeleteChild
  | .run r => [.run r.reread]
  | .commentStart id _ => [.commentStart id (.new id)]
  | .commentEnd id => [.run {}, .commentEnd id, .run {}]

/-- A child of a deletion that can be read back. -/
def DeleteChild.Readable : DeleteChild → Prop
  | .run r => r.Readable
  | .commentStart id _ => Fits id
  | .commentEnd id => Fits id

/-- A deletion read back. -/
def Delete.reread (d : Delete) : Delete := ⟨again d.author, seen d.date, d.children.flatMap DeleteChild.reread⟩

/-- A deletion that can be read back. -/
def Delete.Readable (d : Delete) : Prop :=
  (decodeAttr d.author).isSome ∧ (decodeAttr d.date).isSome ∧ ∀ c ∈ d.children, c.Readable

/-- Children added to a deletion. -/
def Delete.addAll (d : Delete) (cs : List DeleteChild) : Delete := { d with children := d.children ++ cs }

theorem Delete.addAll_nil (r : Delete) : r.addAll [] = r := by cases r; simp [Delete.addAll]

/-- The elements of several children, one after the other. -/
theorem TakesN.flatMap {L : Readers → Loop σ} {α χ : Type} {w : α → N} {again : α → List χ} {push : σ → List χ → σ}
    (h0 : ∀ s, push s [] = s) (h2 : ∀ s l l', push (push s l) l' = push s (l ++ l')) {l : List α}
    (h : ∀ a ∈ l, TakesN x L (w a) (fun s => push s (again a))) :
    TakesN x L (eachN w l) (fun s => push s (l.flatMap again)) := by
  induction l with
  | nil => exact TakesN.nil.congr fun s => by simp [h0]
  | cons a l ih =>
    exact ((h a (by simp)).then (ih fun b hb => h b (List.mem_cons_of_mem _ hb))).congr fun s => by simp [h2]

theorem TakesN.append {L : Readers → Loop σ} {f f' : List Node} {φ ψ : σ → σ} (h : ∀ s, TakesF x L s f (φ s))
    (h' : ∀ s, TakesF x L s f' (ψ s)) : ∀ s, TakesF x L s (f ++ f') (ψ (φ s)) :=
  fun s => (h s).append (h' _)

section
variable {stop : El} (hs : stop = .delete ∨ stop = .moveFrom)
include hs

theorem delete_run {body : List Node} {r : Run} (h : Returns x (fun R => R.run) c!"w:r" body r) (d : Delete) :
    TakesF x (fun R => deleteLoop R stop) d [.elem c!"w:r" [] body] (d.addAll [.run r]) := by
  refine TakesF.child ((h.map d.addRun).congr (fun _ es hd => ?_))
  simp [-String.reduceToList, deleteLoop]

theorem delete_commentStart {n : Nat} (h : Fits n) (d : Delete) :
    TakesF x (fun R => deleteLoop R stop) d (commentStartNodes n) (d.addAll [.commentStart n (.new n)]) := by
  refine TakesF.leaf' (fun _ es hd => ?_) (fun _ => ?_)
  · simp [-String.reduceToList, deleteLoop, readCommentId_dec h, Delete.addAll, Delete.addCommentStart, Delete.addCommentEnd, Comment.new]
  · rcases hs with rfl | rfl <;> simp [-String.reduceToList, deleteLoop, closesAt]

theorem delete_commentEnd {n : Nat} (h : Fits n) (d : Delete) :
    TakesF x (fun R => deleteLoop R stop) d (commentEndNodes n) (d.addAll [.run {}, .commentEnd n, .run {}]) := by
  have h1 : ∀ d, TakesF x (fun R => deleteLoop R stop) d (leafN c!"w:commentRangeEnd" [(c!"w:id", dec n)]) (d.addAll [.commentEnd n]) := by
    intro d
    refine TakesF.leaf' (fun _ es hd => ?_) (fun _ => ?_)
    · simp [-String.reduceToList, deleteLoop, readCommentId_dec h, Delete.addAll, Delete.addCommentStart, Delete.addCommentEnd, Comment.new]
    · rcases hs with rfl | rfl <;> simp [-String.reduceToList, deleteLoop, closesAt]
  have := TakesN.append (TakesN.append (delete_run hs returns_runBefore) h1) (delete_run hs (returns_runBehind n)) d
  rw [show d.addAll [.run {}, .commentEnd n, .run {}] = ((d.addAll [.run {}]).addAll [.commentEnd n]).addAll [.run {}] by simp [Delete.addAll]]
  exact this

theorem takes_deleteChild (c : DeleteChild) (h : c.Readable) :
    TakesN x (fun R => deleteLoop R stop) c.nodes (fun d => d.addAll c.reread) := by
  cases c with
  | run r =>
    intro g f g' e d
    obtain ⟨body, rfl, hr⟩ := returns_run (x := x) r h e
    exact delete_run hs hr d
  | commentStart n c => exact .emit fun d => delete_commentStart hs h d
  | commentEnd n => exact .emit fun d => delete_commentEnd hs h d

end

theorem takes_deleteChildren {stop : El} (hs : stop = .delete ∨ stop = .moveFrom) (cs : List DeleteChild) (h : ∀ c ∈ cs, c.Readable) :
    TakesN x (fun R => deleteLoop R stop) (eachN DeleteChild.nodes cs) (fun d => d.addAll (cs.flatMap DeleteChild.reread)) :=
  .flatMap Delete.addAll_nil (fun s l l' => by simp [Delete.addAll]) fun c hc => takes_deleteChild hs c (h c hc)

theorem readChange_attrs' {id a d : Str} (hi : (decodeAttr id).isSome) (ha : (decodeAttr a).isSome) (hd : (decodeAttr d).isSome)
    (u v : Str) : readChange (expectAttrs (revisionAttrs id a d)) u v = (again a, seen d) :=
  readChange_attrs id u v ⟨a, d⟩ hi (by simpa [Mark.strings] using ⟨ha, hd⟩)

theorem returns_delete (d : Delete) (h : d.Readable) {g g' : Gen} {f : List Node}
    (e : d.nodes c!"w:del" g = some (f, g')) :
    ∃ as body, f = [.elem c!"w:del" as body] ∧ Returns x (fun R => readDelete R (expectAttrs as)) c!"w:del" body d.reread := by
  obtain ⟨body, hb, rfl⟩ := elemN_eq (show elemN _ _ _ _ = _ from e)
  refine ⟨_, body, rfl, ?_⟩
  have key := takes_deleteChildren (x := x) (.inl rfl) d.children h.2.2 _ _ _ hb {}
  refine ((Returns.loop key (n := c!"w:del") (fun _ => ?_)).map _).mono ?_
  · simp [-String.reduceToList, deleteLoop, closesAt]
  · rw [readChange_attrs' (decodes_history _) h.1 h.2.1]
    simp [Delete.reread, Delete.addAll]

theorem returns_moveFrom (d : Delete) (h : d.Readable) {g g' : Gen} {f : List Node}
    (e : d.nodes c!"w:moveFrom" g = some (f, g')) :
    ∃ as body, f = [.elem c!"w:moveFrom" as body] ∧
      Returns x (fun R => readMoveFrom R (expectAttrs as)) c!"w:moveFrom" body d.reread := by
  obtain ⟨body, hb, rfl⟩ := elemN_eq (show elemN _ _ _ _ = _ from e)
  refine ⟨_, body, rfl, ?_⟩
  have key := takes_deleteChildren (x := x) (.inr rfl) d.children h.2.2 _ _ _ hb {}
  refine ((Returns.loop key (n := c!"w:moveFrom") (fun _ => ?_)).map _).mono ?_
  · simp [-String.reduceToList, deleteLoop, closesAt]
  · rw [readChange_attrs' (decodes_history _) h.1 h.2.1]
    simp [Delete.reread, Delete.addAll]

/-! ## Insertions -/

/-- What is read back for a child of an insertion. -/
def InsertChild.reread : InsertChild → List InsertChild
  | .run r => [.run r.reread]
  | .delete d => [.delete d.reread]
  | .commentStart id _ => [.commentStart id (.new id)]
  | .commentEnd id => [.run {}, .commentEnd id, .run {}]

/-- A child of an insertion that can be read back. -/
def InsertChild.Readable : InsertChild → Prop
  | .run r => r.Readable
  | .delete d => d.Readable
  | .commentStart id _ => Fits id
  | .commentEnd id => Fits id

/-- An insertion read back. -/
def Insert.reread (d : Insert) : Insert := ⟨again d.author, seen d.date, d.children.flatMap InsertChild.reread⟩

/-- An insertion that can be read back. -/
def Insert.Readable (d : Insert) : Prop :=
  (decodeAttr d.author).isSome ∧ (decodeAttr d.date).isSome ∧ ∀ c ∈ d.children, c.Readable

/-- Children added to an insertion. -/
def Insert.addAll (d : Insert) (cs : List InsertChild) : Insert := { d with children := d.children ++ cs }

theorem Insert.addAll_nil (r : Insert) : r.addAll [] = r := by cases r; simp [Insert.addAll]

section
variable {stop : El} (hs : stop = .insert ∨ stop = .moveTo)
include hs

theorem insert_run {body : List Node} {r : Run} (h : Returns x (fun R => R.run) c!"w:r" body r) (d : Insert) :
    TakesF x (fun R => insertLoop R stop) d [.elem c!"w:r" [] body] (d.addAll [.run r]) := by
  refine TakesF.child ((h.map d.addRun).congr (fun _ es hd => ?_))
  simp [-String.reduceToList, insertLoop]

theorem insert_commentStart {n : Nat} (h : Fits n) (d : Insert) :
    TakesF x (fun R => insertLoop R stop) d (commentStartNodes n) (d.addAll [.commentStart n (.new n)]) := by
  refine TakesF.leaf' (fun _ es hd => ?_) (fun _ => ?_)
  · simp [-String.reduceToList, insertLoop, readCommentId_dec h, Insert.addAll, Insert.addCommentStart, Insert.addCommentEnd, Comment.new]
  · rcases hs with rfl | rfl <;> simp [-String.reduceToList, insertLoop, closesAt]

theorem insert_commentEnd {n : Nat} (h : Fits n) (d : Insert) :
    TakesF x (fun R => insertLoop R stop) d (commentEndNodes n) (d.addAll [.run {}, .commentEnd n, .run {}]) := by
  have h1 : ∀ d, TakesF x (fun R => insertLoop R stop) d (leafN c!"w:commentRangeEnd" [(c!"w:id", dec n)]) (d.addAll [.commentEnd n]) := by
    intro d
    refine TakesF.leaf' (fun _ es hd => ?_) (fun _ => ?_)
    · simp [-String.reduceToList, insertLoop, readCommentId_dec h, Insert.addAll, Insert.addCommentStart, Insert.addCommentEnd, Comment.new]
    · rcases hs with rfl | rfl <;> simp [-String.reduceToList, insertLoop, closesAt]
  have := TakesN.append (TakesN.append (insert_run hs returns_runBefore) h1) (insert_run hs (returns_runBehind n)) d
  rw [show d.addAll [.run {}, .commentEnd n, .run {}] = ((d.addAll [.run {}]).addAll [.commentEnd n]).addAll [.run {}] by simp [Insert.addAll]]
  exact this

theorem takes_insertChild (c : InsertChild) (h : c.Readable) :
    TakesN x (fun R => insertLoop R stop) c.nodes (fun d => d.addAll c.reread) := by
  cases c with
  | run r =>
    intro g f g' e d
    obtain ⟨body, rfl, hr⟩ := returns_run (x := x) r h e
    exact insert_run hs hr d
  | delete d =>
    intro g f g' e i
    obtain ⟨as, body, rfl, hr⟩ := returns_delete (x := x) d h e
    refine TakesF.child ((hr.map i.addDelete).congr (fun _ es hd => ?_))
    simp [-String.reduceToList, insertLoop]
  | commentStart n c => exact .emit fun d => insert_commentStart hs h d
  | commentEnd n => exact .emit fun d => insert_commentEnd hs h d

end

theorem takes_insertChildren {stop : El} (hs : stop = .insert ∨ stop = .moveTo) (cs : List InsertChild) (h : ∀ c ∈ cs, c.Readable) :
    TakesN x (fun R => insertLoop R stop) (eachN InsertChild.nodes cs) (fun d => d.addAll (cs.flatMap InsertChild.reread)) :=
  .flatMap Insert.addAll_nil (fun s l l' => by simp [Insert.addAll]) fun c hc => takes_insertChild hs c (h c hc)

theorem returns_insert (d : Insert) (h : d.Readable) {g g' : Gen} {f : List Node}
    (e : d.nodes c!"w:ins" g = some (f, g')) :
    ∃ as body, f = [.elem c!"w:ins" as body] ∧ Returns x (fun R => readInsert R (expectAttrs as)) c!"w:ins" body d.reread := by
  obtain ⟨body, hb, rfl⟩ := elemN_eq (show elemN _ _ _ _ = _ from e)
  refine ⟨_, body, rfl, ?_⟩
  have key := takes_insertChildren (x := x) (.inl rfl) d.children h.2.2 _ _ _ hb {}
  refine ((Returns.loop key (n := c!"w:ins") (fun _ => ?_)).map _).mono ?_
  · simp [-String.reduceToList, insertLoop, closesAt]
  · rw [readChange_attrs' (decodes_history _) h.1 h.2.1]
    simp [Insert.reread, Insert.addAll]

theorem returns_moveTo (d : Insert) (h : d.Readable) {g g' : Gen} {f : List Node}
    (e : d.nodes c!"w:moveTo" g = some (f, g')) :
    ∃ as body, f = [.elem c!"w:moveTo" as body] ∧
      Returns x (fun R => readMoveTo R (expectAttrs as)) c!"w:moveTo" body d.reread := by
  obtain ⟨body, hb, rfl⟩ := elemN_eq (show elemN _ _ _ _ = _ from e)
  refine ⟨_, body, rfl, ?_⟩
  have key := takes_insertChildren (x := x) (.inr rfl) d.children h.2.2 _ _ _ hb {}
  refine ((Returns.loop key (n := c!"w:moveTo") (fun _ => ?_)).map _).mono ?_
  · simp [-String.reduceToList, insertLoop, closesAt]
  · rw [readChange_attrs' (decodes_history _) h.1 h.2.1]
    simp [Insert.reread, Insert.addAll]

end Docx
