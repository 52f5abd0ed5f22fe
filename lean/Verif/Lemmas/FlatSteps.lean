import Verif.Lemmas.Steps
import Verif.Model.ReadXml

/-!
# The number of steps does not matter for flat files
-/

namespace Docx.FlatOpc

open Lean.Order Docx Docx.Xml

section

variable {γ : Type} [PartialOrder γ] {k : γ → Nat} {x : ReadEnv}

@[partial_fixpoint_monotone]
theorem mono_readIfThere {α : Type} (o : Option Str) (default : α) (read : γ → Str → Got α) (h : ∀ s, monotone fun y => read y s) :
    monotone fun y => readIfThere o default (read y) := by
  unfold readIfThere
  cases o with
  | none => exact monotone_const _
  | some s =>
    have := h s
    dsimp only
    steps

@[partial_fixpoint_monotone]
theorem mono_mainRels (ps : List Part) (hk : monotone k) : monotone fun y => mainRels (k y) ps := by
  unfold mainRels
  steps

@[partial_fixpoint_monotone]
theorem mono_partRels (ps : List Part) (path : Str) (hk : monotone k) : monotone fun y => partRels (k y) ps path := by
  unfold partRels
  dsimp only
  split
  · exact monotone_const _
  · steps

@[partial_fixpoint_monotone]
theorem mono_readSideParts (ps : List Part) (path kind : Str) (ts : List (Str × Str × Str)) (hk : monotone k) :
    monotone fun y => readSideParts x (k y) ps path kind ts := by
  induction ts with
  | nil => exact monotone_const _
  | cons t ts ih =>
    unfold readSideParts
    split
    · cases contentOf ps (partPath path t.2.2) with
      | none => exact ih
      | some s =>
        dsimp only
        have hok : ∀ h, monotone fun y => (readSideParts x (k y) ps path kind ts).bind fun l => .ok ((t.2.1, h, []) :: l) := by
          intro h
          steps
        intro a b h
        have hf : monotone fun y => (readHeader x (k y) s).got := by steps
        rcases hf a b h with e | e
        · dsimp only at e ⊢; rw [e]; exact .inl rfl
        · dsimp only at e ⊢; rw [e]
          cases (readHeader x (k b) s).got with
          | ok v => exact hok v a b h
          | err => exact ih a b h
          | _ => exact .inr rfl
    · exact ih

@[partial_fixpoint_monotone]
theorem mono_readRecords (ps : List Part) (path : Str) (m : Rels) (hk : monotone k) : monotone fun y => readRecords (k y) ps path m := by
  unfold readRecords
  steps

@[partial_fixpoint_monotone]
theorem mono_readNotes (ps : List Part) (path : Str) (m : Rels) (rs : List CommentExtended) (hk : monotone k) :
    monotone fun y => readNotes x (k y) ps path m rs := by
  unfold readNotes
  steps

@[partial_fixpoint_monotone]
theorem mono_readLists (ps : List Part) (path : Str) (m : Rels) (default : Numberings) (hk : monotone k) :
    monotone fun y => readLists x (k y) ps path m default := by
  unfold readLists
  cases targetOf m (officeType c!"numbering") with
  | some t => dsimp only; steps
  | none =>
    dsimp only
    have second : monotone fun y => readIfThere (contentOf ps c!"word/numbering.xml") default fun s => (readNumberings x (k y) s).got := by steps
    cases contentOf ps c!"/word/numbering.xml" with
    | none => exact second
    | some s =>
      dsimp only
      intro a b h
      have hf : monotone fun y => (readNumberings x (k y) s).got := by steps
      rcases hf a b h with e | e
      · dsimp only at e ⊢; rw [e]; exact .inl rfl
      · dsimp only at e ⊢; rw [e]
        cases (readNumberings x (k b) s).got with
        | err => exact second a b h
        | _ => exact .inr rfl

@[partial_fixpoint_monotone]
theorem mono_readXmlFrom (e : FileEnv) (base64 : Str → Option Bytes) (ps : List Part) (path : Str) (custom : List (Str × Str)) (m : Rels)
    (hk : monotone k) : monotone fun y => readXmlFrom e base64 (k y) ps path custom m := by
  unfold readXmlFrom
  dsimp only
  steps

@[partial_fixpoint_monotone]
theorem mono_readParts (e : FileEnv) (base64 : Str → Option Bytes) (ps : List Part) (hk : monotone k) :
    monotone fun y => readParts e base64 (k y) ps := by
  unfold readParts
  split
  · exact monotone_const _
  · steps

@[partial_fixpoint_monotone]
theorem mono_readXml (e : FileEnv) (base64 : Str → Option Bytes) (text : Str) (hk : monotone k) :
    monotone fun y => readXml e base64 (k y) text := by
  unfold readXml
  split
  · exact monotone_const _
  · steps

end

/-- More steps do not change an outcome. -/
theorem readXml_steps {e : FileEnv} {base64 : Str → Option Bytes} {n m : Nat} {text : Str} (h : readXml e base64 n text ≠ .running) (hnm : n ≤ m) :
    readXml e base64 m text = readXml e base64 n text := by
  rcases mono_readXml (k := fun y => y) e base64 text monotone_id n m hnm with h' | h'
  · exact absurd h' h
  · exact h'.symm

end Docx.FlatOpc
