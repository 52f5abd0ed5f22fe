import Verif.Lemmas.Steps
import Verif.Spec.Outcome
import Verif.Props.C61_ReadFile
import Verif.Props.C63_Written
import Verif.Props.C65_Succeeds

/-!
# C69: what reading an archive comes to

The readers of the model are given a number of steps, so that they are total. Here it is shown that the number does not matter: with more
steps the outcome is the same, unless there was none yet.
-/

namespace Docx.Props

open Docx.Spec Docx.Xml

/-- **C69.** Reading an archive comes to exactly one thing: a file, an error, a panic, or never an end. It is a function of the archive and
the environment. -/
theorem C69_one_outcome (e : FileEnv) (es : List Entry) : ∃ o, ComesTo e es o ∧ ∀ o', ComesTo e es o' → o' = o := by
  have one : ∀ o o', ComesTo e es o → ComesTo e es o' → o' = o := by
    rintro o o' ⟨k, hk⟩ ⟨k', hk'⟩
    exact (hk' (max k k') (Nat.le_max_right _ _)).symm.trans (hk _ (Nat.le_max_left _ _))
  by_cases h : ∃ n, readDocx e n es ≠ .running
  · obtain ⟨n, hn⟩ := h
    exact ⟨_, ⟨n, fun m hm => readDocx_steps hn hm⟩, fun o' => one _ o' ⟨n, fun m hm => readDocx_steps hn hm⟩⟩
  · have h : ∀ n, readDocx e n es = .running := fun n => Classical.byContradiction fun hn => h ⟨n, hn⟩
    exact ⟨.running, ⟨0, fun n _ => h n⟩, fun o' => one _ o' ⟨0, fun n _ => h n⟩⟩

/-- **C69.** Whatever reading gives with some number of steps, it comes to. -/
theorem C69_any_steps (e : FileEnv) (n : Nat) (es : List Entry) (h : readDocx e n es ≠ .running) : ComesTo e es (readDocx e n es) :=
  ⟨n, fun _ hm => readDocx_steps h hm⟩

/-- **C69.** Reading never ends exactly if it has not ended after any number of steps. -/
theorem C69_never_ends_iff (e : FileEnv) (es : List Entry) : ComesTo e es .running ↔ ∀ n, readDocx e n es = .running := by
  refine ⟨fun ⟨k, hk⟩ n => Classical.byContradiction fun hn => ?_, fun h => ⟨0, fun n _ => h n⟩⟩
  have := readDocx_steps hn (Nat.le_max_left n k)
  rw [hk _ (Nat.le_max_right _ _)] at this
  exact hn this.symm

/-- What holds of the outcome with enough steps holds of the outcome with any number of steps. -/
theorem every_outcome {e : FileEnv} {es : List Entry} {P : Got ReadFile → Prop} (h : ∃ k, ∀ n, k ≤ n → P (readDocx e n es)) {n : Nat}
    (hn : readDocx e n es ≠ .running) : P (readDocx e n es) := by
  obtain ⟨k, hk⟩ := h
  have := hk _ (Nat.le_max_right n k)
  rwa [readDocx_steps hn (Nat.le_max_left n k)] at this

/-- **C69, tidy archives.** Under the conditions of C65 reading comes to one file. -/
theorem C69_tidy (e : FileEnv) (es : List Entry) (h : Tidy es) (hh : Harmless e.x es) (hc : Complete e.x es) : ∃ r, ComesTo e es (.ok r) := by
  obtain ⟨k, hk⟩ := C65_succeeds e es h hh hc
  obtain ⟨r, hr⟩ := hk k (Nat.le_refl _)
  refine ⟨r, ?_⟩
  rw [← hr]
  exact C69_any_steps e k es (by rw [hr]; simp)

/-- **C69, written packages.** Reading a package that was written comes to one file, under the conditions of `C65_written`. -/
theorem C69_written (cs : List Call) (d : DocxFile) (env : Env) (w : World) (es : List Entry) (e : FileEnv)
    (hc : DocxFile.new.calls cs = some d) (hl : ∀ l, (env.links l).Perm l) (hp : ∀ l, (env.props l).Perm l) (hm : Made d.document)
    (hm' : MadePictures d.document) (hs : AllCopied d)
    (hi : ∀ i ∈ d.customItems, Calm e.x (readEvents (formatAll i)) ∧ Sure e.x (readEvents (formatAll i)))
    (h : Packed env d w es) (hr : NumbersFit es) : ∃ r, ComesTo e es (.ok r) := by
  obtain ⟨k, hk⟩ := C65_written cs d env w es e hc hl hp hm hm' hs hi h hr
  obtain ⟨r, hr⟩ := hk k (Nat.le_refl _)
  refine ⟨r, ?_⟩
  rw [← hr]
  exact C69_any_steps e k es (by rw [hr]; simp)

/-- **C69, what comes back.** C61 with one file: reading the package comes to a file with the body, and with everything else. -/
theorem C69_read_file (e : FileEnv) (cs : List Call) (d : DocxFile) (env : Env) (w : World) (es : List Entry) (items : List BodyItem)
    (S : Sendable cs d env) (h : Packed env d w es) (hb : d.document.children = (bodyOf items).children) (hk : KeptItems items)
    (hn : bodyComments d.document = []) (hx : ∀ l, .commentsExtended l ∉ cs) :
    ∃ r, ComesTo e es (.ok r) ∧ (seenItems r.file.document).map dropIds = some (dropIds (afterItems items)) ∧
      r.file.comments = [] ∧ RestReadAs e cs d es r := by
  obtain ⟨k, hk⟩ := C61_read_file e cs d env w es items S h hb hk hn hx
  obtain ⟨r, hr, hr'⟩ := hk k (Nat.le_refl _)
  refine ⟨r, ?_, hr'⟩
  rw [← hr]
  exact C69_any_steps e k es (by rw [hr]; simp)

/-- **C69, the panics of C64.** The archives of `C64_panics` make reading panic, whatever the number of steps, as long as it is enough. -/
theorem C69_panics :
    ComesTo aReader (smallArchive c!"<Relationships/>" c!"<w:document><w:body><w:p><w:pPr><w:jc/></w:pPr></w:p></w:body></w:document>" []) .panic ∧
    ComesTo aReader (smallArchive c!"<Relationships/>"
      c!"<w:document><w:body><w:tbl><w:tblPr><w:tblW w:w=\"auto\"/></w:tblPr></w:tbl></w:body></w:document>" []) .panic ∧
    ComesTo aReader (smallArchive
      c!"<Relationships><Relationship Id=\"rId1\" Type=\"http://schemas.openxmlformats.org/officeDocument/2006/relationships/comments\" Target=\"comments.xml\"/></Relationships>"
      c!"<w:document/>" [⟨c!"word/comments.xml", .text c!"<w:comments><w:comment/></w:comments>"⟩]) .panic ∧
    ComesTo aReader [⟨c!"[Content_Types].xml", .text c!"<Types><Default/></Types>"⟩] .panic := by
  have key : ∀ es, readDocx aReader 20 es = .panic → ComesTo aReader es .panic := fun es h =>
    h ▸ C69_any_steps aReader 20 es (by rw [h]; simp)
  obtain ⟨h1, h2, h3, h4⟩ := C64_panics
  exact ⟨key _ h1, key _ h2, key _ h3, key _ h4⟩

/-! ## Each outcome occurs -/

example : ComesTo aReader [] .err :=
  ⟨0, fun _ _ => rfl⟩

example (e : FileEnv) : ComesTo e (smallArchive [] c!"<w:document/>" []) .running :=
  (C69_never_ends_iff e _).2 fun n => C63_empty_rels_runs_forever e n

private def succeeds (g : Got ReadFile) : Bool := match g with | .ok _ => true | _ => false

private theorem small_succeeds : succeeds (readDocx aReader 20 (smallArchive c!"<Relationships/>"
    c!"<w:document><w:body><w:p><w:r><w:t>one</w:t></w:r></w:p></w:body></w:document>" [])) = true := by decide +kernel

private theorem comes_of {ar : List Entry} (h : succeeds (readDocx aReader 20 ar) = true) : ∃ r, ComesTo aReader ar (.ok r) := by
  cases e : readDocx aReader 20 ar with
  | ok r => exact ⟨r, e ▸ C69_any_steps aReader 20 ar (by rw [e]; simp)⟩
  | _ => rw [e] at h; cases h

example : ∃ r, ComesTo aReader (smallArchive c!"<Relationships/>"
    c!"<w:document><w:body><w:p><w:r><w:t>one</w:t></w:r></w:p></w:body></w:document>" []) (.ok r) := comes_of small_succeeds

end Docx.Props
