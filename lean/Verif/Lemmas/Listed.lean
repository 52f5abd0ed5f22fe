import Verif.Lemmas.ReadFile
import Verif.Lemmas.ReadBooks

/-!
# What a file that is read lists besides its parts: links, fonts of themes, divisions of web pages
-/

namespace Docx

open Docx.Xml Docx.Spec

/-- The same links, themes and web settings. -/
structure SameLists (r r' : ReadFile) : Prop where
  links : r'.hyperlinks = r.hyperlinks
  themes : r'.themes = r.themes
  web : r'.webSettings = r.webSettings

theorem SameLists.trans {a b c : ReadFile} (h : SameLists a b) (h' : SameLists b c) : SameLists a c :=
  ⟨h'.links.trans h.links, h'.themes.trans h.themes, h'.web.trans h.web⟩

theorem images_lists {e : FileEnv} {es : List Entry} {m : ReadRels} {a b : ReadFile} (h : addImages e es m a = .ok b) : SameLists a b := by
  obtain ⟨l, hl⟩ := addImages_ok e es m a
  rw [hl] at h
  cases h
  exact ⟨rfl, rfl, rfl⟩

theorem header_lists {e : FileEnv} {es : List Entry} {ps ref set} {a b : ReadFile} (h : assignHeader e es ps ref set a = .ok b) : SameLists a b := by
  unfold assignHeader at h
  split at h
  · cases h; exact ⟨rfl, rfl, rfl⟩
  · split at h
    · cases h; exact ⟨rfl, rfl, rfl⟩
    · have := images_lists h
      exact ⟨this.1, this.2, this.3⟩

theorem footer_lists {e : FileEnv} {es : List Entry} {ps ref set} {a b : ReadFile} (h : assignFooter e es ps ref set a = .ok b) : SameLists a b := by
  unfold assignFooter at h
  split at h
  · cases h; exact ⟨rfl, rfl, rfl⟩
  · split at h
    · cases h; exact ⟨rfl, rfl, rfl⟩
    · have := images_lists h
      exact ⟨this.1, this.2, this.3⟩

theorem parts_lists {e : FileEnv} {es : List Entry} {hs fs : List (Str × Header × ReadRels)} {r r' : ReadFile}
    (h : assignParts e es hs fs r = .ok r') : SameLists r r' := by
  unfold assignParts at h
  obtain ⟨a1, e1, h⟩ := Got.bind_ok h
  obtain ⟨a2, e2, h⟩ := Got.bind_ok h
  obtain ⟨a3, e3, h⟩ := Got.bind_ok h
  obtain ⟨a4, e4, h⟩ := Got.bind_ok h
  obtain ⟨a5, e5, h⟩ := Got.bind_ok h
  exact (header_lists e1).trans ((header_lists e2).trans ((header_lists e3).trans ((footer_lists e4).trans ((footer_lists e5).trans (footer_lists h)))))

theorem needed_lists {α : Type} {es : List Entry} {m : ReadRels} {ty : Str} {r r' : ReadFile} {read : Str → Got α} {put : ReadFile → α → ReadFile}
    (hp : ∀ a, SameLists r (put r a)) (h : readNeeded es m ty r read put = .ok r') : SameLists r r' := by
  unfold readNeeded at h
  split at h
  · cases h; exact ⟨rfl, rfl, rfl⟩
  · obtain ⟨s, _, h⟩ := Got.bind_ok h
    obtain ⟨a, _, h⟩ := Got.bind_ok h
    cases h
    exact hp a

/-- The fonts of the theme in an entry, if there are any that can be read. -/
def themeAt (n : Nat) (es : List Entry) (path : Str) : Option FontScheme :=
  match readText es path with
  | none => none
  | some s =>
    match (readTheme n s).got with
    | .ok f => some f
    | _ => none

theorem themes_listed (n : Nat) (es : List Entry) : ∀ (ts : List Target) (l : List FontScheme), readThemesFrom n es ts = .ok l →
    l = ts.filterMap fun t => themeAt n es t.path
  | [], l, h => by cases h; rfl
  | t :: ts, l, h => by
    unfold readThemesFrom at h
    rw [List.filterMap_cons]
    unfold themeAt
    split at h
    · next e => rw [e]; exact themes_listed n es ts l h
    · next s e =>
      rw [e]
      dsimp only
      split at h
      · next f ef =>
        obtain ⟨l', h1, h⟩ := Got.bind_ok h
        cases h
        rw [ef]
        dsimp only
        rw [themes_listed n es ts l' h1]
        rfl
      · next ef => rw [ef]; exact themes_listed n es ts l h
      · cases h
      · cases h

/-- The divisions in the web settings: of the first relationship of the type. -/
def WebAt (x : ReadEnv) (n : Nat) (es : List Entry) (m : ReadRels) (l : List Div) : Prop :=
  match firstTarget m (officeType c!"webSettings") with
  | none => l = []
  | some t => ∃ s, readText es t.path = some s ∧ (readWebSettings x n s).got = .ok l

theorem web_listed {x : ReadEnv} {n : Nat} {es : List Entry} {m : ReadRels} {r r' : ReadFile} (h0 : r.webSettings = [])
    (h : readNeeded es m (officeType c!"webSettings") r (fun s => (readWebSettings x n s).got) (fun r a => { r with webSettings := a }) = .ok r') :
    r'.hyperlinks = r.hyperlinks ∧ r'.themes = r.themes ∧ WebAt x n es m r'.webSettings := by
  unfold readNeeded at h
  unfold WebAt
  split at h
  · next e => rw [e]; cases h; exact ⟨rfl, rfl, h0⟩
  · next t e =>
    obtain ⟨s, hs, h⟩ := Got.bind_ok h
    obtain ⟨a, ha, h⟩ := Got.bind_ok h
    rw [e]
    cases h
    refine ⟨rfl, rfl, s, ?_, ha⟩
    cases ht : readText es t.path with
    | none => rw [ht] at hs; cases hs
    | some s' => rw [ht] at hs; cases hs; rfl

theorem from_listed {e : FileEnv} {n : Nat} {es : List Entry} {path : Str} {custom : List (Str × Str)} {m : ReadRels} {r : ReadFile}
    (h : readDocxFrom e n es path custom m = .ok r) :
    r.hyperlinks = ((m.targets (officeType c!"hyperlink")).getD []).filterMap (fun t => t.mode.map fun mode => (t.rid, t.path, mode)) ∧
    r.themes = ((m.targets (officeType c!"theme")).getD []).filterMap (fun t => themeAt n es t.path) ∧ WebAt e.x n es m r.webSettings := by
  unfold readDocxFrom at h
  obtain ⟨headers, _, h⟩ := Got.bind_ok h
  obtain ⟨footers, _, h⟩ := Got.bind_ok h
  obtain ⟨themes, ht, h⟩ := Got.bind_ok h
  obtain ⟨records, _, h⟩ := Got.bind_ok h
  obtain ⟨comments, _, h⟩ := Got.bind_ok h
  obtain ⟨s, _, h⟩ := Got.bind_ok h
  obtain ⟨document, _, h⟩ := Got.bind_ok h
  obtain ⟨r1, h1, h⟩ := Got.bind_ok h
  obtain ⟨r2, h2, h⟩ := Got.bind_ok h
  obtain ⟨r3, h3, h⟩ := Got.bind_ok h
  obtain ⟨r4, h4, h⟩ := Got.bind_ok h
  obtain ⟨r5, h5, h⟩ := Got.bind_ok h
  obtain ⟨r6, h6, h⟩ := Got.bind_ok h
  cases h
  have e1 := parts_lists h1
  have ec : SameLists r1 (r1.withComments comments records) := by
    unfold ReadFile.withComments
    split
    · exact ⟨rfl, rfl, rfl⟩
    · exact ⟨rfl, rfl, rfl⟩
  have e4 := e1.trans (ec.trans ((needed_lists (fun _ => ⟨rfl, rfl, rfl⟩) h2).trans ((needed_lists (fun _ => ⟨rfl, rfl, rfl⟩) h3).trans
    (needed_lists (fun _ => ⟨rfl, rfl, rfl⟩) h4))))
  obtain ⟨w1, w2, w3⟩ := web_listed e4.web h5
  have e6 := images_lists h6
  have k1 : r6.hyperlinks = [] := e6.links.trans (w1.trans e4.links)
  have k2 : r6.themes = themes := e6.themes.trans (w2.trans e4.themes)
  refine ⟨?_, ?_, ?_⟩
  · show r6.hyperlinks ++ _ = _
    rw [k1, List.nil_append]
  · show r6.themes = _
    rw [k2]
    exact themes_listed n es _ _ ht
  · show WebAt e.x n es m r6.webSettings
    rw [e6.web]
    exact w3

/-- What is listed, for any archive. -/
theorem docx_listed {e : FileEnv} {n : Nat} {es : List Entry} {r : ReadFile} (h : readDocx e n es = .ok r) :
    ∃ s rels m, readText es c!"_rels/.rels" = some s ∧ (readPackageRels n s).got = .ok rels ∧ readPartRels n es (documentPath rels) = .ok m ∧
    r.hyperlinks = ((m.targets (officeType c!"hyperlink")).getD []).filterMap (fun t => t.mode.map fun mode => (t.rid, t.path, mode)) ∧
    r.themes = ((m.targets (officeType c!"theme")).getD []).filterMap (fun t => themeAt n es t.path) ∧ WebAt e.x n es m r.webSettings := by
  unfold readDocx at h
  obtain ⟨ct, _, h⟩ := Got.bind_ok h
  split at h
  · cases h
  · obtain ⟨s, hs, h⟩ := Got.bind_ok h
    obtain ⟨rels, hr, h⟩ := Got.bind_ok h
    obtain ⟨custom, _, h⟩ := Got.bind_ok h
    obtain ⟨m, hm, h⟩ := Got.bind_ok h
    refine ⟨s, rels, m, ?_, hr, hm, from_listed h⟩
    cases ht : readText es c!"_rels/.rels" with
    | none => rw [ht] at hs; cases hs
    | some s' => rw [ht] at hs; cases hs; rfl

end Docx
