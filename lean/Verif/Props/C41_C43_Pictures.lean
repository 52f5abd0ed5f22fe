import Verif.Model.Pictures

/-!
# C41, C43: picture sizes and image kinds
-/

namespace Docx.Props

open Docx

/-! ## C41 -/

/-- **C41.** A length of at most 450915 pixels converts to EMU, at 9525 EMU per pixel, and back to itself. -/
theorem C41_round_trip (v : Nat) (h : v ≤ 450915) : ∃ e, fromPx v = some e ∧ e = 9525 * v ∧ e < 2 ^ 32 ∧ toPx e = v := by
  refine ⟨v * 9525, ?_, by omega, by omega, ?_⟩
  · unfold fromPx u32Max
    rw [if_pos (by omega)]
  · unfold toPx
    omega

/-- **C41.** The bound is exact: every longer length overflows. -/
theorem C41_overflow (v : Nat) (h : 450915 < v) : fromPx v = none := by
  unfold fromPx u32Max
  rw [if_neg (by omega)]

/-- **C41.** Converting an EMU length to pixels and back never gives a longer length, loses less than one pixel,
and does not overflow. -/
theorem C41_to_px (e : Nat) (h : e < 2 ^ 32) : ∃ r, fromPx (toPx e) = some r ∧ r ≤ e ∧ e < r + 9525 := by
  refine ⟨toPx e * 9525, ?_, ?_, ?_⟩
  · unfold fromPx toPx u32Max
    rw [if_pos (by omega)]
  · unfold toPx; omega
  · unfold toPx; omega

/-- **C41.** A picture made with dimensions in pixels has exactly those dimensions, or cannot be made. -/
theorem C41_picture (id : Nat) (buf : List UInt8) (w h : Nat) :
    (w ≤ 450915 ∧ h ≤ 450915 →
      ∃ p, Pic.newWithDimensions id buf w h = some p ∧ p.image = buf ∧ toPx p.size.1 = w ∧ toPx p.size.2 = h) ∧
    (450915 < w ∨ 450915 < h → Pic.newWithDimensions id buf w h = none) := by
  constructor
  · rintro ⟨hw, hh⟩
    obtain ⟨a, a1, _, _, a2⟩ := C41_round_trip w hw
    obtain ⟨b, b1, _, _, b2⟩ := C41_round_trip h hh
    exact ⟨_, by simp only [Pic.newWithDimensions, a1, b1]; rfl, rfl, a2, b2⟩
  · intro hx
    unfold Pic.newWithDimensions
    rcases hx with hx | hx
    · rw [C41_overflow w hx]
    · rw [C41_overflow h hx]
      cases fromPx w <;> rfl

example : (Pic.newWithDimensions 3 [1, 2] 800 600).map (fun p => (p.id, p.size)) =
    some (c!"rIdImage3", (7620000, 5715000)) := by decide

/-! ## C43 -/

/-- The path ends in `.emf`, in any mix of capital and small letters. -/
def HasEmfExtension (path : Str) : Prop := ∃ base ext, path = base ++ ext ∧ ext.map Char.toLower = c!".emf"

/-- The bytes are an EMF header: the first record has type 1 and the signature is at offset 40. -/
def HasEmfHeader (buf : List UInt8) : Prop :=
  44 ≤ buf.length ∧ buf[0]? = some 1 ∧ buf[1]? = some 0 ∧ buf[2]? = some 0 ∧ buf[3]? = some 0 ∧
    buf[40]? = some 0x20 ∧ buf[41]? = some 0x45 ∧ buf[42]? = some 0x4D ∧ buf[43]? = some 0x46

theorem endsWith_iff (suffix s : Str) : endsWith suffix s = true ↔ ∃ base, s = base ++ suffix := by
  unfold endsWith
  rw [List.isPrefixOf_iff_prefix, List.reverse_prefix]
  constructor
  · rintro ⟨b, e⟩; exact ⟨b, e.symm⟩
  · rintro ⟨b, e⟩; exact ⟨b, e.symm⟩

theorem emfExtension_iff (path : Str) : endsWith c!".emf" (asciiLower path) = true ↔ HasEmfExtension path := by
  rw [endsWith_iff]
  unfold HasEmfExtension asciiLower
  constructor
  · rintro ⟨base, e⟩
    rw [List.map_eq_append_iff] at e
    obtain ⟨a, b, e1, _, e3⟩ := e
    exact ⟨a, b, e1, e3⟩
  · rintro ⟨a, b, e, h⟩
    exact ⟨a.map Char.toLower, by rw [e, List.map_append, h]⟩

theorem slice4 (buf : List UInt8) (n : Nat) (w x y z : UInt8) (h : n + 4 ≤ buf.length) :
    (buf.drop n).take 4 = [w, x, y, z] ↔
      buf[n]? = some w ∧ buf[n + 1]? = some x ∧ buf[n + 2]? = some y ∧ buf[n + 3]? = some z := by
  have key : ∀ l : List UInt8, 4 ≤ l.length → (l.take 4 = [w, x, y, z] ↔
      l[0]? = some w ∧ l[1]? = some x ∧ l[2]? = some y ∧ l[3]? = some z) := by
    intro l hl
    match l, hl with
    | a :: b :: c :: d :: l, _ => simp
  rw [key _ (by simp; omega)]
  simp

/-- **C43.** An image counts as EMF exactly if its path ends in `.emf` in any capitalisation or its bytes are at
least 44 with the EMF record type and signature; the test never panics. -/
theorem C43_kind (path : Str) (buf : List UInt8) :
    ∃ b, isEmf path buf = some b ∧ (b = true ↔ HasEmfExtension path ∨ HasEmfHeader buf) := by
  unfold isEmf
  by_cases h1 : endsWith c!".emf" (asciiLower path) = true
  · exact ⟨true, by rw [if_pos h1], by simp [(emfExtension_iff path).1 h1]⟩
  · have h1' : ¬ HasEmfExtension path := fun h => h1 ((emfExtension_iff path).2 h)
    rw [if_neg h1]
    by_cases h2 : buf.length ≥ 44
    · rw [if_pos h2]
      unfold slice?
      rw [if_pos (by omega), if_pos (by omega)]
      simp only [Option.bind_some, Option.map_some, Nat.sub_zero]
      have a1 := slice4 buf 0 1 0 0 0 (by omega)
      have a2 := slice4 buf 40 0x20 0x45 0x4D 0x46 (by omega)
      by_cases h3 : (buf.drop 0).take 4 = [1, 0, 0, 0]
      · rw [if_pos h3]
        refine ⟨_, rfl, ?_⟩
        rw [decide_eq_true_iff, a2]
        have b := a1.1 h3
        constructor
        · rintro ⟨c0, c1, c2, c3⟩
          exact .inr ⟨h2, b.1, b.2.1, b.2.2.1, b.2.2.2, c0, c1, c2, c3⟩
        · rintro (h | ⟨_, _, _, _, _, c0, c1, c2, c3⟩)
          · exact absurd h h1'
          · exact ⟨c0, c1, c2, c3⟩
      · rw [if_neg h3]
        refine ⟨false, rfl, ?_⟩
        simp only [Bool.false_eq_true, false_iff]
        rintro (h | ⟨_, b0, b1, b2, b3, _⟩)
        · exact h1' h
        · exact h3 (a1.2 ⟨b0, b1, b2, b3⟩)
    · rw [if_neg h2]
      refine ⟨false, rfl, ?_⟩
      simp only [Bool.false_eq_true, false_iff]
      rintro (h | ⟨hl, _⟩)
      · exact h1' h
      · exact h2 hl

/-- **C43.** Reading an image into a document: an EMF image, and any image read without previews, is kept with
its bytes and no preview; another image with the PNG signature is its own preview; any other image is kept with
the preview the conversion gives, and left out if it cannot be converted. Nothing already there changes. -/
theorem C43_add_image (convert : List UInt8 → Option (List UInt8)) (images : List ImageEntry) (id path : Str)
    (buf : List UInt8) (preview : Bool) :
    ((HasEmfExtension path ∨ HasEmfHeader buf) ∨ preview = false →
      addImageWithOptions convert images id path buf preview = some (images ++ [⟨id, path, buf, []⟩])) ∧
    (¬ (HasEmfExtension path ∨ HasEmfHeader buf) → preview = true →
      (∀ rest, buf = [137, 80, 78, 71, 13, 10, 26, 10] ++ rest →
        addImageWithOptions convert images id path buf preview = some (images ++ [⟨id, path, buf, buf⟩])) ∧
      ((∀ rest, buf ≠ [137, 80, 78, 71, 13, 10, 26, 10] ++ rest) →
        addImageWithOptions convert images id path buf preview =
          some (images ++ ((convert buf).map fun png => (⟨id, path, buf, png⟩ : ImageEntry)).toList))) := by
  obtain ⟨b, e, hb⟩ := C43_kind path buf
  unfold addImageWithOptions
  rw [e]
  simp only [Option.map_some]
  constructor
  · intro h
    rcases h with h | h
    · rw [if_pos (hb.2 h)]
    · subst h
      split <;> rfl
  · intro h hp
    have : ¬ b = true := fun x => h (hb.1 x)
    rw [if_neg this]
    subst hp
    simp only [Bool.not_true, Bool.false_eq_true, if_false]
    have hpre : pngSignature.isPrefixOf buf = true ↔ ∃ rest, buf = [137, 80, 78, 71, 13, 10, 26, 10] ++ rest := by
      rw [List.isPrefixOf_iff_prefix]
      constructor
      · rintro ⟨r, e⟩; exact ⟨r, e.symm⟩
      · rintro ⟨r, e⟩; exact ⟨r, e.symm⟩
    constructor
    · intro rest hr
      rw [if_pos (hpre.2 ⟨rest, hr⟩)]
    · intro hr
      rw [if_neg fun y => (hpre.1 y).elim fun rest e => hr rest e]
      cases convert buf <;> simp

example : isEmf c!"word/media/Image1.EMF" [] = some true ∧ isEmf c!"a.bin" [1, 0, 0, 0] = some false ∧
    isEmf c!"a.bin" ([1, 0, 0, 0] ++ List.replicate 36 7 ++ [0x20, 0x45, 0x4D, 0x46]) = some true := by decide

example : HasEmfExtension c!"x.eMf" := ⟨c!"x", c!".eMf", by decide, by decide⟩

end Docx.Props
