import Verif.Model.Ids
import Verif.Model.PropTypes
import Verif.Model.Numbers

/-!
# Picture sizes and image kinds (`types/emu.rs`, `documents/elements/pic.rs`, `documents/mod.rs`)
-/

namespace Docx

/-- `u32::MAX`. -/
def u32Max : Nat := 4294967295

/-- `to_px`. types/emu.rs:5-7. -/
def toPx (v : Nat) : Nat := v / 9525
/-- `from_px`. types/emu.rs:9-11. `none` is the overflow of the `u32` multiplication: a panic with overflow
checks, a wrapped value without. -/
def fromPx (v : Nat) : Option Nat := if v * 9525 ≤ u32Max then some (v * 9525) else none

/-- `Pic::new_with_dimensions`, given the id the generator returns. elements/pic.rs:79-102. `none` is the overflow
in `from_px`. -/
def Pic.newWithDimensions (id : Nat) (buffer : List UInt8) (w h : Nat) : Option Pic :=
  match fromPx w, fromPx h with
  | some x, some y => some { id := createPicRid id, image := buffer, size := (x, y) }
  | _, _ => none

/-- `str::ends_with`. -/
def endsWith (suffix s : Str) : Bool := suffix.reverse.isPrefixOf s.reverse

/-- A range index `buf[a..b]`: `none` is the panic of an index out of range. -/
def slice? (buf : List UInt8) (a b : Nat) : Option (List UInt8) :=
  if a ≤ b ∧ b ≤ buf.length then some ((buf.drop a).take (b - a)) else none

/-- `is_emf`. documents/mod.rs:111-121. `none` would be a panic of one of the two range indexes; `&&` does not
evaluate its right side if the left side is false. -/
def isEmf (path : Str) (buf : List UInt8) : Option Bool :=
  if endsWith c!".emf" (asciiLower path) then some true
  else if buf.length ≥ 44 then
    (slice? buf 0 4).bind fun a =>
      if a = [0x01, 0x00, 0x00, 0x00] then (slice? buf 40 44).map fun b => decide (b = [0x20, 0x45, 0x4D, 0x46])
      else some false
  else some false

/-- `PNG_SIGNATURE`. documents/mod.rs:109. -/
def pngSignature : List UInt8 := [137, 80, 78, 71, 13, 10, 26, 10]

/-- An entry of `Docx::images`: id, path, bytes and preview. documents/mod.rs:165. -/
structure ImageEntry where
  id : Str
  path : Str
  image : List UInt8
  png : List UInt8
deriving DecidableEq

/-- `Docx::add_image_with_options` on the list of images. documents/mod.rs:311-347. `convert` is
`image::load_from_memory` followed by `write_to` in the `image` crate: `none` if the bytes are not an image. -/
def addImageWithOptions (convert : List UInt8 → Option (List UInt8)) (images : List ImageEntry) (id path : Str)
    (buf : List UInt8) (generatePreview : Bool) : Option (List ImageEntry) :=
  (isEmf path buf).map fun emf =>
    if emf then images ++ [⟨id, path, buf, []⟩]
    else if !generatePreview then images ++ [⟨id, path, buf, []⟩]
    else if pngSignature.isPrefixOf buf then images ++ [⟨id, path, buf, buf⟩]
    else
      match convert buf with
      | some png => images ++ [⟨id, path, buf, png⟩]
      | none => images

end Docx
