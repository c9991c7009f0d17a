import Verif.Model.PixelMasks
import Mathlib.Data.Rat.Defs

/-!
# `PixelMasks.plot` (`calib/pixel_masks.py:92-103`)

The image is the list of the values of the pixels, `none` is NaN (not drawn).
-/

namespace Verif.Model

open Verif.Py

/-- `image[mask] = value` with a boolean mask; a mask of another size raises `IndexError` -/
def assignMask (image : List (Option ℚ)) (mask : List Bool) (value : ℚ) : Except Err (List (Option ℚ)) :=
  if mask.length ≠ image.length then .error .indexError
  else .ok (List.zipWith (fun b x => if b then some value else x) mask image)

/-- the image of `PixelMasks.plot` (`calib/pixel_masks.py:98-102`); the camera of version 1.1.0 has 2048 pixels -/
def maskImage (m : Masks) : Except Err (List (Option ℚ)) :=
  match assignMask (List.replicate 2048 none) m.dead 1 with
  | .error e => .error e
  | .ok a => match assignMask a m.low 2 with
    | .error e => .error e
    | .ok b => assignMask b (repeatEach 4 m.badHv) (1 / 2)

end Verif.Model
