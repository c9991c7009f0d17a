import Verif.Model.Camera
import Verif.Model.Plotting

/-!
# Colour limits of `CameraImageImshow` (`plotting/camera.py:343-414`)
-/

namespace Verif.Model

open Verif.Py

/-- the colour scale of a `CameraImageImshow`; `none` in a cell of `data` is a masked cell. matplotlib masks NaN and infinity in `set_data`. -/
structure ImshowScale where
  row : List Int
  col : List Int
  nRows : Nat
  nCols : Nat
  autoscale : Bool
  data : Nat → Nat → Option ℚ
  clim : Option (ℚ × ℚ)

/-- all cells of the grid, row by row -/
def gridCells (nRows nCols : Nat) (data : Nat → Nat → Option ℚ) : List (Option ℚ) :=
  (List.range nRows).flatMap fun i => (List.range nCols).map fun j => data i j

/-- a new `CameraImageImshow` (`plotting/camera.py:364-379`): `imshow` takes the limits from the zeros it is given -/
def ImshowScale.init (row col : List Int) (nRows nCols : Nat) : Except Err ImshowScale :=
  if row.length ≠ col.length then .error .assertionError
  else
    let data : Nat → Nat → Option ℚ := maskCorners nRows nCols fun _ _ => some 0
    .ok ⟨row, col, nRows, nCols, true, data, autoLimits false (gridCells nRows nCols data)⟩

/-- what a caller can do: assign an image (`none`: NaN or infinity), choose limits, return to automatic ones -/
inductive ImshowOp
  | image (val : List (Option ℚ))
  | setLimits (zmin zmax : ℚ)
  | resetLimits

/-- the `image` setter, `set_limits_minmax` and `reset_limits` (`plotting/camera.py:386-396, 401-414`). An image of the wrong size (`AssertionError`) and positions outside the grid
(`IndexError`) leave what is shown as it was. -/
def ImshowScale.step (s : ImshowScale) : ImshowOp → ImshowScale
  | .image val =>
    if val.length ≠ s.row.length then s
    else match fancySet s.nRows s.nCols (maskCorners s.nRows s.nCols fun _ _ => some (0 : ℚ)) s.row s.col val with
      | .error _ => s
      | .ok data => { s with data := data, clim := if s.autoscale then autoLimits false (gridCells s.nRows s.nCols data) else s.clim }
  | .setLimits a b => { s with autoscale := false, clim := some (a, b) }
  | .resetLimits => { s with autoscale := true, clim := autoLimits false (gridCells s.nRows s.nCols s.data) }

end Verif.Model
