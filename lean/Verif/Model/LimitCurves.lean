import Verif.Model.Resolutions
import Verif.Py.Hist
import Mathlib.Analysis.SpecialFunctions.Pow.Real

/-!
# `plotting/resolutions.py`: reference curves, selection and binning of the points

Exact reals; arrays are lists; NaN is `none`. A frame is a list of named columns. The edges `np.geomspace(0.1, x.max(), 100)` are a parameter: all
that matters is that they increase from 0.1 to the largest charge. Drawing is not modelled: a plot is the list of its points.
-/

namespace Verif.Model

open Verif.Py

/-- `limit_curves(npe, n_nsb, n_add, enf, sigma2)` (`plotting/resolutions.py:94-95`) for one charge -/
noncomputable def limitCurve (npe nNsb nAdd enf sigma2 : ℝ) : ℝ :=
  Real.sqrt ((nNsb + nAdd) + enf ^ 2 * npe + (sigma2 * npe) ^ 2) / npe

/-- `curve[true > defined_npe] = np.nan` -/
noncomputable def maskAbove (limit : ℝ) (true_ : List ℝ) (curve : ℝ → ℝ) : List (Option ℝ) :=
  true_.map fun x => if x > limit then none else some (curve x)

/-- `requirement(true)` (`plotting/resolutions.py:107-117`) -/
noncomputable def requirement (true_ : List ℝ) : List (Option ℝ) :=
  maskAbove 1000 true_ fun x => limitCurve x (Real.sqrt (4.0 + 3.0)) 0 1.2 0.1

/-- `goal(true)` (`plotting/resolutions.py:129-139`) -/
noncomputable def goal (true_ : List ℝ) : List (Option ℝ) :=
  maskAbove 2000 true_ fun x => limitCurve x 2 0 1.1152 0.05

/-- `poisson(true)` (`plotting/resolutions.py:151-152`) -/
noncomputable def poissonLimit (true_ : List ℝ) : List ℝ := true_.map fun x => Real.sqrt x / x

/-- `ChargeResolutionWRRPlotter._plot`: the values divided by the requirement (`plotting/resolutions.py:170`) -/
noncomputable def relativeToRequirement (x y : List ℝ) : List (Option ℝ) :=
  List.zipWith (fun v r => r.map fun q => v / q) y (requirement x)

/-! ## The tables of `utils/resolutions.py` as frames -/

/-- a frame: named columns -/
abbrev Frame := List (String × List (Option ℝ))

/-- the columns of the table per pixel (`utils/resolutions.py:73-78`, `110-119`) -/
noncomputable def resolutionFrame (rows : List ResolutionRow) : Frame :=
  [("pixel", rows.map fun r => some (r.row.pixel : ℝ)), ("true", rows.map fun r => some (r.row.key : ℝ)),
   ("sum", rows.map fun r => r.row.sum.map fun q => (q : ℝ)), ("n", rows.map fun r => some (r.row.n : ℝ)),
   ("charge_resolution", rows.map (·.rel)), ("charge_resolution_abs", rows.map (·.abs))]

/-- the columns of the table of the camera (`utils/resolutions.py:120-130`) -/
noncomputable def cameraFrame (rows : List ResolutionRow) : Frame := (resolutionFrame rows).tail

/-- `frame[name]` -/
noncomputable def frameColumn (f : Frame) (name : String) : Except Err (List (Option ℝ)) :=
  match Dict.get? f name with
  | some c => .ok c
  | none => .error .keyError

/-- the points of `plot_camera` before the binning: `set_store` keeps rows with a true charge above 0.001, then the columns `true` and `rmse` are
read (`plotting/resolutions.py:32-33`, `54-57`). The `i`-th row is kept by position. -/
noncomputable def cameraPoints (f : Frame) : Except Err (List (Option ℝ × Option ℝ)) :=
  match frameColumn f "true" with
  | .error e => .error e
  | .ok t => match frameColumn f "rmse" with
    | .error e => .error e
    | .ok y => .ok ((t.zip y).filter fun p => match p.1 with | some v => decide (v > 0.001) | none => false)

/-- the points of `plot_pixel` before the binning (`plotting/resolutions.py:32-33`, `44-48`) -/
noncomputable def pixelPoints (f : Frame) (pixel : ℝ) : Except Err (List (Option ℝ × Option ℝ)) :=
  match frameColumn f "true" with
  | .error e => .error e
  | .ok t => match frameColumn f "pixel" with
    | .error e => .error e
    | .ok px => match frameColumn f "rmse" with
      | .error e => .error e
      | .ok y => .ok (((px.zip (t.zip y)).filter fun p => decide (p.1 = some pixel) && match p.2.1 with | some v => decide (v > 0.001) | none => false).map (·.2))

/-! ## Binning -/

/-- `bin_points(x, y, yerr)` without the errors (`plotting/resolutions.py:11-20`): the means of `x` and `y` in every bin that is not empty -/
noncomputable def binPoints (edges : List ℝ) (points : List (ℝ × ℝ)) : List (ℝ × ℝ) :=
  (binsOf edges).filterMap fun bin => match points.filter fun p => inBin bin p.1 with
    | [] => none
    | g => some ((g.map (·.1)).sum / g.length, (g.map (·.2)).sum / g.length)

end Verif.Model
