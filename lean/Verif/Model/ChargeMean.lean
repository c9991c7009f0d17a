import Verif.Model.LimitCurves

/-!
# `ChargeMeanPlotter` (`plotting/resolutions.py:196-250`)

Exact reals. Drawing is not modelled: a plot is the list of its curves. The edges of the bins depend on the charges (`np.geomspace(0.1, x.max(), 100)`) and are
a parameter. The error bars are never drawn (`yerr = None`, line 211).
-/

namespace Verif.Model

open Verif.Py

/-- the columns of the table of the charge statistics per pixel (`utils/resolutions.py:173-179`, `208-217`) -/
noncomputable def statisticsFrame (rows : List StatisticsRow) : Frame :=
  [("pixel", rows.map fun r => some (r.row.pixel : ℝ)), ("amplitude", rows.map fun r => some (r.row.key : ℝ)),
   ("sum", rows.map fun r => r.row.sum.map fun q => (q : ℝ)), ("sum2", rows.map fun r => r.row.sum2.map fun q => (q : ℝ)),
   ("n", rows.map fun r => some (r.row.n : ℝ)), ("mean", rows.map fun r => some (r.mean : ℝ)), ("std", rows.map (·.std))]

/-- the columns of the table of the camera (`utils/resolutions.py:218-226`) -/
noncomputable def statisticsCameraFrame (rows : List StatisticsRow) : Frame := (statisticsFrame rows).tail

/-- the pairs of amplitude and mean of the chosen rows (`plotting/resolutions.py:226-229`, `234-236`); values that are NaN do not occur in these columns -/
noncomputable def meanPoints (f : Frame) (pixel : Option ℝ) : Except Err (List (ℝ × ℝ)) :=
  let keep : Except Err (List Bool) := match pixel with
    | none => match frameColumn f "amplitude" with
      | .error e => .error e
      | .ok a => .ok (a.map fun _ => true)
    | some p => match frameColumn f "pixel" with
      | .error e => .error e
      | .ok px => .ok (px.map fun v => decide (v = some p))
  match keep with
  | .error e => .error e
  | .ok ks => match frameColumn f "amplitude" with
    | .error e => .error e
    | .ok a => match frameColumn f "mean" with
      | .error e => .error e
      | .ok m => match frameColumn f "std" with
        | .error e => .error e
        | .ok _ => .ok (((ks.zip (a.zip m)).filter (·.1)).map fun q => (q.2.1.getD 0, q.2.2.getD 0))

/-- state of the plotter: the curves drawn and the range of the charges (`plotting/resolutions.py:197-202`) -/
structure MeanPlot where
  curves : List (List (ℝ × ℝ))
  xMin : Option ℝ
  xMax : Option ℝ

/-- `__init__` -/
def MeanPlot.init : MeanPlot := ⟨[], none, none⟩

/-- `x.min()` of an array; `ValueError` for an empty one -/
noncomputable def arrayMin : List ℝ → Except Err ℝ
  | [] => .error .valueError
  | x :: xs => .ok (xs.foldl min x)

/-- `x.max()` -/
noncomputable def arrayMax : List ℝ → Except Err ℝ
  | [] => .error .valueError
  | x :: xs => .ok (xs.foldl max x)

/-- `bin_points` and `_plot` (`plotting/resolutions.py:11-20`, `208-224`) -/
noncomputable def MeanPlot.plot (edges : List (ℝ × ℝ) → List ℝ) (s : MeanPlot) (points : List (ℝ × ℝ)) : Except Err MeanPlot :=
  let binned := binPoints (edges points) points
  let x := binned.map (·.1)
  match arrayMin x with
  | .error e => .error e
  | .ok lo => match arrayMax x with
    | .error e => .error e
    | .ok hi => .ok {
        curves := s.curves ++ [binned.map fun p => (p.1, p.2 / p.1)]
        xMin := match s.xMin with | none => some lo | some v => if v > lo then some lo else some v
        xMax := match s.xMax with | none => some hi | some v => if v < hi then some hi else some v }

/-- several plots one after the other -/
noncomputable def MeanPlot.plots (edges : List (ℝ × ℝ) → List ℝ) : MeanPlot → List (List (ℝ × ℝ)) → Except Err MeanPlot
  | s, [] => .ok s
  | s, p :: ps => match s.plot edges p with
    | .error e => .error e
    | .ok s' => MeanPlot.plots edges s' ps

/-- the ends of the reference line drawn by `finish` (`plotting/resolutions.py:242-244`); `np.linspace(None, ...)` raises `TypeError` -/
def MeanPlot.line (s : MeanPlot) : Except Err (ℝ × ℝ) :=
  match s.xMin, s.xMax with
  | some a, some b => .ok (a, b)
  | _, _ => .error .typeError

end Verif.Model
