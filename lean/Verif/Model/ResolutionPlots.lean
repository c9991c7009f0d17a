import Verif.Model.LimitCurves

/-!
# `plotting/resolutions.py:7-61,154-193`: error bars of the charge resolution, and curves relative to the requirement

Exact reals, NaN is `none`. A plot is the list of its points; colours and labels are not modelled. The edges of the bins are a parameter as in `LimitCurves`.
-/

namespace Verif.Model

open Verif.Py

/-- a point with its error bar -/
structure ErrPoint where
  x : ℝ
  y : ℝ
  err : ℝ

/-- `sum_errors` (`plotting/resolutions.py:7-8`) -/
noncomputable def sumErrors (es : List ℝ) : ℝ := Real.sqrt ((es.map fun e => e ^ 2).sum) / es.length

/-- `bin_points` (`plotting/resolutions.py:11-20`) with the errors -/
noncomputable def binErrPoints (edges : List ℝ) (points : List ErrPoint) : List ErrPoint :=
  (binsOf edges).filterMap fun bin => match points.filter fun p => inBin bin p.x with
    | [] => none
    | g => some ⟨(g.map (·.x)).sum / g.length, (g.map (·.y)).sum / g.length, sumErrors (g.map (·.err))⟩

/-- the points given to `_plot` by `plot_pixel`, `plot_camera` (`plotting/resolutions.py:44-61`): the pairs of charge and resolution with the error
`1 / np.sqrt(x)` -/
noncomputable def resolutionPoints (edges : List ℝ) (points : List (ℝ × ℝ)) : List ErrPoint :=
  binErrPoints edges (points.map fun p => ⟨p.1, p.2, 1 / Real.sqrt p.1⟩)

/-- `ChargeResolutionPlotter._plot` (`plotting/resolutions.py:35-42`): charge, value, error -/
noncomputable def drawResolution (ps : List ErrPoint) : List (ℝ × Option ℝ × ℝ) := ps.map fun p => (p.x, some p.y, p.err)

/-- `ChargeResolutionWRRPlotter._plot` (`plotting/resolutions.py:168-171`): the values are divided, the errors handed on -/
noncomputable def drawRelative (ps : List ErrPoint) : List (ℝ × Option ℝ × ℝ) :=
  (ps.zip (relativeToRequirement (ps.map (·.x)) (ps.map (·.y)))).map fun q => (q.1.x, q.2, q.1.err)

/-- division of two curves, NaN where one of them is -/
noncomputable def divideCurves (a b : List (Option ℝ)) : List (Option ℝ) :=
  List.zipWith (fun p q => match p, q with | some u, some v => some (u / v) | _, _ => none) a b

/-- `ChargeResolutionWRRPlotter.plot_requirement` (`plotting/resolutions.py:173-176`) -/
noncomputable def relativeRequirement (true_ : List ℝ) : List (Option ℝ) := divideCurves (requirement true_) (requirement true_)

/-- `ChargeResolutionWRRPlotter.plot_goal` (`plotting/resolutions.py:178-181`) -/
noncomputable def relativeGoal (true_ : List ℝ) : List (Option ℝ) := divideCurves (goal true_) (requirement true_)

/-- `ChargeResolutionWRRPlotter.plot_poisson` (`plotting/resolutions.py:183-186`) -/
noncomputable def relativePoisson (true_ : List ℝ) : List (Option ℝ) := divideCurves ((poissonLimit true_).map some) (requirement true_)

end Verif.Model
