import Verif.Py.Basic
import Mathlib.Data.Rat.Defs

/-!
# Curves, labels and legends of the plotters: `plotting/setup.py:104-126` and the `finish` methods

The axes of one plotter as a state: what they carry is a `Face`. Colours, markers and ticks are not part of it, apart from the step of the main
ticks. Numbers are exact. What a user sees are the pictures: the files saved and the windows shown.
-/

namespace Verif.Model

open Verif.Py

/-- the plotters by what their `finish` does -/
inductive Finisher where
  /-- `Plotter` (`plotting/setup.py:111-112`): nothing -/
  | plain
  /-- `WaveformPlotter` (`plotting/waveform.py:41-51`) with its title and units -/
  | waveform (title units tunits : String)
  /-- `ChargeResolutionPlotter` (`plotting/resolutions.py:63-71`) -/
  | resolution
  /-- `ChargeResolutionWRRPlotter` (`plotting/resolutions.py:188-193`) -/
  | relative
  /-- `ChargeMeanPlotter` (`plotting/resolutions.py:242-250`) -/
  | mean
  /-- `SpectrumFitPlotter` (`plotting/spe.py:35-38`) -/
  | spectrum
deriving DecidableEq

/-- what the axes carry; a legend has the entries it was made with; `guides` counts the grey lines at 1 -/
structure Face where
  title : String
  xlabel : String
  ylabel : String
  xlog : Bool
  ylog : Bool
  legend : Option (List String)
  guides : Nat
  step : Option Nat
  curves : List (String × List (ℚ × ℚ))
deriving DecidableEq

/-- new axes -/
def Face.new : Face := ⟨"", "", "", false, false, none, 0, none, []⟩

/-- the labels matplotlib puts into a legend: not the empty ones, not those that begin with an underscore -/
def legendLabels (curves : List (String × List (ℚ × ℚ))) : List String :=
  (curves.map Prod.fst).filter fun l => l ≠ "" && l.toList.head? ≠ some '_'

/-- `ax.legend(...)` (`plotting/setup.py:104-105`, `plotting/spe.py:36`) -/
def Face.addLegend (f : Face) : Face := { f with legend := some (legendLabels f.curves) }

/-- `"Time"` or `"Amplitude"` with the units, if there are any (`plotting/waveform.py:43-50`) -/
def withUnits (base units : String) : String := if units ≠ "" then base ++ (" (" ++ units ++ ")") else base

/-- `finish`. The range of the grey line (`np.linspace(None, None, 1000)`) is not set before a curve was drawn: `TypeError`. -/
def finishFace (k : Finisher) (f : Face) : Except Err Face :=
  match k with
  | .plain => .ok f
  | .waveform title units tunits =>
    .ok { f with title := title, xlabel := withUnits "Time" tunits, ylabel := withUnits "Amplitude" units, step := some 16 }
  | .resolution => .ok { f with xlabel := "True Charge (p.e.)", ylabel := "Charge Resolution / True", xlog := true, ylog := true }
  | .relative => .ok { f with xlabel := "True Charge (p.e.)", ylabel := "(Charge Resolution / True) / Requirement", xlog := true }
  | .mean =>
    if f.curves = [] then .error .typeError
    else .ok { f with guides := f.guides + 1, xlabel := "True Charge (p.e.)", ylabel := "Charge Average / True", xlog := true }
  | .spectrum => .ok { f.addLegend with xlabel := "Charge (mV ns)", ylabel := "N" }

/-- `ax.plot(data)` and `ax.plot(x, data)` (`plotting/waveform.py:35-39`): without `x` the numbers of the samples; other lengths raise `ValueError` -/
def addCurve (f : Face) (label : String) (x : Option (List ℚ)) (data : List ℚ) : Except Err Face :=
  match x with
  | none => .ok { f with curves := f.curves ++ [(label, (data.zipIdx.map fun p => ((p.2 : ℚ), p.1)))] }
  | some xs => if xs.length ≠ data.length then .error .valueError else .ok { f with curves := f.curves ++ [(label, xs.zip data)] }

/-- what is done with a plotter; the first three of `set` are calls of the user on its axes -/
inductive FaceOp where
  | curve (label : String) (x : Option (List ℚ)) (data : List ℚ)
  | setTitle (t : String)
  | setXlabel (t : String)
  | setYlabel (t : String)
  | addLegend
  | finish
  | save
  | showWindow

/-- the axes, whether the figure is open, and the pictures seen so far -/
structure FaceState where
  face : Face
  opened : Bool
  pictures : List Face

/-- one call. `save` (`plotting/setup.py:114-120`) finishes, writes and closes the figure, which can be drawn on and saved further; `show`
(`plotting/setup.py:122-123`) shows what is open, and does not finish. The file system is not part of this model. -/
def faceStep (k : Finisher) (s : FaceState) : FaceOp → Except Err FaceState
  | .curve label x data => match addCurve s.face label x data with
    | .error e => .error e
    | .ok f => .ok { s with face := f }
  | .setTitle t => .ok { s with face := { s.face with title := t } }
  | .setXlabel t => .ok { s with face := { s.face with xlabel := t } }
  | .setYlabel t => .ok { s with face := { s.face with ylabel := t } }
  | .addLegend => .ok { s with face := s.face.addLegend }
  | .finish => match finishFace k s.face with
    | .error e => .error e
    | .ok f => .ok { s with face := f }
  | .save => match finishFace k s.face with
    | .error e => .error e
    | .ok f => .ok { face := f, opened := false, pictures := s.pictures ++ [f] }
  | .showWindow => .ok (if s.opened then { s with pictures := s.pictures ++ [s.face] } else s)

/-- several calls; the first exception ends the program -/
def faceRun (k : Finisher) : FaceState → List FaceOp → Except Err FaceState
  | s, [] => .ok s
  | s, op :: ops => match faceStep k s op with
    | .error e => .error e
    | .ok s => faceRun k s ops

/-- a plotter with axes of its own -/
def FaceState.init : FaceState := ⟨.new, true, []⟩

end Verif.Model
