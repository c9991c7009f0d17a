import Verif.Model.Chain
import Verif.Py.Array
import Verif.Model.PixelMasks

/-!
# `waveform_reducers/average_wf.py`, `saturation.py`, `common.py`, `superpixel.py`, `flag_flasher.py`

The waveforms of an event are a list of pixels, each a list of samples of the same length; samples are exact rationals.
Configuration entries which are read by these reducers are truth values or integers. Standard deviations are modelled
by the variance (`np.std` is its square root).
-/

namespace Verif.Model

open Verif.Py

/-- a configuration value -/
inductive Setting
  | flag (b : Bool)
  | num (i : Int)
  deriving DecidableEq

/-- Python's `bool(v)` -/
def Setting.truthy : Setting → Bool
  | .flag b => b
  | .num i => i ≠ 0

/-- the number used in arithmetic: `True` is 1, `False` is 0 -/
def Setting.toInt : Setting → Int
  | .flag b => if b then 1 else 0
  | .num i => i

/-- a column value: one number for the event or one per pixel -/
inductive ColVal
  | scalar (x : ℚ)
  | perPixel (xs : List ℚ)
  deriving DecidableEq

/-- attributes of these reducers: the copy of the waveforms and, for `AverageWF`, the extraction time -/
structure RedState where
  waveforms : List (List ℚ)
  t : Int := 0
  deriving DecidableEq

/-- `waveforms.shape[1]` (for at least one pixel) -/
def nSamples (ws : List (List ℚ)) : Nat := match ws with | [] => 0 | r :: _ => r.length

/-- the default extraction time (`waveform_reducers/average_wf.py:20-26`, the same lines in `waveform_reducers/saturation.py:24-30` and
`waveform_reducers/timing.py:155-161`) -/
def defaultTime (ws : List (List ℚ)) : Except Err Int :=
  match argmax (colMeans (nSamples ws) ws) with
  | .error e => .error e
  | .ok t => .ok (if (t : Int) < 10 then 10 else if (t : Int) > (nSamples ws : Int) - 10 then (nSamples ws : Int) - 10 else t)

/-- `self.kwargs.get(name, default)` for a number -/
def kwNumber (kwargs : Config Setting) (name : String) (default : Int) : Int :=
  match Dict.get? kwargs name with
  | some v => v.toInt
  | none => default

/-- the entry `name` of the keyword arguments if present, otherwise the default extraction time
(`waveform_reducers/average_wf.py:17-27`, `waveform_reducers/saturation.py:21-30`) -/
def extractionTime (kwargs : Config Setting) (name : String) (ws : List (List ℚ)) : Except Err Int :=
  match Dict.get? kwargs name with
  | some v => .ok v.toInt
  | none => defaultTime ws

/-- `AverageWF` (`waveform_reducers/average_wf.py:5-47`) -/
def averageWf : ReducerClass Setting RedState (List (List ℚ)) ColVal where
  name := "AverageWF"
  columns := ["t_averagewf", "charge_averagewf"]
  init _ := .ok ⟨[], 0⟩
  prepare kwargs _ ws :=
    match extractionTime kwargs "t_extract" ws with
    | .error e => .error e
    | .ok t => .ok ⟨ws, t⟩
  value kwargs s c :=
    if c = "t_averagewf" then .ok (.scalar s.t)
    else if c = "charge_averagewf" then
      let start := s.t - kwNumber kwargs "window_shift" 3
      let stop := start + kwNumber kwargs "window_size" 6
      .ok (.perPixel (s.waveforms.map fun row => (sliceList row (some start) (some stop)).sum))
    else .error .attributeError
  post _ s := s

/-- `Saturation` (`waveform_reducers/saturation.py:5-34`) -/
def saturation : ReducerClass Setting RedState (List (List ℚ)) ColVal where
  name := "Saturation"
  columns := ["saturation_sum"]
  init _ := .ok ⟨[], 0⟩
  prepare _ _ ws := .ok ⟨ws, 0⟩
  value kwargs s c :=
    if c = "saturation_sum" then
      match extractionTime kwargs "t_event" s.waveforms with
      | .error e => .error e
      | .ok t => .ok (.perPixel (s.waveforms.map fun row => (sliceList row (some (t - kwNumber kwargs "window_shift" 4)) none).sum))
    else .error .attributeError
  post _ s := s

/-- population variance: the square of `np.std` -/
def variance (xs : List ℚ) : ℚ := mean (xs.map fun x => (x - mean xs) ^ 2)

/-- `np.max` of one row; `ValueError` if it is empty -/
def rowMax : List ℚ → Except Err ℚ
  | [] => .error .valueError
  | x :: xs => .ok (xs.foldl max x)

/-- one value per pixel, or the first exception -/
def perPixel (f : List ℚ → Except Err ℚ) : List (List ℚ) → Except Err (List ℚ)
  | [] => .ok []
  | r :: rs => match f r with
    | .error e => .error e
    | .ok x => match perPixel f rs with
      | .error e => .error e
      | .ok xs => .ok (x :: xs)

/-- `Common` (`waveform_reducers/common.py:5-56`); the `_rms` columns hold variances here -/
def common : ReducerClass Setting RedState (List (List ℚ)) ColVal where
  name := "Common"
  columns := ["baseline_start_mean", "baseline_start_rms", "baseline_end_mean", "baseline_end_rms", "waveform_mean", "waveform_rms",
    "waveform_max"]
  init _ := .ok ⟨[], 0⟩
  prepare _ _ ws := .ok ⟨ws, 0⟩
  value _ s c :=
    if c = "baseline_start_mean" then .ok (.perPixel (s.waveforms.map fun r => mean (sliceList r (some 0) (some 20))))
    else if c = "baseline_start_rms" then .ok (.perPixel (s.waveforms.map fun r => variance (sliceList r (some 0) (some 20))))
    else if c = "baseline_end_mean" then .ok (.perPixel (s.waveforms.map fun r => mean (sliceList r (some (-20)) none)))
    else if c = "baseline_end_rms" then .ok (.perPixel (s.waveforms.map fun r => variance (sliceList r (some (-20)) none)))
    else if c = "waveform_mean" then .ok (.perPixel (s.waveforms.map mean))
    else if c = "waveform_rms" then .ok (.perPixel (s.waveforms.map variance))
    else if c = "waveform_max" then
      match perPixel rowMax s.waveforms with
      | .error e => .error e
      | .ok xs => .ok (.perPixel xs)
    else .error .attributeError
  post _ s := s

/-- sum of several waveforms of `n` samples -/
def sumRows (n : Nat) (rows : List (List ℚ)) : List ℚ := (List.range n).map fun j => (column rows j).sum

/-- groups of four consecutive pixels -/
def superpixels (k : Nat) (ws : List (List ℚ)) : List (List (List ℚ)) := (List.range k).map fun i => (ws.drop (4 * i)).take 4

/-- `sp_wf` (`waveform_reducers/superpixel.py:13-17`); the reshape fails unless the sizes agree. The
waveforms are assumed to have the `n_samples` the reducer was made for. -/
def spWaveforms (nPixels n : Nat) (ws : List (List ℚ)) : Except Err (List (List ℚ)) :=
  if ws.length * n = nPixels / 4 * 4 * n then .ok ((superpixels (nPixels / 4) ws).map (sumRows n)) else .error .valueError

/-- `np.argmax` along a row as a column value -/
def rowArgmax (r : List ℚ) : Except Err ℚ :=
  match argmax r with
  | .error e => .error e
  | .ok i => .ok i

/-- `sp_argmax` and `sp_max` (`waveform_reducers/superpixel.py:19-32`): the value of each superpixel repeated 4 times -/
def spColumn (f : List ℚ → Except Err ℚ) (nPixels n : Nat) (ws : List (List ℚ)) : Except Err (List ℚ) :=
  match spWaveforms nPixels n ws with
  | .error e => .error e
  | .ok sp => match perPixel f sp with
    | .error e => .error e
    | .ok xs => .ok (repeatEach 4 xs)

/-- `np.average(peaks[64*tm:64*(tm+1)])` (`waveform_reducers/flag_flasher.py:20`); a module outside the camera gives NaN,
modelled as `none` -/
def tmAverage (peaks : List ℚ) (tm : Nat) : Option ℚ :=
  match (peaks.drop (64 * tm)).take 64 with
  | [] => none
  | xs => some (mean xs)

/-- `unit` (`waveform_reducers/flag_flasher.py:17-25`). Comparisons with NaN are false, and `np.argmax` returns the first NaN. -/
def flasherUnit (ws : List (List ℚ)) : Except Err Int :=
  match perPixel rowMax ws with
  | .error e => .error e
  | .ok peaks =>
    let units := [5, 23, 8, 26].map (tmAverage peaks)
    if units.any (fun u => match u with | some x => decide (x < 30) | none => false) then .ok (-1)
    else match units.findIdx? (· = none) with
      | some i => .ok i
      | none => match argmax (units.map fun u => u.getD 0) with
        | .error e => .error e
        | .ok i => .ok i

end Verif.Model
