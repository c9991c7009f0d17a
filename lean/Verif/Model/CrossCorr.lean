import Verif.Model.Reducers

/-!
# `waveform_reducers/cross_correlation.py` and `waveform_reducers/sliding_window.py`

`scipy.ndimage.correlate1d` and `ctapipe`'s `sum_samples_around_peak` are external; the definitions `correlate1d` and `sumAround` are what is
trusted about them. The pulse times of the sliding windows come from `ctapipe` alone; see `Model/SlidingTimes`. The cubic interpolation of the reference pulse is external too: the
interpolated samples are an input here. `numba`'s unchecked array access is modelled by an explicit value for the memory after the row.
-/

namespace Verif.Model

open Verif.Py

/-- sample `i` of a row extended by zeros on both sides (`mode='constant'`) -/
def padded (row : List ℚ) (i : Int) : ℚ := if 0 ≤ i then row.getD i.toNat 0 else 0

/-- one output sample of `correlate1d` -/
def correlateAt (row weights : List ℚ) (origin : Int) (i : Nat) : ℚ :=
  ((List.range weights.length).map fun k => weights.getD k 0 * padded row ((i : Int) + k - (weights.length / 2 : Nat) - origin)).sum

/-- external: `scipy.ndimage.correlate1d(row, weights, mode='constant', origin=origin)` along the samples of one row -/
def correlate1d (row weights : List ℚ) (origin : Int) : Except Err (List ℚ) :=
  if weights.length = 0 then .error .runtimeError
  else if ((weights.length / 2 : Nat) : Int) + origin < 0 ∨ (weights.length : Int) ≤ ((weights.length / 2 : Nat) : Int) + origin then .error .valueError
  else .ok ((List.range row.length).map (correlateAt row weights origin))

/-- the same for every row of a two-dimensional array -/
def correlateRows (weights : List ℚ) (origin : Int) : List (List ℚ) → Except Err (List (List ℚ))
  | [] => .ok []
  | r :: rs => match correlate1d r weights origin with
    | .error e => .error e
    | .ok c => match correlateRows weights origin rs with
      | .error e => .error e
      | .ok cs => .ok (c :: cs)

/-- `np.trapz` with unit spacing -/
def trapz : List ℚ → ℚ
  | x :: y :: rest => (x + y) / 2 + trapz (y :: rest)
  | _ => 0

/-- `extract_pulse_time` (`waveform_reducers/cross_correlation.py:9-34`) for one row. `beyond` is what is read after the end of the row (`none`
for NaN and infinities, for which the comparison in line 31 fails). Index `-1` is the last sample. -/
def extractPulseTime (beyond : Option ℚ) (row : List ℚ) (p : Nat) : ℚ :=
  let n := row.length
  let y0 := if p = 0 then row.getD (n - 1) 0 else row.getD (p - 1) 0
  let y1 := row.getD p 0
  match (if p + 1 < n then some (row.getD (p + 1) 0) else beyond) with
  | none => p
  | some y2 =>
    let a := y0 - y2
    let b := y0 - 2 * y1 + y2
    if b = 0 then p
    else
      let tPulse := (1 / 2) * a / b + p
      if 0 ≤ tPulse ∧ tPulse < n then tPulse else p

/-- `extract_pulse_time` on an array of rows that lie behind each other in memory: the value after a row is the first sample of the next row,
and `after` follows the last row -/
def pulseTimes (after : Option ℚ) : List (List ℚ) → List Nat → List ℚ
  | r :: rs, p :: ps => extractPulseTime (match rs with | [] => after | next :: _ => next.head?) r p :: pulseTimes after rs ps
  | _, _ => []

/-- what the constructor of the cross-correlation reducers stores -/
structure CcReducer where
  reference : List ℚ
  y1pe : List ℚ
  origin : Int
  deriving DecidableEq

/-- `_load_reference_pulse` (`waveform_reducers/cross_correlation.py:68-87`) after the interpolation: `y` are the interpolated samples. A pulse
of area zero, which numpy turns into NaN, is divided by zero as `ℚ` does. -/
def loadReference (y : List ℚ) : Except Err (List ℚ × List ℚ) :=
  let y1pe := y.map (· / trapz y)
  match argmax y with
  | .error e => .error e
  | .ok am => match correlate1d y1pe y ((am : Int) - (y.length / 2 : Nat)) with
    | .error e => .error e
    | .ok cc => match rowMax cc with
      | .error e => .error e
      | .ok m => .ok (y.map (· / m), y1pe)

/-- `CrossCorrelation.__init__` (`waveform_reducers/cross_correlation.py:48-65`); `y` are the samples interpolated from the file `path` -/
def newCrossCorr (path : String) (y : List ℚ) : Except Err CcReducer :=
  if path = "" then .error .valueError
  else match loadReference y with
    | .error e => .error e
    | .ok (reference, y1pe) => match argmax reference with
      | .error e => .error e
      | .ok am => .ok ⟨reference, y1pe, (am : Int) - (reference.length / 2 : Nat)⟩

/-- `get_pulse_height` (`waveform_reducers/cross_correlation.py:89-90`) -/
def pulseHeight (r : CcReducer) (charge : ℚ) : Except Err ℚ :=
  match rowMax r.y1pe with
  | .error e => .error e
  | .ok m => .ok (charge * m)

/-- attributes after `_prepare`: cross correlation, extraction sample of every pixel, charge -/
structure CcState where
  cc : List (List ℚ)
  peaks : List Nat
  charge : List ℚ
  deriving DecidableEq

/-- first maximum of every row (`argmax(1)`) -/
def argmaxRows : List (List ℚ) → Except Err (List Nat)
  | [] => .ok []
  | r :: rs => match argmax r with
    | .error e => .error e
    | .ok p => match argmaxRows rs with
      | .error e => .error e
      | .ok ps => .ok (p :: ps)

/-- `_cc[pixel, peak]` for every pixel -/
def takePeaks (cc : List (List ℚ)) (peaks : List Nat) : List ℚ := List.zipWith (fun (r : List ℚ) p => r.getD p 0) cc peaks

/-- `CrossCorrelation._prepare` (`waveform_reducers/cross_correlation.py:92-99`) -/
def ccPrepare (r : CcReducer) (ws : List (List ℚ)) : Except Err CcState :=
  match correlateRows r.reference r.origin ws with
  | .error e => .error e
  | .ok cc => match argmax (colMeans (nSamples cc) cc) with
    | .error e => .error e
    | .ok p => .ok ⟨cc, cc.map fun _ => p, takePeaks cc (cc.map fun _ => p)⟩

/-- `CrossCorrelationLocal._prepare` (`waveform_reducers/cross_correlation.py:132-140`), made for as many pixels as the event has -/
def ccLocalPrepare (r : CcReducer) (ws : List (List ℚ)) : Except Err CcState :=
  match correlateRows r.reference r.origin ws with
  | .error e => .error e
  | .ok cc => match argmaxRows cc with
    | .error e => .error e
    | .ok ps => .ok ⟨cc, ps, takePeaks cc ps⟩

/-- `CrossCorrelationNeighbour.__init__` (`waveform_reducers/cross_correlation.py:169-187`): the mapping is looked at after the pulse is loaded -/
def newCrossCorrNeighbour (path : String) (y : List ℚ) (mappingGiven : Bool) : Except Err CcReducer :=
  match newCrossCorr path y with
  | .error e => .error e
  | .ok r => if mappingGiven then .ok r else .error .valueError

/-- `CrossCorrelationNeighbour._prepare` (`waveform_reducers/cross_correlation.py:189-197`); `avg` is `ctapipe`'s
`neighbor_average_waveform` -/
def ccNeighbourPrepare (avg : List (List ℚ) → List (List ℚ)) (r : CcReducer) (ws : List (List ℚ)) : Except Err CcState :=
  match correlateRows r.reference r.origin ws with
  | .error e => .error e
  | .ok cc => match argmaxRows (avg cc) with
    | .error e => .error e
    | .ok ps => .ok ⟨cc, ps, takePeaks cc ps⟩

/-- `charge_cc`, `charge_cc_local` and `charge_cc_nn` (`waveform_reducers/cross_correlation.py:108-113`, `149-154`, `207-212`) -/
def chargeCc (s : CcState) : List ℚ := s.charge

/-- `height_cc`, `height_cc_local` and `height_cc_nn` (`waveform_reducers/cross_correlation.py:115-121`, `156-162`, `214-220`) -/
def heightCc (r : CcReducer) (s : CcState) : Except Err (List ℚ) :=
  match rowMax r.y1pe with
  | .error e => .error e
  | .ok m => .ok (s.charge.map (· * m))

/-- `t_cc`, `t_cc_local` and `t_cc_nn` (`waveform_reducers/cross_correlation.py:101-106`, `142-147`, `199-205`) -/
def timeCc (after : Option ℚ) (s : CcState) : List ℚ := pulseTimes after s.cc s.peaks

/-! ## Sliding window -/

/-- external: `ctapipe`'s `sum_samples_around_peak(row, peak, width, 0)`: the samples of the window that exist -/
def sumAround (row : List ℚ) (peak width : Nat) : ℚ := ((row.drop peak).take width).sum

/-- `self.window` and `self.origin` (`waveform_reducers/sliding_window.py:13-17`) -/
def slidingWindow (size : Nat) : List ℚ × Int := (List.replicate size 1, -((size / 2 : Nat) : Int))

/-- `SlidingWindow._prepare` (`waveform_reducers/sliding_window.py:31-36`): the start of the common window -/
def slidingPrepare (size : Nat) (ws : List (List ℚ)) : Except Err Nat :=
  match correlate1d (colMeans (nSamples ws) ws) (slidingWindow size).1 (slidingWindow size).2 with
  | .error e => .error e
  | .ok c => argmax c

/-- `charge_sliding` (`waveform_reducers/sliding_window.py:48-55`) -/
def chargeSliding (size : Nat) (ws : List (List ℚ)) : Except Err (List ℚ) :=
  match slidingPrepare size ws with
  | .error e => .error e
  | .ok p => .ok (ws.map fun r => sumAround r p size)

/-- `charge_sliding_local` (`waveform_reducers/sliding_window.py:63-67`, `79-84`) -/
def chargeSlidingLocal (size : Nat) (ws : List (List ℚ)) : Except Err (List ℚ) :=
  match correlateRows (slidingWindow size).1 (slidingWindow size).2 ws with
  | .error e => .error e
  | .ok c => perPixel rowMax c

/-- `charge_sliding_nn` (`waveform_reducers/sliding_window.py:110-115`, `127-134`); `avg` is `ctapipe`'s `neighbor_average_waveform` -/
def chargeSlidingNn (avg : List (List ℚ) → List (List ℚ)) (size : Nat) (ws : List (List ℚ)) : Except Err (List ℚ) :=
  match correlateRows (slidingWindow size).1 (slidingWindow size).2 (avg ws) with
  | .error e => .error e
  | .ok c => match argmaxRows c with
    | .error e => .error e
    | .ok ps => .ok (List.zipWith (fun r p => sumAround r p size) ws ps)

end Verif.Model
