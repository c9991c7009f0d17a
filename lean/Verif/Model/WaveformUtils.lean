import Verif.Py.Array

/-!
# `utils/waveform.py`: baseline subtraction, shifting and averaging of waveforms

Waveforms are lists of rows (pixels) of exact rationals.
-/

namespace Verif.Model

open Verif.Py

/-- One event of a source: its id and its samples, one row per pixel. -/
structure WfEvent where
  iev : Nat
  rows : List (List ℚ)

/-- State of a `BaselineSubtractor` (`utils/waveform.py:14-26`); `buffer` is `baseline_waveforms`. -/
structure Baseline where
  nBase : Nat
  nBaseSamples : Nat
  nPixels : Nat
  iev : Nat
  buffer : List (List (List ℚ))
  baseline : List ℚ

/-- `np.mean(self.baseline_waveforms, axis=(0, 2))` (`utils/waveform.py:26, 31`): for each pixel the mean over all entries
and samples of the buffer of shape `(n_base, n_pixels, n_base_samples)`. -/
def bufferMean (nBase nBaseSamples nPixels : Nat) (buffer : List (List (List ℚ))) : List ℚ :=
  (List.range nPixels).map fun p =>
    (buffer.map fun entry => (entry.getD p []).sum).sum / ((nBase * nBaseSamples : Nat) : ℚ)

/-- `self.baseline_waveforms[entry] = waveforms[:, :n_base_samples]` (`utils/waveform.py:25, 30`) for an existing entry:
the right-hand side has to have `n_pixels` rows and `n_base_samples` columns, or one of them (broadcasting). -/
def cutRows (nPixels nBaseSamples : Nat) (rows : List (List ℚ)) : Except Err (List (List ℚ)) :=
  match rows.mapM fun r => broadcastTo nBaseSamples (sliceList r none (some nBaseSamples)) with
  | .error e => .error e
  | .ok rows => broadcastTo nPixels rows

/-- the loop of `__init__` (`utils/waveform.py:21-25`) -/
def fillBuffer (nBase nPixels nBaseSamples : Nat) : List (List (List ℚ)) → List WfEvent →
    Except Err (List (List (List ℚ)))
  | buf, [] => .ok buf
  | buf, e :: es =>
    if e.iev ≥ nBase then .ok buf
    else match cutRows nPixels nBaseSamples e.rows with
      | .error err => .error err
      | .ok rows => fillBuffer nBase nPixels nBaseSamples (buf.set e.iev rows) es

/-- `BaselineSubtractor.__init__` (`utils/waveform.py:14-26`) on the events of a source. -/
def Baseline.init (nPixels : Nat) (source : List WfEvent) (nBase nBaseSamples : Nat) : Except Err Baseline :=
  match fillBuffer nBase nPixels nBaseSamples
      (List.replicate nBase (List.replicate nPixels (List.replicate nBaseSamples 0))) source with
  | .error e => .error e
  | .ok buf => .ok {
      nBase := nBase, nBaseSamples := nBaseSamples, nPixels := nPixels, iev := 0, buffer := buf,
      baseline := bufferMean nBase nBaseSamples nPixels buf }

/-- `update_baseline` (`utils/waveform.py:28-32`) -/
def Baseline.update (b : Baseline) (rows : List (List ℚ)) : Except Err Baseline :=
  if b.nBase = 0 then .error .zeroDivision
  else match cutRows b.nPixels b.nBaseSamples rows with
    | .error e => .error e
    | .ok cut =>
      let buf := b.buffer.set (b.iev % b.nBase) cut
      .ok { b with buffer := buf, baseline := bufferMean b.nBase b.nBaseSamples b.nPixels buf, iev := b.iev + 1 }

/-- `waveforms - self.baseline[:, None]` (`utils/waveform.py:36`) for as many rows as there are baselines (a single row is repeated by numpy, not here) -/
def subtractRows (rows : List (List ℚ)) (baseline : List ℚ) : List (List ℚ) :=
  List.zipWith (fun r b => r.map fun x => x - b) rows baseline

/-- `subtract` (`utils/waveform.py:34-36`) -/
def Baseline.subtract (b : Baseline) (rows : List (List ℚ)) : Except Err (Baseline × List (List ℚ)) :=
  match b.update rows with
  | .error e => .error e
  | .ok b' => .ok (b', subtractRows rows b'.baseline)

/-- a sequence of calls of `subtract` -/
def Baseline.subtractAll (b : Baseline) : List (List (List ℚ)) → Except Err (Baseline × List (List (List ℚ)))
  | [] => .ok (b, [])
  | w :: ws => match b.subtract w with
    | .error e => .error e
    | .ok (b', r) => match b'.subtractAll ws with
      | .error e => .error e
      | .ok (b'', rs) => .ok (b'', r :: rs)

/-! ## shifting -/

variable {α : Type}

/-- `shift_array` on one row (`utils/waveform.py:39-49`); `result` is the uninitialised row of `np.empty_like`. -/
def shiftRow (result arr : List α) (num : Int) (fill : α) : Except Err (List α) :=
  if num > 0 then
    assignSlice (fillSlice result none (some num) fill) (some num) none (sliceList arr none (some (-num)))
  else if num < 0 then
    assignSlice (fillSlice result (some num) none fill) none (some num) (sliceList arr (some (-num)) none)
  else .ok arr

/-- `shift_array` (`utils/waveform.py:39-49`); `junk` is the content of the uninitialised array. -/
def shiftArray (junk : Nat → Nat → α) (arr : List (List α)) (num : Int) (fill : α) : Except Err (List (List α)) :=
  arr.zipIdx.mapM fun ri => shiftRow (ri.1.mapIdx fun j _ => junk ri.2 j) ri.1 num fill

/-- `shift_waveform` (`utils/waveform.py:52-71`) for waveforms of `n` samples -/
def shiftWaveform (junk : Nat → Nat → ℚ) (n : Nat) (rows : List (List ℚ)) (tShift : Int) (fill : ℚ) :
    Except Err (List (List ℚ)) :=
  match argmax (colMeans n rows) with
  | .error e => .error e
  | .ok t => shiftArray junk rows (tShift - t) fill

/-- element-wise sum of two arrays of the same length -/
def addRow (a b : List ℚ) : List ℚ := List.zipWith (· + ·) a b

/-- the loop of `get_average_wf` (`utils/waveform.py:96-105`): running sum and number of events -/
def averageLoop (junk : Nat → Nat → ℚ) (n : Nat) (tShift : Int) : Baseline → List ℚ → Nat → List WfEvent →
    Except Err (List ℚ × Nat)
  | _, acc, k, [] => .ok (acc, k)
  | b, acc, k, e :: es =>
    match b.subtract e.rows with
    | .error err => .error err
    | .ok (b', wf) => match shiftWaveform junk n wf tShift 0 with
      | .error err => .error err
      | .ok wf => averageLoop junk n tShift b' (addRow acc (colMeans n wf)) (k + 1) es

/-- `get_average_wf` (`utils/waveform.py:74-108`); the division by the number of events is `0/0` for an empty source
(NaN in numpy, 0 here). -/
def getAverageWf (junk : Nat → Nat → ℚ) (nPixels n : Nat) (source : List WfEvent) (tShift : Int) :
    Except Err (List ℚ) :=
  match Baseline.init nPixels source 50 16 with
  | .error e => .error e
  | .ok b => match averageLoop junk n tShift b (List.replicate n 0) 0 source with
    | .error e => .error e
    | .ok (acc, k) => .ok (acc.map fun x => x / (k : ℚ))

/-- the loop of `get_average_wf_per_pixel` (`utils/waveform.py:134-143`) -/
def averagePixelLoop (junk : Nat → Nat → ℚ) (n : Nat) (tShift : Int) : Baseline → List (List ℚ) → Nat → List WfEvent →
    Except Err (List (List ℚ) × Nat)
  | _, acc, k, [] => .ok (acc, k)
  | b, acc, k, e :: es =>
    match b.subtract e.rows with
    | .error err => .error err
    | .ok (b', wf) => match shiftWaveform junk n wf tShift 0 with
      | .error err => .error err
      | .ok wf => averagePixelLoop junk n tShift b' (List.zipWith addRow acc wf) (k + 1) es

/-- `get_average_wf_per_pixel` (`utils/waveform.py:111-146`) -/
def getAverageWfPerPixel (junk : Nat → Nat → ℚ) (nPixels n : Nat) (source : List WfEvent) (tShift : Int) :
    Except Err (List (List ℚ)) :=
  match Baseline.init nPixels source 50 16 with
  | .error e => .error e
  | .ok b => match averagePixelLoop junk n tShift b (List.replicate nPixels (List.replicate n 0)) 0 source with
    | .error e => .error e
    | .ok (acc, k) => .ok (acc.map fun r => r.map fun x => x / (k : ℚ))

end Verif.Model
