import Verif.Model.Matcher
import Verif.Model.Waveform
import Verif.Model.Calib

/-!
# `calib/amplitude_matcher.py:70-86, 154-191`: amplitude matching from a raw file

The samples are exact rationals. A file without events is not covered by the theorems: numpy's averages are then NaN.
-/

namespace Verif.Model

open Verif.Py

/-- a TIO file as `TIOReader` sees it (`core/io/tio.py:49-77`): the events are samples (a row for each pixel) and first cell -/
structure TioFile where
  isR1 : Bool
  nPixels : Nat
  nEvents : Nat
  event : Int → List (List ℚ) × Int

/-- the calibrator of an `AmplitudeMatcher` (`calib/waveform.py:5-20`): conversion of the samples, and what TargetCalib makes of them, given the first cells -/
structure TioCalibrator where
  nPixels : Nat
  toFloat32 : List (List ℚ) → List (List ℚ)
  applyEvent : List (List ℚ) → List Nat → List (List ℚ)

/-- `np.max(waveforms, axis=1)`: `ValueError` for rows without samples -/
def rowPeaks : List (List ℚ) → Except Err (List ℚ)
  | [] => .ok []
  | w :: ws => match wfRowMax w with
    | none => .error .valueError
    | some m => match rowPeaks ws with
      | .error e => .error e
      | .ok ms => .ok (m :: ms)

/-- `_extract_amplitude` (`calib/amplitude_matcher.py:70-75`); `profile` is the illumination profile, if one was given (its object is always true) -/
def extractAmplitude (cal : TioCalibrator) (profile : Option (List ℚ)) (wfs : NdArray (List (List ℚ))) (fci : Int) : Except Err (List ℚ) :=
  match calibrateWaveform cal.nPixels cal.toFloat32 cal.applyEvent wfs [fci] with
  | .error e => .error e
  | .ok r1 => match rowPeaks r1.data with
    | .error e => .error e
    | .ok amplitude => match profile with
      | none => .ok amplitude
      | some c => unfoldProfile c amplitude

/-- the attributes of the waveforms of a raw file (`core/io/tio.py:83-92`); those not used here are left at their defaults -/
def tioAttrs (iev fci : Int) : WfAttrs := { defaultAttrs iev with firstCellId := some fci }

/-- the loop of `_extract_amplitude_array` (`calib/amplitude_matcher.py:82-85`): `amplitude[iev] = ...` broadcasts to the row -/
def amplitudeLoop (cal : TioCalibrator) (profile : Option (List ℚ)) (nPixels : Nat) : List (TioEvent (List (List ℚ) × Int)) → List (List ℚ) → Except Err (List (List ℚ))
  | [], array => .ok array
  | e :: es, array => match extractAmplitude cal profile (newWaveform (.plain e.raw.1) (tioAttrs e.iev e.raw.2)) e.raw.2 with
    | .error err => .error err
    | .ok amplitude => match normIndex array.length e.iev with
      | .error err => .error err
      | .ok i => match broadcastTo nPixels amplitude with
        | .error err => .error err
        | .ok row => amplitudeLoop cal profile nPixels es (array.set i row)

/-- `_extract_amplitude_array` (`calib/amplitude_matcher.py:77-86`): `ReaderR0` refuses R1 files (`core/io/tio.py:185-188`); at most 100 events -/
def extractAmplitudeArray (cal : TioCalibrator) (profile : Option (List ℚ)) (file : TioFile) : Except Err (List (List ℚ)) :=
  if file.isR1 then .error .ioError
  else
    let reader := tioReader file.nEvents (some 100) file.event
    amplitudeLoop cal profile file.nPixels reader.iter (List.replicate reader.nEvents.toNat (List.replicate file.nPixels 0))

/-- `process` (`calib/amplitude_matcher.py:154-191`): the state of the matcher after the call, and its result -/
def processFile (m : Matcher) (cal : TioCalibrator) (profile : Option (List ℚ)) (file : TioFile) : Matcher × Except Err (List Int × Bool) :=
  match extractAmplitudeArray cal profile file with
  | .error e => (m, .error e)
  | .ok amplitude => process m file.nPixels amplitude

end Verif.Model
