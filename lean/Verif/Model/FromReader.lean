import Verif.Model.Waveform
import Verif.Model.WaveformReader

/-!
# `calib/waveform.py:4-27`: calibrators made from a reader

TargetCalib is external: the object made from a pedestal file, or from a pedestal path and serial numbers, is the function `targetCalib` of these arguments, which says what `ApplyEvent`
writes into the calibrated samples. Its constructors succeed here. Samples are of any type.
-/

namespace Verif.Model

open Verif.Py

/-- what TargetCalib's calibrator is made of: `Calibrator(path)`, or `CalibratorMultiFile(path, sn_list)` (`calib/waveform.py:6-11`) -/
inductive CalibSource
  | single (path : String)
  | perModule (path : String) (sns : List Int)
  deriving DecidableEq, Repr

/-- a `WaveformCalibrator` -/
structure WfCalibrator where
  source : CalibSource
  nPixels : Nat
  nSamples : Nat
  deriving DecidableEq, Repr

/-- `WaveformCalibrator.__init__` (`calib/waveform.py:5-13`) -/
def newWfCalibrator (path : String) (nPixels nSamples : Nat) (sns : Option (List Int)) : WfCalibrator :=
  match sns with
  | none => ⟨.single path, nPixels, nSamples⟩
  | some l => ⟨.perModule path l, nPixels, nSamples⟩

/-- an event as TargetIO returns it (`core/io/tio.py:80-82`) -/
structure TioRawEvent (δ : Type) where
  samples : δ
  firstCell : Int
  stale : Bool
  missingPackets : Bool
  tTack : Int
  cpuS : Nat
  cpuNs : Nat

/-- a TIO file as `TIOReader` sees it (`core/io/tio.py:53-64`), with TargetIO's access to serial numbers and events -/
structure TioSource (δ : Type) where
  isR1 : Bool
  nEvents : Nat
  nPixels : Nat
  nModules : Nat
  nSamples : Nat
  getSN : Int → Int
  event : Int → TioRawEvent δ

variable {δ : Type}

/-- `WaveformCalibrator.from_tio_reader` (`calib/waveform.py:22-27`) with `TIOReader.get_sn` (`core/io/tio.py:128-144`) -/
def calibratorFromReader (path : String) (f : TioSource δ) : Except Err WfCalibrator := do
  let sns ← (List.range f.nModules).mapM fun tm : Nat => tioModuleValue f.nModules f.getSN tm
  return newWfCalibrator path f.nPixels f.nSamples (some sns)

/-- the waveforms of an event (`core/io/tio.py:79-93`) -/
def sourceWaveform (f : TioSource δ) (e : TioEvent (TioRawEvent δ)) : NdArray δ :=
  newWaveform (.plain e.raw.samples)
    ⟨some e.iev, some f.isR1, some e.raw.firstCell, some e.raw.stale, some e.raw.missingPackets, some e.raw.tTack, .pair e.raw.cpuS e.raw.cpuNs, none⟩

/-- a loop that calibrates each event with its first cell, as `calib/amplitude_matcher.py:71` does: `[c(wf, wf.first_cell_id) for wf in reader]` -/
def calibrateEvents (targetCalib : CalibSource → δ → List Nat → δ) (toFloat32 : δ → δ) (c : WfCalibrator) (f : TioSource δ) :
    List (TioEvent (TioRawEvent δ)) → Except Err (List (NdArray δ))
  | [] => .ok []
  | e :: es => match calibrateWaveform c.nPixels toFloat32 (targetCalib c.source) (sourceWaveform f e) [e.raw.firstCell] with
    | .error err => .error err
    | .ok out => match calibrateEvents targetCalib toFloat32 c f es with
      | .error err => .error err
      | .ok outs => .ok (out :: outs)

/-- a whole file, read with the limit `max_events` -/
def calibrateFile (targetCalib : CalibSource → δ → List Nat → δ) (toFloat32 : δ → δ) (path : String) (f : TioSource δ) (maxEvents : Option Int) : Except Err (List (NdArray δ)) :=
  match calibratorFromReader path f with
  | .error e => .error e
  | .ok c => calibrateEvents targetCalib toFloat32 c f (tioReader f.nEvents maxEvents f.event).iter

end Verif.Model
