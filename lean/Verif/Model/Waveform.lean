import Verif.Model.Detect
import Verif.Model.WaveformReader
import Verif.Py.Array

/-!
# Waveform objects (`core/io/waveform.py:8-42`), waveform calibration (`calib/waveform.py`), dead pixels (`utils/waveform.py:149-180`), slow control of
`core/io/tio.py:128-188` and event information of `core/io/simtel.py:84-186`
-/

namespace Verif.Model

open Verif.Py

/-! ## waveform objects -/

/-- the attribute `_t_cpu_container`: `None`, a number (the default 0), or the pair from TargetIO -/
inductive CpuTime
  | none
  | number (n : Nat)
  | pair (s ns : Nat)
  deriving DecidableEq, Repr

/-- the attributes of a `Waveform` (`core/io/waveform.py:13-20`); `none` is `None` -/
structure WfAttrs where
  iev : Option Int
  isR1 : Option Bool
  firstCellId : Option Int
  stale : Option Bool
  missingPackets : Option Bool
  tTack : Option Int
  cpuTime : CpuTime
  mcTrue : Option (List Int)
  deriving DecidableEq, Repr

/-- an array object: a plain `ndarray`, or a `Waveform` with its attributes and the further attributes set on the instance. The data are of any type. -/
inductive NdArray (δ : Type)
  | plain (data : δ)
  | wf (data : δ) (attrs : WfAttrs) (extra : Dict String Bool)
  deriving DecidableEq

variable {δ : Type}

def NdArray.data : NdArray δ → δ
  | .plain d => d
  | .wf d _ _ => d

/-- `__array_finalize__` (`core/io/waveform.py:23-33`): `getattr(obj, name, None)` for every attribute. Every `Waveform` has all of them. -/
def finalize : NdArray δ → WfAttrs
  | .wf _ a _ => a
  | .plain _ => ⟨none, none, none, none, none, none, .none, none⟩

/-- `Waveform.__new__` (`core/io/waveform.py:9-21`) -/
def newWaveform (input : NdArray δ) (a : WfAttrs) : NdArray δ := .wf input.data a []

/-- the attributes of `Waveform(array, iev)` with the default arguments (`core/io/waveform.py:9-11`) -/
def defaultAttrs (iev : Int) : WfAttrs := ⟨some iev, some false, some 0, some false, some false, some 0, .number 0, none⟩

/-- numpy: result of an operation with one array (slice, ufunc, `astype`, `copy`, reduction to an array): the class of the operand, then
`__array_finalize__` -/
def ndUnary (f : δ → δ) (a : NdArray δ) : NdArray δ := match a with
  | .plain d => .plain (f d)
  | .wf d _ _ => .wf (f d) (finalize a) []

/-- numpy: result of an operation with two arrays: a `Waveform` if one of them is, finalised with the first that is -/
def ndBinary (f : δ → δ → δ) (a b : NdArray δ) : NdArray δ := match a, b with
  | .plain x, .plain y => .plain (f x y)
  | .plain x, .wf y _ _ => .wf (f x y) (finalize b) []
  | .wf x _ _, b => .wf (f x b.data) (finalize a) []

/-- numpy: `np.asarray(a)`, `np.array([a, ...])`: always a plain array -/
def ndAsArray (a : NdArray δ) : NdArray δ := .plain a.data

/-- numpy: `a.view(Waveform)` -/
def ndView (a : NdArray δ) : NdArray δ := .wf a.data (finalize a) []

/-- `waveform.iev` and the like: `AttributeError` for a plain array -/
def NdArray.attrs : NdArray δ → Except Err WfAttrs
  | .plain _ => .error .attributeError
  | .wf _ a _ => .ok a

/-- `Waveform.t_cpu` (`core/io/waveform.py:35-41`), in ns: anything but a pair cannot be unpacked -/
def NdArray.tCpu (a : NdArray δ) : Except Err Int :=
  match a.attrs with
  | .error e => .error e
  | .ok at' => match at'.cpuTime with
    | .pair s ns => .ok (Verif.Model.tCpu s ns)
    | _ => .error .typeError

/-! ## calibration -/

/-- `np.full(n_pixels, fci, dtype=np.uint16)` (`calib/waveform.py:16`): `fci` a number or an array, as the list of its elements; values are stored
modulo 65536 -/
def fullUint16 (nPixels : Nat) (fci : List Int) : Except Err (List Nat) :=
  if fci.length = nPixels then .ok (fci.map fun x => (x % 65536).toNat)
  else match fci with
    | [x] => .ok (List.replicate nPixels (x % 65536).toNat)
    | _ => .error .valueError

/-- `obj.r1 = True`: a plain `ndarray` has no instance dictionary -/
def setR1 : NdArray δ → Except Err (NdArray δ)
  | .plain _ => .error .attributeError
  | .wf d a extra => .ok (.wf d a (Dict.set extra "r1" true))

/-- `WaveformCalibrator.__call__` (`calib/waveform.py:15-20`). `toFloat32` is the conversion of the samples, `applyEvent` what TargetCalib writes into the
array of calibrated samples, given the raw samples and the first cells. -/
def calibrateWaveform (nPixels : Nat) (toFloat32 : δ → δ) (applyEvent : δ → List Nat → δ) (waveforms : NdArray δ) (fci : List Int) : Except Err (NdArray δ) :=
  match fullUint16 nPixels fci with
  | .error e => .error e
  | .ok cells =>
    let calibrated := ndUnary toFloat32 waveforms
    let filled := match calibrated with
      | .plain _ => NdArray.plain (applyEvent waveforms.data cells)
      | .wf _ a x => .wf (applyEvent waveforms.data cells) a x
    setR1 filled

/-! ## dead pixels -/

/-- largest element of a non-empty row -/
def wfRowMax : List ℚ → Option ℚ
  | [] => none
  | x :: xs => some (xs.foldl max x)

/-- the loop of `obtain_dead_pixel_list_r1` (`utils/waveform.py:170-174`). `index k` is the attribute `source.index` after event `k` was handed out, if the
source has one. -/
def deadLoop (n : Nat) (index : Option (Nat → Int)) : Nat → List (List (List ℚ)) → List (List (List ℚ)) → Except Err (List (List (List ℚ)))
  | _, array, [] => .ok array
  | k, array, wf :: wfs => match index with
    | none => .error .attributeError
    | some idx =>
      if idx k ≥ n then .ok array
      else if idx k < -n then .error .indexError
      else deadLoop n index (k + 1) (array.set (if idx k < 0 then idx k + n else idx k).toNat wf) wfs

/-- `obtain_dead_pixel_list_r1(source, threshold_percent, max_events)` (`utils/waveform.py:166-180`) for events of `nPixels` rows of `nSamples > 0` samples
and `max_events ≥ 0`. The mean over no events is NaN, and no comparison with NaN is true. -/
def deadPixels (nPixels nSamples : Nat) (events : List (List (List ℚ))) (index : Option (Nat → Int)) (threshold : ℚ) (maxEvents : Nat) : Except Err (List Nat) :=
  let n := if events.length < maxEvents then events.length else maxEvents
  match deadLoop n index 0 (List.replicate n (List.replicate nPixels (List.replicate nSamples 0))) events with
  | .error e => .error e
  | .ok array =>
    if n = 0 then .ok []
    else
      let peak := (List.range nPixels).map fun p =>
        (wfRowMax ((List.range nSamples).map fun s => (array.map fun wf => (wf.getD p []).getD s 0).sum / n)).getD 0
      .ok ((List.range nPixels).filter fun p => peak.getD p 0 < peak.sum / nPixels * threshold)

/-! ## slow control and data level of TIO files -/

/-- `TIOReader.get_sn`, `get_sipm_temp`, `get_primary_temp` (`core/io/tio.py:128-154`); `get` is TargetIO's access -/
def tioModuleValue {ν : Type} (nModules : Nat) (get : Int → ν) (tm : Int) : Except Err ν :=
  if tm ≥ nModules then .error .indexError else .ok (get tm)

/-- `TIOReader.get_sp_dac`, `get_sp_hvon` (`core/io/tio.py:156-168`) -/
def tioSuperpixelValue {ν : Type} (nModules nSuperpixels : Nat) (get : Int → Int → ν) (tm sp : Int) : Except Err ν :=
  if tm ≥ nModules then .error .indexError
  else if sp ≥ nSuperpixels then .error .indexError
  else .ok (get tm sp)

/-- the three readers of TIO files -/
inductive TioClass | any | r1 | r0
  deriving DecidableEq, Repr

/-- opening an existing file with one of them (`core/io/tio.py:171-188`): `isR1` is the level recorded in the file -/
def openTio (cls : TioClass) (isR1 : Bool) : Except Err Unit :=
  match cls with
  | .any => .ok ()
  | .r1 => if !isR1 then .error .ioError else .ok ()
  | .r0 => if isR1 then .error .ioError else .ok ()

/-! ## event information of simulations -/

/-- a simulated event as ctapipe hands it out; `M`, `P`, `H` stand for the values copied into the dictionaries `mc`, `pointing`, `mcheader` -/
structure SimEvent (M P H : Type) where
  count : Nat
  gpsTime : Int
  obsId : Int
  mc : M
  pointing : P
  header : H

/-- the attributes of a `SimtelReader` that change with the events (`core/io/simtel.py:78-82`); in a dictionary the event number and time come first -/
structure SimState (M P H : Type) where
  iev : Option Nat := none
  tCpu : Option Int := none
  runId : Int := 0
  mc : Option ((Nat × Int) × M) := none
  pointing : Option ((Nat × Int) × P) := none
  mcheader : Option (Int × H) := none

variable {M P H : Type}

/-- `_fill_event_containers` (`core/io/simtel.py:120-186`) -/
def fillContainers (s : SimState M P H) (e : SimEvent M P H) : SimState M P H :=
  { iev := some e.count, tCpu := some e.gpsTime, runId := e.obsId
    mc := some ((e.count, e.gpsTime), e.mc), pointing := some ((e.count, e.gpsTime), e.pointing)
    mcheader := match s.mcheader with | none => some (e.obsId, e.header) | some h => some h }

/-- `_build_waveform` (`core/io/simtel.py:84-95`): the event number and time given to the waveform, taken from the reader -/
def simAccess (s : SimState M P H) (e : SimEvent M P H) : SimState M P H × (Option Nat × Option Int) :=
  let s' := fillContainers s e
  (s', (s'.iev, s'.tCpu))

/-- a sequence of accesses, by number or by iteration (`core/io/simtel.py:97-103`): the waveforms handed out with the state of the reader at that moment, and
the final state -/
def simAccesses (s : SimState M P H) : List (SimEvent M P H) → List ((Option Nat × Option Int) × SimState M P H) × SimState M P H
  | [] => ([], s)
  | e :: es =>
    let r := simAccess s e
    let rest := simAccesses r.1 es
    ((r.2, r.1) :: rest.1, rest.2)

end Verif.Model
