import Verif.Model.Dl1
import Verif.Model.Chain
import Verif.Model.Reducers
import Verif.Model.WaveformUtils
import Verif.Model.ShippedData

/-!
# `DL1Extractor` (`scripts/extract_dl1.py:93-174`) put together from its parts

The abstract `Extractor` of `Verif.Model.Dl1` is given here as the program has it: time calibration, subtraction of the
baseline, reducers, and the dictionary handed to pandas.  Samples are exact rationals; the reader yields the same events
each time it is iterated (it is read once for the first baseline and once by the production loop).
-/

namespace Verif.Model

open Verif.Py

variable {τ ν V σ : Type}

/-- a cell of a table: a number, NaN or a time -/
inductive Cell (τ : Type)
  | num (q : ℚ)
  | nan
  | time (t : τ)
  deriving DecidableEq, Repr

/-- a value of the dictionary handed to `pd.DataFrame`: a scalar or a one-dimensional array -/
inductive FrameCol (α : Type)
  | scalar (a : α)
  | array (l : List α)
  deriving DecidableEq, Repr

/-- the attributes of a `Waveform` used by `DL1Extractor.__call__` besides `iev` and `t_cpu` (`core/io/waveform.py:8-22`) -/
structure RawWf (τ : Type) where
  rows : List (List ℚ)
  type : SampleType
  tTack : Cell τ
  firstCellId : FrameCol (Cell τ)
  mcTrue : Option (FrameCol (Cell τ))

/-- the attributes of a `DL1Extractor` that change from event to event (`scripts/extract_dl1.py:110-111`) -/
structure ExtractState (V σ τ : Type) where
  baseline : Baseline
  chain : List (Reducer V σ (List (List ℚ)) (FrameCol (Cell τ)))

/-- the keyword arguments written out in `dict(...)` (`scripts/extract_dl1.py:162-168`); `pixel_array` is
`np.arange(n_pixels)` (line 97) -/
def fixedParams (nPixels : Nat) (e : Event τ (RawWf τ)) (baseline : List ℚ) : Dict String (FrameCol (Cell τ)) :=
  [("iev", .scalar (.num (e.iev : ℚ))),
   ("pixel", .array ((List.range nPixels).map fun p : Nat => .num (p : ℚ))),
   ("t_cpu", .scalar (.time e.tCpu)),
   ("t_tack", .scalar e.payload.tTack),
   ("first_cell_id", e.payload.firstCellId),
   ("baseline_subtracted", .array (baseline.map .num))]

/-- `params` (`scripts/extract_dl1.py:162-172`): a name given both in the call of `dict` and by the chain is a `TypeError`;
`mc_true` is set afterwards and replaces a column of that name. -/
def paramDict (nPixels : Nat) (e : Event τ (RawWf τ)) (baseline : List ℚ) (out : Dict String (FrameCol (Cell τ))) :
    Except Err (Dict String (FrameCol (Cell τ))) :=
  if (Dict.keys out).any fun k => decide (k ∈ Dict.keys (fixedParams nPixels e baseline)) then .error .typeError
  else match e.payload.mcTrue with
    | none => .ok (Dict.update (fixedParams nPixels e baseline) out)
    | some v => .ok (Dict.set (Dict.update (fixedParams nPixels e baseline) out) "mc_true" v)

/-- entry `p` of a column of the frame; a scalar is repeated -/
def FrameCol.at (c : FrameCol (Cell τ)) (p : Nat) : Cell τ := match c with
  | .scalar a => a
  | .array l => l.getD p .nan

/-- the number of entries is that of the frame -/
def FrameCol.fits (c : FrameCol (Cell τ)) (n : Nat) : Bool := match c with
  | .scalar _ => true
  | .array l => l.length == n

/-- `pd.DataFrame(dl1)` (`scripts/extract_dl1.py:59`) of a dictionary one of whose arrays, `pixel`, has `n` entries: arrays of
another length are a `ValueError`.  The columns `iev` and `pixel` are kept apart, as in `DRow`. -/
def frameOf (n : Nat) (params : Dict String (FrameCol (Cell τ))) : Except Err (List (Dict String (Cell τ))) :=
  if params.all fun kv => kv.2.fits n then
    .ok ((List.range n).map fun p =>
      (params.filter fun kv => kv.1 ≠ "iev" ∧ kv.1 ≠ "pixel").map fun kv => (kv.1, kv.2.at p))
  else .error .valueError

/-- the time calibration at the start of `__call__` (`scripts/extract_dl1.py:153-156`); there is none for simulations
(lines 99-101) -/
def calibrateTimes (tCor : Option (List ℚ)) (w : RawWf τ) : Except Err (List (List ℚ)) :=
  match tCor with
  | none => .ok w.rows
  | some t => timeCalibrate t w.type w.rows

/-- `DL1Extractor.__call__` (`scripts/extract_dl1.py:151-174`) followed by the making of the frame (line 59) -/
def extractEvent (nPixels : Nat) (tCor : Option (List ℚ)) (s : ExtractState V σ τ) (e : Event τ (RawWf τ)) :
    Except Err (ExtractState V σ τ × List (Dict String (Cell τ))) :=
  match calibrateTimes tCor e.payload with
  | .error err => .error err
  | .ok tc => match s.baseline.subtract tc with
    | .error err => .error err
    | .ok (b, bs) => match chainLoop s.chain bs [] with
      | .error err => .error err
      | .ok (chain, out) => match paramDict nPixels e b.baseline out with
        | .error err => .error err
        | .ok params => match frameOf nPixels params with
          | .error err => .error err
          | .ok rows => .ok (⟨b, chain⟩, rows)

/-- a column of a reducer as pandas gets it: one value for the event, or one per pixel (`scripts/extract_dl1.py:158-168`) -/
def ColVal.frame : ColVal → FrameCol (Cell τ)
  | .scalar x => .scalar (.num x)
  | .perPixel xs => .array (xs.map .num)

/-- a reducer class with numbers as column values (`Verif.Model.Reducers`, `Verif.Model.DefaultRun`) in the chain of the extractor -/
def framedClass (c : ReducerClass V σ (List (List ℚ)) ColVal) : ReducerClass V σ (List (List ℚ)) (FrameCol (Cell τ)) where
  name := c.name
  columns := c.columns
  init := c.init
  prepare := c.prepare
  value kwargs s name := (c.value kwargs s name).map ColVal.frame
  post := c.post

/-- the events of a reader as `BaselineSubtractor` sees them -/
def wfEvents (events : List (Event τ (RawWf τ))) : List WfEvent := events.map fun e => ⟨e.iev, e.payload.rows⟩

/-- `DL1Extractor.__init__` (`scripts/extract_dl1.py:94-129`): the chain, then the baseline of the first events of the reader
with the default sizes of the buffer.  `tCor` are the corrections read by `TimeCalibrator()`, `chain` the result of building
the chain, `config` the configuration stored. -/
def newExtractor (rd : RawReader τ (RawWf τ) (Dict String (Cell τ)) ν) (tCor : List ℚ)
    (chain : Except Err (List (Reducer V σ (List (List ℚ)) (FrameCol (Cell τ))))) (config : MetaDict ν) :
    Except Err (Extractor (ExtractState V σ τ) τ (RawWf τ) (Dict String (Cell τ)) ν) :=
  match chain with
  | .error e => .error e
  | .ok ch => match Baseline.init rd.nPixels (wfEvents rd.events) 50 16 with
    | .error e => .error e
    | .ok b => .ok {
        init := ⟨b, ch⟩
        extract := extractEvent rd.nPixels (if rd.isMc then none else some tCor)
        config := config }

end Verif.Model
