import Verif.Model.Extraction
import Verif.Model.CrossCorr
import Verif.Model.ShippedReducers

/-!
# The chain of `extract_dl1` as the program builds it

`DL1Extractor.__init__` (`scripts/extract_dl1.py:93-111`) hands the mapping and the path of the reference pulse of the reader to `WaveformReducerChain`, which finds all reducer
classes of the package. The reducers switched on by the built-in table of columns (`AverageWF`, `Common`, `CrossCorrelation`, `Saturation`) are given here with their code, in one chain; the others are parameters.
-/

namespace Verif.Model

open Verif.Py

variable {τ ν : Type}

/-- attributes of the reducers of the chain -/
inductive ProgState
  | red (s : RedState)
  | cc (r : CcReducer) (s : CcState)

/-- the entries of a configuration the classes of `Verif.Model.Reducers` can compute with. Those they read are `t_extract`, `t_event`, `window_size` and `window_shift`; a text, a mapping or
`None` under one of these names (a `TypeError` in Python) is outside the model. -/
def plainSettings (cfg : Config RSetting) : Config Setting :=
  cfg.filterMap fun kv => match kv.2 with
    | .flag b => some (kv.1, .flag b)
    | .num i => some (kv.1, .num i)
    | _ => none

/-- a class of `Verif.Model.Reducers` in the chain of the program -/
def liftClass (c : ReducerClass Setting RedState (List (List ℚ)) ColVal) : ReducerClass RSetting ProgState (List (List ℚ)) ColVal where
  name := c.name
  columns := c.columns
  init cfg := (c.init (plainSettings cfg)).map .red
  prepare cfg s ws := match s with
    | .red s => (c.prepare (plainSettings cfg) s ws).map .red
    | .cc _ _ => .error .attributeError
  value cfg s name := match s with
    | .red s => c.value (plainSettings cfg) s name
    | .cc _ _ => .error .attributeError
  post cfg s := match s with
    | .red s => .red (c.post (plainSettings cfg) s)
    | .cc r s => .cc r s

/-- `CrossCorrelation` (`waveform_reducers/cross_correlation.py:37-121`). `pulse` is `np.loadtxt` and the interpolation of lines 70-77, that is the samples of the reference pulse in a
file; `after` is what lies in memory behind the array of the correlated waveforms (see `extractPulseTime`). A path that is no text is an error of `np.loadtxt`. The arrays of zeros
of lines 63-65 are replaced before they are read; here they are empty. -/
def crossCorrelationClass (pulse : String → Except Err (List ℚ)) (after : List (List ℚ) → Option ℚ) : ReducerClass RSetting ProgState (List (List ℚ)) ColVal where
  name := "CrossCorrelation"
  columns := ["t_cc", "charge_cc", "height_cc"]
  init cfg := match Dict.get? cfg "reference_pulse_path" with
    | some (.text path) =>
      if path = "" then .error .valueError
      else match pulse path with
        | .error e => .error e
        | .ok y => (newCrossCorr path y).map fun r => .cc r ⟨[], [], []⟩
    | _ => .error .valueError
  prepare _ s ws := match s with
    | .cc r _ => (ccPrepare r ws).map (.cc r)
    | .red _ => .error .attributeError
  value _ s name := match s with
    | .cc r s =>
      if name = "t_cc" then .ok (.perPixel (timeCc (after s.cc) s))
      else if name = "charge_cc" then .ok (.perPixel (chargeCc s))
      else if name = "height_cc" then (heightCc r s).map .perPixel
      else .error .attributeError
    | .red _ => .error .attributeError
  post _ s := s

/-- a class of the package in the chain of the program; of the classes without a column in the built-in configuration only the columns are given, the rest of them is arbitrary -/
def programClass (pulse : String → Except Err (List ℚ)) (after : List (List ℚ) → Option ℚ)
    (rest : Shipped → ReducerClass RSetting ProgState (List (List ℚ)) ColVal) : Shipped → ReducerClass RSetting ProgState (List (List ℚ)) ColVal
  | .averageWf => liftClass averageWf
  | .common => liftClass common
  | .saturation => liftClass saturation
  | .crossCorrelation => crossCorrelationClass pulse after
  | c => { rest c with columns := c.columns }

/-- `WaveformReducerChain(n_pixels, n_samples, mapping=..., reference_pulse_path=..., config_path=...)` (`scripts/extract_dl1.py:103-110`, `core/chain.py:85-118`); `order` is the order in
which the classes are found, `load` reads a configuration file -/
def programChain (pulse : String → Except Err (List ℚ)) (after : List (List ℚ) → Option ℚ) (rest : Shipped → ReducerClass RSetting ProgState (List (List ℚ)) ColVal)
    (order : List Shipped) (load : String → Yaml RSetting) (configPath : Option String) (pulsePath : String) :
    Except Err (List (Reducer RSetting ProgState (List (List ℚ)) (FrameCol (Cell τ)))) :=
  newChain RSetting.truthy (order.map fun c => framedClass (programClass pulse after rest c)) (defaultColumns.map fun kv => (kv.1, .flag kv.2)) load configPath
    [("mapping", .mapping), ("reference_pulse_path", .text pulsePath)]

end Verif.Model
