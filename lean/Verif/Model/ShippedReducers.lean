import Verif.Model.Chain

/-!
# `waveform_reducers/*.py`: the constructors of the reducers, as the chain calls them

What is modelled: which settings a constructor reads, what it needs and in which order it looks for it. The environment says whether ctapipe can be imported and which files hold a
reference pulse. A mapping that is given can be used by ctapipe (see `Geometry`).
-/

namespace Verif.Model

open Verif.Py

/-- a configuration value -/
inductive RSetting
  | flag (b : Bool)
  | num (i : Int)
  | text (s : String)
  | mapping
  | none
  deriving DecidableEq

/-- Python's `bool(v)` (never asked of a mapping) -/
def RSetting.truthy : RSetting → Bool
  | .flag b => b
  | .num i => i ≠ 0
  | .text s => s ≠ ""
  | .mapping => true
  | .none => false

/-- the environment of the program -/
structure REnv where
  ctapipe : Bool
  isPulse : String → Bool

/-- the reducer classes of `waveform_reducers/` -/
inductive Shipped
  | averageWf | common | crossCorrelation | crossCorrelationLocal | crossCorrelationNeighbour
  | ctapipeLocal | ctapipeNeighbour | flagFlashers | nnls | saturation
  | slidingWindow | slidingWindowLocal | slidingWindowNeighbour | spAmplitude | timing
  deriving DecidableEq

/-- the columns of a class (`waveform_reducers/*.py`, definition order) -/
def Shipped.columns : Shipped → List String
  | .averageWf => ["t_averagewf", "charge_averagewf"]
  | .common => ["baseline_start_mean", "baseline_start_rms", "baseline_end_mean", "baseline_end_rms", "waveform_mean", "waveform_rms", "waveform_max"]
  | .crossCorrelation => ["t_cc", "charge_cc", "height_cc"]
  | .crossCorrelationLocal => ["t_cc_local", "charge_cc_local", "height_cc_local"]
  | .crossCorrelationNeighbour => ["t_cc_nn", "charge_cc_nn", "height_cc_nn"]
  | .ctapipeLocal => ["t_local", "charge_local"]
  | .ctapipeNeighbour => ["t_nn", "charge_nn"]
  | .flagFlashers => ["flasher_unit"]
  | .nnls => ["charge_nnls", "nnls_tcharge", "nnls_tmcharge", "nnls_tccharge", "nnls_norm", "nnls_npulses", "nnls_errata"]
  | .saturation => ["saturation_sum"]
  | .slidingWindow => ["t_sliding", "charge_sliding"]
  | .slidingWindowLocal => ["t_sliding_local", "charge_sliding_local"]
  | .slidingWindowNeighbour => ["t_sliding_nn", "charge_sliding_nn"]
  | .spAmplitude => ["sp_argmax", "sp_max"]
  | .timing => ["t_pulse", "t_pulse_amp", "t_event", "fwhm", "t_rise"]

/-- what a constructor stores of the window settings; `none`: the class has no such attribute -/
structure RWindow where
  size : Option RSetting
  shift : Option RSetting
  deriving DecidableEq

/-- `kwargs.get(key, default)` -/
def getSetting (cfg : Config RSetting) (key : String) (default : Int) : RSetting := (Dict.get? cfg key).getD (.num default)

/-- `window_size` and `window_shift` of a class that reads both -/
def windowOf (cfg : Config RSetting) (size shift : Int) : RWindow :=
  ⟨some (getSetting cfg "window_size" size), some (getSetting cfg "window_shift" shift)⟩

/-- `from ctapipe... import ...` -/
def needCtapipe (env : REnv) {α : Type} (x : α) : Except Err α := if env.ctapipe then .ok x else .error .importError

/-- `if mapping is None: raise ValueError` with `mapping=None` as default -/
def needMapping (cfg : Config RSetting) {α : Type} (x : Except Err α) : Except Err α :=
  match Dict.get? cfg "mapping" with
  | some .mapping => x
  | some .none => .error .valueError
  | some _ => .error .attributeError
  | none => .error .valueError

/-- `CrossCorrelation.__init__` (`waveform_reducers/cross_correlation.py:48-65`) without the pulse itself (see `CrossCorr`) -/
def needPulse (env : REnv) (cfg : Config RSetting) {α : Type} (x : Except Err α) : Except Err α :=
  match Dict.get? cfg "reference_pulse_path" with
  | some v => if v.truthy then match v with
      | .text p => if env.isPulse p then x else .error .ioError
      | _ => .error .valueError
    else .error .valueError
  | none => .error .valueError

/-- `NNLSPulseExtraction.__init__` (`waveform_reducers/nnls_pulse_extraction.py:18-51`): the file is opened without looking at the path -/
def needNnlsPulse (env : REnv) (cfg : Config RSetting) {α : Type} (x : Except Err α) : Except Err α :=
  match Dict.get? cfg "reference_pulse_path" with
  | some (.text p) => if env.isPulse p then x else .error .ioError
  | some _ => .error .valueError
  | none => .error .ioError

/-- `np.ones(window_size)` with `window_size=8` as default (`waveform_reducers/sliding_window.py:13-16`). Simplification: `None`, which numpy takes for the shape `()` with a warning (the
array then fails at the first event), is an error here already. -/
def slidingSize (cfg : Config RSetting) : Except Err RSetting :=
  match getSetting cfg "window_size" 8 with
  | .num i => if i < 0 then .error .valueError else .ok (.num i)
  | .flag b => .ok (.flag b)
  | _ => .error .typeError

/-- `SlidingWindow.__init__` (`waveform_reducers/sliding_window.py:13-29`) -/
def slidingInit (env : REnv) (cfg : Config RSetting) : Except Err RWindow :=
  match slidingSize cfg with
  | .error e => .error e
  | .ok w => needCtapipe env ⟨some w, none⟩

/-- the constructor of a class: `waveform_reducers/average_wf.py:10-13`, `waveform_reducers/cross_correlation.py:48-65,128-130,169-187`,
`waveform_reducers/ctapipe_integrators.py:10-26,57-81`, `waveform_reducers/nnls_pulse_extraction.py:18-51`, `waveform_reducers/saturation.py:11-13`, `waveform_reducers/sliding_window.py:13-29,91-108`, `waveform_reducers/timing.py:115-131`; the others read no setting -/
def Shipped.init (env : REnv) (c : Shipped) (cfg : Config RSetting) : Except Err RWindow := match c with
  | .averageWf => .ok (windowOf cfg 6 3)
  | .common => .ok ⟨none, none⟩
  | .crossCorrelation => needPulse env cfg (.ok ⟨none, none⟩)
  | .crossCorrelationLocal => needPulse env cfg (.ok ⟨none, none⟩)
  | .crossCorrelationNeighbour => needPulse env cfg (needMapping cfg (needCtapipe env ⟨none, none⟩))
  | .ctapipeLocal => needCtapipe env (windowOf cfg 6 3)
  | .ctapipeNeighbour => needMapping cfg (needCtapipe env (windowOf cfg 6 3))
  | .flagFlashers => .ok ⟨none, none⟩
  | .nnls => needNnlsPulse env cfg (.ok (windowOf cfg 20 (-25)))
  | .saturation => .ok ⟨none, some (getSetting cfg "window_shift" 4)⟩
  | .slidingWindow => slidingInit env cfg
  | .slidingWindowLocal => slidingInit env cfg
  | .slidingWindowNeighbour => match slidingInit env cfg with
    | .error e => .error e
    | .ok w => needMapping cfg (needCtapipe env w)
  | .spAmplitude => .ok ⟨none, none⟩
  | .timing => .ok (windowOf cfg 8 4)

/-- the class as the chain sees it; the processing of events is not part of this file -/
def Shipped.cls (env : REnv) (c : Shipped) : ReducerClass RSetting RWindow Unit Unit where
  name := ""
  columns := c.columns
  init := c.init env
  prepare := fun _ s _ => .ok s
  value := fun _ _ _ => .ok ()
  post := fun _ s => s

/-- `WaveformReducerChain(...)` with the discovered classes in some order -/
def shippedChain (env : REnv) (order : List Shipped) (load : String → Yaml RSetting) (configPath : Option String) (kwargs : Config RSetting) :
    Except Err (List (Reducer RSetting RWindow Unit Unit)) :=
  newChain RSetting.truthy (order.map (Shipped.cls env)) (defaultColumns.map fun kv => (kv.1, .flag kv.2)) load configPath kwargs

/-- the configuration an extraction records (`scripts/extract_dl1.py:110-111`): `chain.config` without the mapping -/
def recordedConfig (load : String → Yaml RSetting) (configPath : Option String) (kwargs : Config RSetting) : Except Err (Config RSetting) :=
  match chainConfig (defaultColumns.map fun kv => (kv.1, .flag kv.2)) load configPath kwargs with
  | .error e => .error e
  | .ok config => .ok (Dict.erase config "mapping")

/-- the call `add_metadata(name='config', **config)` (`scripts/extract_dl1.py:80`, `core/io/hdf5_writer.py:142-178`): the key, the name and what is stored. Python takes an entry `key`
for the parameter of this name and refuses a second `name` and a second `self`. -/
def recordCall (config : Config RSetting) : Except Err (RSetting × String × Config RSetting) :=
  if "name" ∈ Dict.keys config ∨ "self" ∈ Dict.keys config then .error .typeError
  else .ok ((Dict.get? config "key").getD (.text "data"), "config", Dict.erase config "key")

end Verif.Model
