import Verif.Py.Basic

/-!
# `core/chain.py`, `core/reducer.py`, `scripts/generate_dl1_config.py`

`V` is the type of configuration values, `truthy` Python's truth value of them; `ω` are the waveforms of an event, `σ` the
attributes of a reducer object and `β` the column values.  Exceptions raised inside reducers are values of `Err`.
-/

namespace Verif.Model

open Verif.Py

variable {V σ ω β : Type}

/-- A configuration: keyword arguments by name. -/
abbrev Config (V : Type) := Dict String V

/-- A `WaveformReducer` subclass: the `columns` list made by the metaclass, the constructor, `_prepare`, the column
properties and `_post`, each an arbitrary function of the keyword arguments and the object's attributes; `_post` does not raise. -/
structure ReducerClass (V σ ω β : Type) where
  name : String
  columns : List String
  init : Config V → Except Err σ
  prepare : Config V → σ → ω → Except Err σ
  value : Config V → σ → String → Except Err β
  post : Config V → σ → σ

/-- `get_active_columns` (`core/reducer.py:110-130`). -/
def getActiveColumns (truthy : V → Bool) (columns : List String) (disableByDefault : Bool) (kwargs : Config V) :
    List String :=
  columns.filter fun col => match Dict.get? kwargs col with
    | some v => truthy v
    | none => !disableByDefault

/-- An instantiated reducer: class, keyword arguments, active columns, attributes. -/
structure Reducer (V σ ω β : Type) where
  cls : ReducerClass V σ ω β
  kwargs : Config V
  active : List String
  state : σ

/-- `WaveformReducer.__init__` (`core/reducer.py:77-108`) with `_disable_by_default=True`, as the chain calls it.  An
entry `self` is a second value for the first parameter of the constructor: `TypeError`. -/
def instantiate (truthy : V → Bool) (cls : ReducerClass V σ ω β) (config : Config V) :
    Except Err (Reducer V σ ω β) :=
  if "self" ∈ Dict.keys config then .error .typeError
  else match cls.init config with
    | .error e => .error e
    | .ok s => .ok { cls := cls, kwargs := config, active := getActiveColumns truthy cls.columns true config, state := s }

/-- `_get_dict` (`core/reducer.py:154-163`): values of the active columns, in order. -/
def getDictLoop (r : Reducer V σ ω β) (s : σ) : List String → Dict String β → Except Err (Dict String β)
  | [], d => .ok d
  | c :: cs, d =>
    match r.cls.value r.kwargs s c with
    | .error e => .error e
    | .ok v => getDictLoop r s cs (Dict.set d c v)

/-- `process` (`core/reducer.py:171-189`); a class without columns uses `_process_null` (`core/reducer.py:38-43,
107-108`).  The reducer works on its own copy of the waveforms (`core/reducer.py:152`), so it returns nothing but its new
attributes and the dictionary. -/
def Reducer.process (r : Reducer V σ ω β) (w : ω) : Except Err (Reducer V σ ω β × Dict String β) :=
  if r.cls.columns.isEmpty then .ok (r, [])
  else match r.cls.prepare r.kwargs r.state w with
    | .error e => .error e
    | .ok s => match getDictLoop r s r.active [] with
      | .error e => .error e
      | .ok d => .ok ({ r with state := r.cls.post r.kwargs s }, d)

/-- What `yaml.safe_load` returned: `None` (empty file), a mapping with string keys, or something else. -/
inductive Yaml (V : Type)
  | null
  | map (d : Config V)
  | other

/-- the merged configuration (`core/chain.py:109-114` and `120-141`).  `load` is reading and parsing the YAML file.
`default_config` is the empty dictionary (`core/chain.py:81-83`).  Unpacking a non-mapping raises `TypeError`. -/
def chainConfig (defaultColumns : Config V) (load : String → Yaml V) (configPath : Option String) (kwargs : Config V) :
    Except Err (Config V) :=
  let config : Config V := Dict.update [] []
  let useFile : Bool := match configPath with
    | none => false
    | some p => p ≠ ""
  if useFile then
    match load (configPath.getD "") with
    | .null => .ok (Dict.update (Dict.update config []) kwargs)
    | .map loaded => .ok (Dict.update (Dict.update config loaded) kwargs)
    | .other => .error .typeError
  else .ok (Dict.update (Dict.update config defaultColumns) kwargs)

/-- the loop of `_build_chain` (`core/chain.py:166-176`); `reducers` are the discovered classes. -/
def buildLoop (truthy : V → Bool) (config : Config V) :
    List (ReducerClass V σ ω β) → Except Err (List (Reducer V σ ω β))
  | [] => .ok []
  | cls :: rest =>
    if (getActiveColumns truthy cls.columns true config).length > 0 then
      match instantiate truthy cls config with
      | .error e => .error e
      | .ok r => match buildLoop truthy config rest with
        | .error e => .error e
        | .ok rs => .ok (r :: rs)
    else buildLoop truthy config rest

/-- `_build_chain` (`core/chain.py:143-176`): `n_pixels` and `n_samples` are passed positionally, so a configuration
containing these names raises `TypeError`; so does an entry `cls`, a second value for the first parameter of the class
method `get_active_columns` (line 171; the library always has reducers, so it is called). The entry
`_disable_by_default` of the configuration is overridden (line 167) and consumed as a parameter. -/
def buildChain (truthy : V → Bool) (reducers : List (ReducerClass V σ ω β)) (config : Config V) :
    Except Err (List (Reducer V σ ω β)) :=
  if "n_pixels" ∈ Dict.keys config ∨ "n_samples" ∈ Dict.keys config ∨ "cls" ∈ Dict.keys config then .error .typeError
  else buildLoop truthy (Dict.erase config "_disable_by_default") reducers

/-- `WaveformReducerChain.__init__` (`core/chain.py:85-118`). -/
def newChain (truthy : V → Bool) (reducers : List (ReducerClass V σ ω β)) (defaultColumns : Config V)
    (load : String → Yaml V) (configPath : Option String) (kwargs : Config V) : Except Err (List (Reducer V σ ω β)) :=
  match chainConfig defaultColumns load configPath kwargs with
  | .error e => .error e
  | .ok config => buildChain truthy reducers config

/-- `WaveformReducerChain.process` (`core/chain.py:178-195`): one event through the chain; later entries of the
dictionary comprehension replace earlier ones. -/
def chainLoop : List (Reducer V σ ω β) → ω → Dict String β → Except Err (List (Reducer V σ ω β) × Dict String β)
  | [], _, d => .ok ([], d)
  | r :: rs, w, d =>
    match r.process w with
    | .error e => .error e
    | .ok (r', out) => match chainLoop rs w (Dict.update d out) with
      | .error e => .error e
      | .ok (rs', d') => .ok (r' :: rs', d')

/-- events one after the other; an exception ends the processing -/
def chainEvents (chain : List (Reducer V σ ω β)) : List ω → Except Err (List (Reducer V σ ω β) × List (Dict String β))
  | [] => .ok (chain, [])
  | w :: ws =>
    match chainLoop chain w [] with
    | .error e => .error e
    | .ok (chain', d) => match chainEvents chain' ws with
      | .error e => .error e
      | .ok (chain'', ds) => .ok (chain'', d :: ds)

/-- one reducer on its own, event after event -/
def reducerEvents (r : Reducer V σ ω β) : List ω → Except Err (Reducer V σ ω β × List (Dict String β))
  | [] => .ok (r, [])
  | w :: ws =>
    match r.process w with
    | .error e => .error e
    | .ok (r', d) => match reducerEvents r' ws with
      | .error e => .error e
      | .ok (r'', ds) => .ok (r'', d :: ds)

/-! ## Generated configuration -/

/-- The mapping written by `generate_dl1_config` (`scripts/generate_dl1_config.py:31-47`): `c: default.get(c, True)` for
every column of every discovered reducer.  Comment lines are dropped; reading it back gives this mapping, a repeated
column keeping its last value. -/
def generatedConfig (default : Config Bool) (columns : List (List String)) : Config Bool :=
  Dict.update [] (columns.flatten.map fun c => (c, (Dict.get? default c).getD true))

/-- `WaveformReducerChain.default_columns` (`core/chain.py:9-79`). -/
def defaultColumns : Config Bool :=
  [("baseline_end_mean", true), ("baseline_end_rms", true), ("baseline_start_mean", true),
   ("baseline_start_rms", true), ("waveform_mean", true), ("waveform_rms", true),
   ("t_event", false), ("t_pulse", false), ("t_pulse_amp", false), ("t_rise", false), ("fwhm", false),
   ("saturation_sum", true), ("t_averagewf", true), ("charge_averagewf", true),
   ("t_cc", true), ("charge_cc", true), ("height_cc", true),
   ("t_cc_local", false), ("charge_cc_local", false), ("height_cc_local", false),
   ("t_cc_nn", false), ("charge_cc_nn", false), ("height_cc_nn", false),
   ("t_local", false), ("charge_local", false), ("t_nn", false), ("charge_nn", false),
   ("charge_nnls", false), ("nnls_tcharge", false), ("nnls_tmcharge", false), ("nnls_tccharge", false),
   ("nnls_norm", false), ("nnls_npulses", false), ("nnls_errata", false),
   ("t_sliding", false), ("charge_sliding", false), ("t_sliding_local", false), ("charge_sliding_local", false),
   ("t_sliding_nn", false), ("charge_sliding_nn", false), ("sp_argmax", false), ("sp_max", false)]

/-- The columns of the reducers shipped in `waveform_reducers/` (file by file, definition order). -/
def shippedColumns : List (List String) :=
  [["t_averagewf", "charge_averagewf"],
   ["baseline_start_mean", "baseline_start_rms", "baseline_end_mean", "baseline_end_rms", "waveform_mean",
    "waveform_rms", "waveform_max"],
   ["t_cc", "charge_cc", "height_cc"],
   ["t_local", "charge_local"], ["t_nn", "charge_nn"],
   ["flasher_unit"],
   ["charge_nnls", "nnls_tcharge", "nnls_tmcharge", "nnls_tccharge", "nnls_norm", "nnls_npulses", "nnls_errata"],
   ["saturation_sum"],
   ["t_sliding", "charge_sliding"],
   ["sp_argmax", "sp_max"],
   ["t_pulse", "t_pulse_amp", "t_event", "fwhm", "t_rise"],
   ["t_cc_local", "charge_cc_local", "height_cc_local"], ["t_cc_nn", "charge_cc_nn", "height_cc_nn"],
   ["t_sliding_local", "charge_sliding_local"], ["t_sliding_nn", "charge_sliding_nn"]]

/-! ## Column registry -/

/-- `column.__init__` (`core/reducer.py:14-25`): the registry maps `__name__` to (the function with) `__qualname__`.
On a conflict `AttributeError` is raised and the registry is unchanged. -/
def registerColumn (registry : Dict String String) (name qualname : String) : Dict String String × Option Err :=
  match Dict.get? registry name with
  | some old => if old ≠ qualname then (registry, some .attributeError) else (Dict.set registry name qualname, none)
  | none => (Dict.set registry name qualname, none)

/-- a sequence of column definitions, conflicts being survived by the caller -/
def registerAll (defs : List (String × String)) : Dict String String :=
  defs.foldl (fun reg d => (registerColumn reg d.1 d.2).1) []

/-- `WaveformReducerMeta.__new__` (`core/reducer.py:51-71`): `members` are the class dictionary entries in definition
order with "is a `column` object", `parentColumns b` are the names which are `column` objects in base `b` (as seen by
`getmembers`, that is including inherited ones). -/
def metaColumns (members : List (String × Bool)) (parents : List (String → Bool)) : List String :=
  (members.filter fun m => m.2 && !(parents.any fun p => p m.1)).map Prod.fst

end Verif.Model
