import Verif.Py.Basic

/-!
# The packages of reducers and fitters: `waveform_reducers/__init__.py`, `spectrum_fitters/__init__.py`

Both packages load every module below them under its bare name (`loader.find_module(name).load_module(name)`) and copy its members into their own
namespace. The model is of the parts of Python's import system these lines use: `sys.modules`, namespaces, `load_module` (an existing module of the name
is executed into again), `import package.module`, `from package import name` and `from package import *`. Of the attributes Python itself gives a module
only `__name__`, `__file__` and `__spec__` are modelled (`__loader__`, `__package__`, `__cached__`, `__doc__` and `__builtins__` behave alike); what the loops
leave in the package besides (`loader`, `name`, `module`, `pkgutil`, ...) is not. A name defined in the modules is not one the loops use.
-/

namespace Verif.Model

open Verif.Py

/-- what a name can be bound to: a string, the class or function made in the `copy`-th execution of a module's code, a module, something from
outside the package -/
inductive Obj
  | str (s : String)
  | made (name : String) (copy : Nat)
  | mod (name : String)
  | ext (name : String)
  deriving DecidableEq

abbrev Namespace := Dict String Obj

/-- statements at the top of a module: a name imported from outside the package, a class or function -/
inductive Plain
  | bind (name : String) (o : Obj)
  | define (name : String)

/-- a file of the package: a module, or a test module which first imports names from modules of the package under their full names
(`from CHECLabPy.spectrum_fitters.gentile import ...`); the modules themselves import from outside the package only -/
inductive PluginFile
  | code (body : List Plain)
  | test (imports : List (String × String)) (body : List Plain)

/-- the interpreter: `sys.modules` with the namespaces, how many times code of a module was executed, the classes and functions made so far in the order
of their creation, and `__all__` of the package -/
structure Interp where
  modules : Dict String Namespace
  copies : Nat
  created : List Obj
  exported : List String

/-- the names a statement binds are bound -/
def runPlain (copy : Nat) (ns : Namespace) : Plain → Namespace
  | .bind n o => Dict.set ns n o
  | .define n => Dict.set ns n (.made n copy)

def runBody (copy : Nat) (ns : Namespace) (body : List Plain) : Namespace := body.foldl (runPlain copy) ns

/-- the classes and functions a module makes -/
def madeBy (copy : Nat) (body : List Plain) : List Obj :=
  body.filterMap fun st => match st with | .define n => some (.made n copy) | .bind _ _ => none

/-- the attributes Python gives a module (importlib `_init_module_attrs` with `override=True`) -/
def moduleAttrs (name file : String) (ns : Namespace) : Namespace :=
  Dict.set (Dict.set (Dict.set ns "__name__" (.str name)) "__file__" (.str file)) "__spec__" (.str name)

/-- full name of a module of the package -/
def fullName (pkg sub : String) : String := pkg ++ "." ++ sub

/-- the file of a module -/
def filePath (pkg sub : String) : String := pkg ++ "/" ++ sub

/-- execution of a module under a name: `load_module(name)` (`waveform_reducers/__init__.py:18`, `spectrum_fitters/__init__.py:11`) and `import`. A module
that `sys.modules` has under this name already is executed into. -/
def loadCode (s : Interp) (name file : String) (body : List Plain) : Interp :=
  { s with
    modules := Dict.set s.modules name (runBody s.copies (moduleAttrs name file ((Dict.get? s.modules name).getD [])) body)
    copies := s.copies + 1
    created := s.created ++ madeBy s.copies body }

/-- `import pkg.sub`: nothing if it is loaded already, else it is executed and becomes an attribute of the package -/
def importFull (pkg : String) (listing : List (String × PluginFile)) (s : Interp) (sub : String) : Except Err Interp :=
  match Dict.get? s.modules (fullName pkg sub) with
  | some _ => .ok s
  | none => match Dict.get? listing sub with
    | some (.code body) =>
      let s := loadCode s (fullName pkg sub) (filePath pkg sub) body
      .ok { s with modules := Dict.set s.modules pkg (Dict.set ((Dict.get? s.modules pkg).getD []) sub (.mod (fullName pkg sub))) }
    | _ => .error .importError

/-- `from pkg.sub import attr` for every pair, in a test module -/
def runImports (pkg : String) (listing : List (String × PluginFile)) : List (String × String) → Interp → Namespace → Except Err (Interp × Namespace)
  | [], s, ns => .ok (s, ns)
  | (sub, attr) :: rest, s, ns => match importFull pkg listing s sub with
    | .error e => .error e
    | .ok s => match Dict.get? ((Dict.get? s.modules (fullName pkg sub)).getD []) attr with
      | none => .error .importError
      | some o => runImports pkg listing rest s (Dict.set ns attr o)

/-- `load_module(name)` for any file -/
def loadPlugin (pkg : String) (listing : List (String × PluginFile)) (s : Interp) (name : String) : PluginFile → Except Err Interp
  | .code body => .ok (loadCode s name (filePath pkg name) body)
  | .test imports body =>
    match runImports pkg listing imports s (moduleAttrs name (filePath pkg name) ((Dict.get? s.modules name).getD [])) with
    | .error e => .error e
    | .ok (s, ns) => .ok { s with
        modules := Dict.set s.modules name (runBody s.copies ns body), copies := s.copies + 1, created := s.created ++ madeBy s.copies body }

/-- `str.startswith('__')` -/
def dunder (s : String) : Bool := ['_', '_'].isPrefixOf s.toList

/-- the members which are copied: `spectrum_fitters/__init__.py:13-15` leaves out those whose name starts with two underscores (`byKey`), the loop of
`waveform_reducers/__init__.py:20-22` asks for the name of the module instead -/
def copied (byKey : Bool) (name : String) (members : Namespace) : Namespace := members.filter fun kv => !dunder (if byKey then kv.1 else name)

/-- the members of one module reach the package (`waveform_reducers/__init__.py:20-25`, `spectrum_fitters/__init__.py:13-18`). `getmembers` sorts them by
name, which only changes the order of `__all__`. -/
def copyMembers (pkg : String) (byKey : Bool) (name : String) (s : Interp) : Interp :=
  let new := copied byKey name ((Dict.get? s.modules name).getD [])
  { s with
    modules := Dict.set s.modules pkg (Dict.update ((Dict.get? s.modules pkg).getD []) new)
    exported := s.exported ++ new.map Prod.fst }

/-- the loop over `pkgutil.walk_packages(__path__)` (`waveform_reducers/__init__.py:17-25`, `spectrum_fitters/__init__.py:10-18`): files in alphabetical
order, a package before what is in it -/
def loadAll (pkg : String) (byKey : Bool) (listing : List (String × PluginFile)) : List (String × PluginFile) → Interp → Except Err Interp
  | [], s => .ok s
  | (name, file) :: rest, s => match loadPlugin pkg listing s name file with
    | .error e => .error e
    | .ok s => loadAll pkg byKey listing rest (copyMembers pkg byKey name s)

/-- the first `import pkg` -/
def importPackage (pkg : String) (byKey : Bool) (listing : List (String × PluginFile)) (s : Interp) : Except Err Interp :=
  loadAll pkg byKey listing listing { s with modules := Dict.set s.modules pkg (moduleAttrs pkg (filePath pkg "__init__") []), exported := [] }

/-- an attribute of the package -/
def pkgAttr (pkg : String) (s : Interp) (attr : String) : Option Obj := Dict.get? ((Dict.get? s.modules pkg).getD []) attr

/-- the string an attribute is -/
def strOf : Option Obj → String
  | some (.str s) => s
  | _ => ""

/-- the import that `from pkg import attr` tries for a missing attribute: of `attr` below the module that `pkg.__name__` names. Only the package itself has
a path to search; a `ModuleNotFoundError` is ignored (importlib `_handle_fromlist`). -/
def tryImport (pkg : String) (listing : List (String × PluginFile)) (s : Interp) (own attr : String) : Interp :=
  if own = pkg then match importFull pkg listing s attr with
    | .ok s => s
    | .error _ => s
  else s

/-- `from pkg import attr`: the attribute; else after the attempt to import it, the attribute or what `sys.modules` has under `pkg.__name__` and the name;
else `ImportError` -/
def fromPackage (pkg : String) (listing : List (String × PluginFile)) (s : Interp) (attr : String) : Except Err (Interp × Obj) :=
  match pkgAttr pkg s attr with
  | some o => .ok (s, o)
  | none =>
    let own := strOf (pkgAttr pkg s "__name__")
    let s := tryImport pkg listing s own attr
    match pkgAttr pkg s attr with
    | some o => .ok (s, o)
    | none => match Dict.get? s.modules (fullName own attr) with
      | some _ => .ok (s, .mod (fullName own attr))
      | none => .error .importError

/-- `from pkg import *` in a module with the names `ns` -/
def starImport (pkg : String) (s : Interp) (ns : Namespace) : Namespace :=
  s.exported.foldl (fun ns n => match pkgAttr pkg s n with | some o => Dict.set ns n o | none => ns) ns

/-- names imported from outside the package -/
def outside (names : List String) : List Plain := names.map fun n => .bind n (.ext n)

/-- the modules of `waveform_reducers` -/
def reducerFiles : List (String × PluginFile) :=
  [("average_wf", .code (outside ["WaveformReducer", "column", "np"] ++ [.define "AverageWF"])),
   ("common", .code (outside ["WaveformReducer", "column", "np"] ++ [.define "Common"])),
   ("cross_correlation", .code (outside ["WaveformReducer", "column", "np", "interpolate", "get_ctapipe_camera_geometry", "correlate1d", "guvectorize", "float64",
     "float32", "int64"] ++ [.define "extract_pulse_time", .define "CrossCorrelation", .define "CrossCorrelationLocal", .define "CrossCorrelationNeighbour"])),
   ("ctapipe_integrators", .code (outside ["WaveformReducer", "column", "get_ctapipe_camera_geometry"] ++
     [.define "CtapipeLocalPeakIntegrator", .define "CtapipeNeighbourPeakIntegrator"])),
   ("flag_flasher", .code (outside ["WaveformReducer", "column", "np", "os", "time"] ++ [.define "FlagFlashers"])),
   ("nnls_pulse_extraction", .code (outside ["WaveformReducer", "column", "get_file", "np", "interpolate", "nnls", "jit", "scipy"] ++
     [.define "NNLSPulseExtraction", .define "nnls"])),
   ("saturation", .code (outside ["WaveformReducer", "column", "np"] ++ [.define "Saturation"])),
   ("sliding_window", .code (outside ["WaveformReducer", "column", "np", "get_ctapipe_camera_geometry", "correlate1d"] ++
     [.define "SlidingWindow", .define "SlidingWindowLocal", .define "SlidingWindowNeighbour"])),
   ("superpixel", .code (outside ["WaveformReducer", "column", "np"] ++ [.define "SPAmplitude"])),
   ("timing", .code (outside ["WaveformReducer", "column", "np", "njit", "prange", "float64", "float32", "int64"] ++
     [.define "obtain_pulse_timing", .define "Timing"]))]

/-- the modules of `spectrum_fitters` -/
def fitterFiles : List (String × PluginFile) :=
  [("gentile", .code (outside ["np", "njit", "exp", "pow", "sqrt", "binom", "poisson", "normal_pdf", "poisson_logpmf", "SpectrumFitter", "SpectrumParameter",
     "SpectrumParameterCollection"] ++ [.define "SiPMGentileFitter", .define "calculate_spectrum", .define "sipm_gentile_spe"])),
   ("mapm", .code (outside ["np", "njit", "exp", "sqrt", "poisson", "normal_pdf", "poisson_logpmf", "SpectrumFitter", "SpectrumParameter",
     "SpectrumParameterCollection"] ++ [.define "MAPMFitter", .define "calculate_spectrum", .define "mapm_spe"])),
   ("tests", .code []),
   ("tests.test_gentile", .test [("gentile", "sipm_gentile_spe"), ("gentile", "calculate_spectrum"), ("gentile", "SiPMGentileFitter"), ("gentile", "SpectrumParameter")]
     (outside ["np", "assert_allclose", "typed"] ++ [.define "test_sipm_gentile_spe", .define "test_calculate_spectrum", .define "test_sipm_gentile_fitter"])),
   ("tests.test_mapm", .test [("mapm", "mapm_spe"), ("mapm", "calculate_spectrum"), ("mapm", "MAPMFitter"), ("mapm", "SpectrumParameter")]
     (outside ["np", "assert_allclose", "typed"] ++ [.define "test_mapm_spe", .define "test_calculate_spectrum", .define "test_mapm_fitter"]))]

/-- the names of the packages -/
def reducerPackage : String := "CHECLabPy.waveform_reducers"
def fitterPackage : String := "CHECLabPy.spectrum_fitters"

end Verif.Model
