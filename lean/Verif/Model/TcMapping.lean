import Verif.Model.Hdf5

/-!
# `utils/mapping.py:5-75`, `core/io/dl1_reader.py:83-94`: CHECLabPy mappings and TargetCalib mappings

`target_calib.Mapping` and `CameraConfiguration` are external: an object of the former is the list of the values of its getters.
-/

namespace Verif.Model

open Verif.Py

/-- what is read from a `target_calib.Mapping` (`utils/mapping.py:19-40`): the table of pixels and the values of the getters -/
structure TcMapping (ρ ν : Type) where
  pixels : List ρ
  cfgPath : String
  isSingleModule : Bool
  nPixels : Nat
  nModules : Nat
  nTmPix : Nat
  nSuperPixels : Nat
  nRows : Nat
  nColumns : Nat
  size : ν
  fOTUpRowL : ν
  fOTUpRowU : ν
  fOTUpColL : ν
  fOTUpColU : ν
  fOTUpXL : ν
  fOTUpXU : ν
  fOTUpYL : ν
  fOTUpYU : ν

variable {ρ ν : Type}

/-- a CHECLabPy mapping: a table of pixels with the dictionary `metadata` -/
abbrev ClpMapping (ρ ν : Type) := List ρ × MetaDict ν

/-- a Python `bool` among metadata values -/
def metaBool (b : Bool) : MetaVal ν := .int (if b then 1 else 0)

/-- `get_clp_mapping_from_tc_mapping` (`utils/mapping.py:5-41`) -/
def clpMapping (t : TcMapping ρ ν) : ClpMapping ρ ν :=
  (t.pixels,
   [("cfgfile", .str t.cfgPath), ("is_single_module", metaBool t.isSingleModule), ("n_pixels", .int t.nPixels), ("n_modules", .int t.nModules),
    ("n_tmpix", .int t.nTmPix), ("n_superpixels", .int t.nSuperPixels), ("n_rows", .int t.nRows), ("n_columns", .int t.nColumns), ("size", .obj t.size),
    ("fOTUpRow_l", .obj t.fOTUpRowL), ("fOTUpRow_u", .obj t.fOTUpRowU), ("fOTUpCol_l", .obj t.fOTUpColL), ("fOTUpCol_u", .obj t.fOTUpColU),
    ("fOTUpX_l", .obj t.fOTUpXL), ("fOTUpX_u", .obj t.fOTUpXU), ("fOTUpY_l", .obj t.fOTUpYL), ("fOTUpY_u", .obj t.fOTUpYU)])

/-- the attributes of a Python `dict` whose name does not start with an underscore: its methods -/
def dictMethods : List String :=
  ["clear", "copy", "fromkeys", "get", "items", "keys", "pop", "popitem", "setdefault", "update", "values"]

/-- what the attribute access `d.name` on a `dict` yields: a bound method, or `AttributeError`; the items of the dictionary are not attributes -/
def dictAttr (_d : MetaDict ν) (name : String) : Except Err String :=
  if name ∈ dictMethods then .ok name else .error .attributeError

/-- `get_tc_mapping_from_clp_mapping` (`utils/mapping.py:72-75`); `mapping` is the constructor of `target_calib.Mapping`, given the values of the two
attributes -/
def tcMappingFromClp {μ : Type} (mapping : String → String → Except Err μ) (m : ClpMapping ρ ν) : Except Err μ :=
  match dictAttr m.2 "cfgfile" with
  | .error e => .error e
  | .ok cfgfile => match dictAttr m.2 "is_single_module" with
    | .error e => .error e
    | .ok single => mapping cfgfile single

/-- `DL1Reader.tc_mapping` (`core/io/dl1_reader.py:86-94`); `configuration` is `CameraConfiguration(version).GetMapping(single)`, given the value of the
attribute and whether `n_modules` is 1 -/
def dl1TcMapping {μ : Type} (configuration : String → Bool → Except Err μ) (nModules : Except Err Int) (r : HReader ρ ν) : Except Err μ :=
  match getMapping r with
  | .error e => .error e
  | .ok m => match dictAttr m.2 "version" with
    | .error e => .error e
    | .ok v => match nModules with
      | .error e => .error e
      | .ok n => configuration v (n == 1)

end Verif.Model
