import Verif.Py.Decimal
import Verif.Py.Hist
import Verif.Py.Array

/-!
# `core/spectrum_fitter.py`

Numbers are exact rationals. The minimiser (`iminuit`) and the shape of the spectrum (`_get_spectra`, in the subclasses) are parameters. Parameter
objects are values in the list of the collection: `getattr(self, name)` is the entry of the list with that name (names are distinct in every use).
Rounding to 32 bits is not modelled.
-/

namespace Verif.Model

open Verif.Py

/-- `SpectrumParameter` (`core/spectrum_fitter.py:11-24`) -/
structure SpecParam where
  name : String
  initial : ℚ
  limits : ℚ × ℚ
  fixed : Bool := false
  multi : Bool := false
  deriving DecidableEq

/-- a value among the keyword arguments of the minimiser -/
inductive KwVal
  | start (x : ℚ)
  | limits (l : ℚ × ℚ)
  | fixed (b : Bool)
  deriving DecidableEq

/-- what `_prepare_parameters` computes: `parameter_names`, `minuit_kwargs`, `lookup` and the running number of slots -/
structure Prepared where
  names : List String
  kwargs : Dict String KwVal
  lookup : List (Dict String Nat)
  next : Nat
  deriving DecidableEq

/-- `param.name + str(i)` -/
def numbered (name : String) (i : Nat) : String := name ++ String.ofList (decimal i)

/-- the name of a fit parameter is registered with its initial value, limits and flag (`core/spectrum_fitter.py:84-87`, `94-97`) -/
def addName (p : SpecParam) (name : String) (s : Prepared) : Prepared :=
  { s with
    names := s.names ++ [name]
    kwargs := (((s.kwargs.set name (.start p.initial)).set ("limit_" ++ name) (.limits p.limits)).set ("fix_" ++ name) (.fixed p.fixed)) }

/-- one pass of the loop over the illuminations for a multi parameter (`core/spectrum_fitter.py:92-99`) -/
def addMulti (p : SpecParam) (s : Prepared) (i : Nat) : Prepared :=
  let s := addName p (numbered p.name i) s
  { s with lookup := s.lookup.modify i fun d => d.set p.name s.next, next := s.next + 1 }

/-- one pass of the loop over the parameters (`core/spectrum_fitter.py:81-99`) for `n` illuminations -/
def addParam (n : Nat) (s : Prepared) (p : SpecParam) : Prepared :=
  if ¬ p.multi then
    let s := addName p p.name s
    { s with lookup := s.lookup.map fun d => d.set p.name s.next, next := s.next + 1 }
  else (List.range n).foldl (addMulti p) s

/-- `_prepare_parameters` (`core/spectrum_fitter.py:74-99`) -/
def prepareParams (n : Nat) (params : List SpecParam) : Prepared :=
  params.foldl (addParam n) ⟨[], [], List.replicate n [], 0⟩

/-- `SpectrumParameterCollection` -/
structure Collection where
  n : Nat
  params : List SpecParam
  prep : Prepared
  typed : Option (List (Dict String Nat))

/-- `SpectrumParameterCollection.__init__` (`core/spectrum_fitter.py:38-44`) -/
def Collection.new (n : Nat) (params : List SpecParam) : Collection := ⟨n, params, prepareParams n params, none⟩

/-- the property `lookup_typed` (`core/spectrum_fitter.py:52-72`) -/
def Collection.lookupTyped (c : Collection) : Collection × List (Dict String Nat) :=
  match c.typed with
  | some t => (c, t)
  | none => ({ c with typed := some c.prep.lookup }, c.prep.lookup)

/-- lines 111-114: the attributes of the parameter with this name are replaced; `none` is `AttributeError` -/
def replaceParam (params : List SpecParam) (p : SpecParam) : Option (List SpecParam) :=
  if p.name ∈ params.map (·.name) then some (params.map fun q => if q.name = p.name then p else q) else none

/-- the loop of `update`: the parameters are replaced one after another until one is unknown -/
def replaceParams : List SpecParam → List SpecParam → List SpecParam × Bool
  | params, [] => (params, true)
  | params, p :: ps => match replaceParam params p with
    | none => (params, false)
    | some params => replaceParams params ps

/-- `update(spectrum_parameter_list)` (`core/spectrum_fitter.py:101-116`) -/
def Collection.update (c : Collection) (ps : List SpecParam) : Collection × Option Err :=
  match replaceParams c.params ps with
  | (params, false) => ({ c with params := params }, some .attributeError)
  | (params, true) => ({ c with params := params, prep := prepareParams c.n params, typed := none }, none)

/-! ## The fitter -/

/-- `SpectrumFitter` -/
structure Fitter where
  coll : Collection
  nBins : Nat
  range : ℚ × ℚ
  histX : Option (List ℚ)
  histY : Option (List (List ℚ))
  edges : Option (List ℚ)
  values : Option (Dict String ℚ)

/-- `SpectrumFitter.__init__` (`core/spectrum_fitter.py:130-141`) with the parameters of a subclass -/
def Fitter.new (n : Nat) (params : List SpecParam) (nBins : Nat) (range : ℚ × ℚ) : Fitter :=
  ⟨Collection.new n params, nBins, range, none, none, none, none⟩

/-- the content of a YAML configuration: a section may be missing (`none`), empty (`some none`) or a dictionary -/
structure SpecConfig where
  nBins : Option Nat
  range : Option (ℚ × ℚ)
  initial : Option (Option (Dict String ℚ))
  limits : Option (Option (Dict String (ℚ × ℚ)))
  fixed : Option (Option (Dict String Bool))
  deriving DecidableEq

/-- `d[section].pop(name, old)` in a section that is there: the value and what remains; `none` is `AttributeError` on an empty section -/
def popSection {α : Type} (s : Option (Option (Dict String α))) (name : String) (old : α) : Option (α × Option (Option (Dict String α))) :=
  match s with
  | none => some (old, none)
  | some none => none
  | some (some d) => some ((d.get? name).getD old, some (some (d.erase name)))

/-- the loop of `load_config` over the parameters (`core/spectrum_fitter.py:158-164`): the parameters, what remains of the configuration, and whether
it was completed -/
def loadParams : SpecConfig → List SpecParam → List SpecParam × SpecConfig × Bool
  | c, [] => ([], c, true)
  | c, p :: ps =>
    match popSection c.initial p.name p.initial with
    | none => (p :: ps, c, false)
    | some (v, rest) =>
      let p := { p with initial := v }
      let c := { c with initial := rest }
      match popSection c.limits p.name p.limits with
      | none => (p :: ps, c, false)
      | some (v, rest) =>
        let p := { p with limits := v }
        let c := { c with limits := rest }
        match popSection c.fixed p.name p.fixed with
        | none => (p :: ps, c, false)
        | some (v, rest) =>
          let p := { p with fixed := v }
          let c := { c with fixed := rest }
          match loadParams c ps with
          | (ps, c, ok) => (p :: ps, c, ok)

/-- a section that is empty after the loop is dropped (`core/spectrum_fitter.py:165-170`) -/
def dropEmpty {α : Type} (s : Option (Option (Dict String α))) : Option (Option (Dict String α)) :=
  match s with
  | some (some []) => none
  | some none => none
  | s => s

/-- whether something is left over, so that a warning is printed (`core/spectrum_fitter.py:165-172`); unknown sections are not modelled -/
def unusedEntries (c : SpecConfig) : Bool :=
  (dropEmpty c.initial).isSome || (dropEmpty c.limits).isSome || (dropEmpty c.fixed).isSome

/-- `load_config` (`core/spectrum_fitter.py:143-172`); `none` is an empty file. The result says whether a warning was printed. -/
def Fitter.loadConfig (f : Fitter) (config : Option SpecConfig) : Fitter × Except Err Bool :=
  match config with
  | none => (f, .ok false)
  | some c => match loadParams c f.coll.params with
    | (params, rest, ok) =>
      let f := { f with nBins := c.nBins.getD f.nBins, range := c.range.getD f.range, coll := { f.coll with params := params } }
      (f, if ok then .ok (unusedEntries rest) else .error .attributeError)

/-- `save_config` (`core/spectrum_fitter.py:174-199`): the dictionary written to the file -/
def Fitter.saveConfig (f : Fitter) : SpecConfig :=
  ⟨some f.nBins, some f.range, some (some (f.coll.params.foldl (fun d p => Dict.set d p.name p.initial) [])),
   some (some (f.coll.params.foldl (fun d p => Dict.set d p.name p.limits) [])),
   some (some (f.coll.params.foldl (fun d p => Dict.set d p.name p.fixed) []))⟩

/-- the loop of `update_initial` (`core/spectrum_fitter.py:250-254`) -/
def replaceInitial (values : Dict String ℚ) (illumination : Nat) : List SpecParam → List SpecParam × Bool
  | [] => ([], true)
  | p :: ps => match values.get? (if p.multi then numbered p.name illumination else p.name) with
    | none => (p :: ps, false)
    | some v => match replaceInitial values illumination ps with
      | (ps, ok) => ({ p with initial := v } :: ps, ok)

/-- `update_initial(illumination)` (`core/spectrum_fitter.py:239-254`) -/
def Fitter.updateInitial (f : Fitter) (illumination : Nat) : Fitter × Option Err :=
  match f.values with
  | none => (f, some .valueError)
  | some values => match replaceInitial values illumination f.coll.params with
    | (params, ok) => ({ f with coll := { f.coll with params := params } }, if ok then none else some .keyError)

/-- the outer edges `np.histogram` uses for a range: a range without width is widened by half a unit on both sides -/
def outerEdges (range : ℚ × ℚ) : ℚ × ℚ := if range.1 = range.2 then (range.1 - 1 / 2, range.2 + 1 / 2) else range

/-- `np.histogram_bin_edges` for a number of bins and the outer edges -/
def histEdges (nBins : Nat) (range : ℚ × ℚ) : List ℚ :=
  (List.range (nBins + 1)).map fun (k : Nat) => range.1 + (k : ℚ) * (range.2 - range.1) / nBins

/-- the counts of `np.histogram(charges, bins=n_bins, range=range)` for outer edges `range[0] < range[1]` and at least one bin -/
def histCounts (nBins : Nat) (range : ℚ × ℚ) (charges : List ℚ) : List ℚ :=
  (binsOf (histEdges nBins range)).map fun bin => ((charges.filter fun x => inBin bin x).length : ℚ)

/-- `(edges[1:] + edges[:-1]) / 2` -/
def midpoints : List ℚ → List ℚ
  | a :: b :: rest => (b + a) / 2 :: midpoints (b :: rest)
  | _ => []

/-- what the minimiser is given: initial values, limits, flags, names of the parameters, the histogram and the lookup -/
structure FitRequest where
  kwargs : Dict String KwVal
  names : List String
  histX : List ℚ
  histY : List (List ℚ)
  lookup : List (Dict String Nat)

/-- `apply(*charges)` (`core/spectrum_fitter.py:256-293`): the new state and the request. `minimise` stands for the minimiser, which may raise (it is told
to raise on NaN, line 284); the errors of the parameters are not part of the state (see `FitEngine`). A decreasing range or no bins make `np.histogram`
raise `ValueError`. Simplification: a fitter without illuminations, for which the code leaves positions and edges as they are, is given them here. -/
def Fitter.apply (minimise : FitRequest → Except Err (Dict String ℚ)) (f : Fitter) (charges : List (List ℚ)) : Fitter × Except Err FitRequest :=
  if charges.length ≠ f.coll.n then (f, .error .assertionError)
  else if 0 < f.coll.n ∧ ¬ (0 < f.nBins ∧ f.range.1 ≤ f.range.2) then ({ f with histY := some [] }, .error .valueError)
  else
    let edges := histEdges f.nBins (outerEdges f.range)
    let histY := charges.map (histCounts f.nBins (outerEdges f.range))
    match f.coll.lookupTyped with
    | (coll, lookup) =>
      let request : FitRequest := ⟨f.coll.prep.kwargs, f.coll.prep.names, midpoints edges, histY, lookup⟩
      let f := { f with
        coll := coll
        histX := some (midpoints edges)
        histY := some histY
        edges := some edges }
      match minimise request with
      | .error e => (f, .error e)
      | .ok values => ({ f with values := some values }, .ok request)

/-- `np.trapz(y, x)` -/
def trapzXY : List ℚ → List ℚ → ℚ
  | y0 :: y1 :: ys, x0 :: x1 :: xs => (x1 - x0) * (y0 + y1) / 2 + trapzXY (y1 :: ys) (x1 :: xs)
  | _, _ => 0

/-- the body of the loop of `fit_result_curve` (`core/spectrum_fitter.py:222-223`): a spectrum scaled to the area of the histogram; dividing by an area
of zero gives infinities or NaN (`none`) -/
def scaleCurve (histX histY fitX fitY : List ℚ) : Option (List ℚ) :=
  let area := trapzXY fitY fitX
  if area = 0 then none else some (fitY.map fun y => y * (trapzXY histY histX / area))

/-- `np.linspace(lo, hi, n)` -/
def linspace (lo hi : ℚ) (n : Nat) : List ℚ := (List.range n).map fun (k : Nat) => lo + (k : ℚ) * (hi - lo) / ((n : ℚ) - 1)

/-- `fit_result_curve` (`core/spectrum_fitter.py:201-224`); `spectra x lookup values` is `_get_spectra`. Before the first fit there are no values:
`AttributeError`. A missing histogram, as left by a fit that failed at its range, or a missing spectrum raises `IndexError`. -/
def Fitter.curve (spectra : List ℚ → List (Dict String Nat) → List ℚ → List (List ℚ)) (f : Fitter) : Except Err (List ℚ × List (Option (List ℚ))) :=
  match f.values, f.histX, f.histY with
  | some values, some histX, some histY =>
    let fitX := linspace f.range.1 f.range.2 (f.nBins * 10)
    let fitY := spectra fitX f.coll.lookupTyped.2 (values.map (·.2))
    if histY.length < f.coll.n ∨ fitY.length < f.coll.n then .error .indexError
    else .ok (fitX, List.zipWith (fun h y => scaleCurve histX h fitX y) histY fitY)
  | _, _, _ => .error .attributeError

end Verif.Model
