import Mathlib.Data.List.Basic

/-!
# Python primitives used by the model

Semantics of the Python language and of numpy that CHECLabPy relies on.  These definitions model the *language*,
not `/repo`; they follow the Python reference (slice objects, `range`, dictionaries).
-/

namespace Verif.Py

/-- Exceptions that the modelled code can raise, as values. -/
inductive Err
  | indexError | keyError | valueError | typeError | attributeError | memoryError
  | zeroDivision | ioError | structError | fileNotFound | assertionError | unicodeError | runtimeError | importError
  deriving DecidableEq, Repr

/-- A Python `slice` object: `start`, `stop`, `step`, each possibly `None`. -/
structure Slice where
  start : Option Int
  stop : Option Int
  step : Option Int
  deriving DecidableEq, Repr

/-- `slice.indices(n)` as in CPython (`PySlice_GetLongIndices`): clamps `start` and `stop` to the sequence length,
raises `ValueError` for a negative length or a zero step. -/
def Slice.indices (s : Slice) (n : Int) : Except Err (Int × Int × Int) :=
  if n < 0 then .error .valueError
  else
    let step := s.step.getD 1
    if step = 0 then .error .valueError
    else
      let lower : Int := if step < 0 then -1 else 0
      let upper : Int := if step < 0 then n - 1 else n
      let clamp (v : Int) : Int :=
        if v < 0 then max (v + n) lower else min v upper
      let start := match s.start with
        | none => if step < 0 then upper else lower
        | some v => clamp v
      let stop := match s.stop with
        | none => if step < 0 then lower else upper
        | some v => clamp v
      .ok (start, stop, step)

/-- Number of elements of `range(start, stop, step)` (CPython `compute_range_length`). -/
def rangeLen (start stop step : Int) : Nat :=
  if step > 0 then
    if start < stop then ((stop - start - 1) / step + 1).toNat else 0
  else if step < 0 then
    if stop < start then ((start - stop - 1) / (-step) + 1).toNat else 0
  else 0

/-- `list(range(start, stop, step))`. -/
def range (start stop step : Int) : List Int :=
  (List.range (rangeLen start stop step)).map fun (i : Nat) => start + (i : Int) * step

/-- Clamping of one bound of a basic slice `xs[a:b]` (step 1) on a sequence of length `n`. -/
def clampIndex (n : Nat) (v : Int) : Nat :=
  if v < 0 then (v + n).toNat else min v.toNat n

/-- `xs[a:b]` for a sequence, with `None` bounds as `none` (step 1). -/
def sliceList {α : Type _} (xs : List α) (a b : Option Int) : List α :=
  let n := xs.length
  let i := match a with | none => 0 | some v => clampIndex n v
  let j := match b with | none => n | some v => clampIndex n v
  (xs.drop i).take (j - i)

/-- `xs[i]` for an integer index (negative indices wrap once; otherwise `IndexError`). -/
def getIndex {α : Type _} (xs : List α) (i : Int) : Except Err α :=
  let j := if i < 0 then i + xs.length else i
  if j < 0 then .error .indexError
  else match xs[j.toNat]? with
    | some x => .ok x
    | none => .error .indexError

/-- A Python dictionary: association list in insertion order. -/
abbrev Dict (κ ν : Type _) := List (κ × ν)

namespace Dict

variable {κ ν : Type _} [DecidableEq κ]

/-- `d.get(k)` (`none` when absent). -/
def get? : Dict κ ν → κ → Option ν
  | [], _ => none
  | (k', v) :: d, k => if k' = k then some v else get? d k

/-- `d[k] = v`: replaces in place, or appends at the end. -/
def set : Dict κ ν → κ → ν → Dict κ ν
  | [], k, v => [(k, v)]
  | (k', v') :: d, k, v => if k' = k then (k, v) :: d else (k', v') :: set d k v

/-- `{**a, **b}` / `a.update(b)`: entries of `b` are set one after another into `a`. -/
def update (a b : Dict κ ν) : Dict κ ν := b.foldl (fun d kv => set d kv.1 kv.2) a

/-- `d[k]`, raising `KeyError` when absent. -/
def getItem (d : Dict κ ν) (k : κ) : Except Err ν :=
  match get? d k with
  | some v => .ok v
  | none => .error .keyError

/-- the keys in insertion order -/
def keys (d : Dict κ ν) : List κ := d.map Prod.fst

/-- `del d[k]` / `d.pop(k, None)` -/
def erase : Dict κ ν → κ → Dict κ ν
  | [], _ => []
  | (k', v) :: d, k => if k' = k then d else (k', v) :: erase d k

end Dict

end Verif.Py
