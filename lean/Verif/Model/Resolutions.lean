import Verif.Py.Basic
import Verif.Py.Unique
import Mathlib.Data.Rat.Defs
import Mathlib.Algebra.Order.Ring.Rat
import Mathlib.Data.Prod.Lex
import Mathlib.Analysis.Real.Sqrt

/-!
# `utils/resolutions.py`

Numbers are exact rationals; a measured charge may be missing (NaN), written `none`. A data frame is the list of its rows;
`none` stands for the frame without columns the object starts with. `mem` is the memory size of a frame (arbitrary).
`groupby(keys).sum()` yields one row per distinct key in ascending order; NaNs are skipped in the sums (pandas). The
values of the group keys are assumed not to be NaN.
-/

namespace Verif.Model

open Verif.Py

/-- rows with the same group key are summed -/
structure ResRow where
  pixel : Int
  key : ℚ
  sum : Option ℚ
  sum2 : Option ℚ
  n : Nat
  deriving DecidableEq

/-- sum of a column, NaN skipped -/
def nanSum (l : List (Option ℚ)) : ℚ := (l.map fun x => x.getD 0).sum

/-- order of the group keys of `groupby(['pixel', 'true'])` -/
abbrev ResKey := Int ×ₗ ℚ

def ResRow.resKey (r : ResRow) : ResKey := toLex (r.pixel, r.key)

/-- `df.groupby(['pixel', 'true']).sum().reset_index()` (`utils/resolutions.py:90,193`) -/
def groupByPixel (rows : List ResRow) : List ResRow :=
  (unique (rows.map ResRow.resKey)).map fun k =>
    let g := rows.filter fun r => r.resKey = k
    { pixel := (ofLex k).1, key := (ofLex k).2, sum := some (nanSum (g.map (·.sum))), sum2 := some (nanSum (g.map (·.sum2))),
      n := (g.map (·.n)).sum }

/-- `df.groupby('true').sum().reset_index()` (`utils/resolutions.py:120,218`); the column `pixel` is dropped afterwards -/
def groupByKey (rows : List ResRow) : List ResRow :=
  (unique (rows.map (·.key))).map fun k =>
    let g := rows.filter fun r => r.key = k
    { pixel := 0, key := k, sum := some (nanSum (g.map (·.sum))), sum2 := some (nanSum (g.map (·.sum2))), n := (g.map (·.n)).sum }

/-- attributes of `ChargeResolution` / `ChargeStatistics` -/
structure ResState where
  dfList : List (List ResRow)
  df : Option (List ResRow)
  nBytes : Nat

/-- `__init__` (`utils/resolutions.py:37-41,157-160`) -/
def ResState.init : ResState := ⟨[], none, 0⟩

/-- `_amalgamate` (`utils/resolutions.py:84-92,187-195`): grouping a frame without columns raises `KeyError` -/
def amalgamate (s : ResState) : Except Err ResState :=
  match s.df, s.dfList with
  | none, [] => .error .keyError
  | df, l => .ok ⟨[], some (groupByPixel (df.getD [] ++ l.flatten)), 0⟩

/-- `add` with the frame of the new entries (`utils/resolutions.py:79-82,182-185`); the limit is 1e9 bytes -/
def addFrame (mem : List ResRow → Nat) (s : ResState) (df : List ResRow) : Except Err ResState :=
  let s : ResState := { s with dfList := s.dfList ++ [df], nBytes := s.nBytes + mem df }
  if s.nBytes > 1000000000 then amalgamate s else .ok s

/-- an entry: pixel, true charge (or amplitude), measured charge (`none`: NaN) -/
structure ChargeEntry where
  pixel : Int
  key : ℚ
  measured : Option ℚ
  deriving DecidableEq

/-- the frame of `ChargeResolution.add` (`utils/resolutions.py:72-78`) -/
def resolutionRow (e : ChargeEntry) : ResRow :=
  ⟨e.pixel, e.key, e.measured.map fun m => (m - e.key) ^ 2, none, 1⟩

/-- the frame of `ChargeStatistics.add` (`utils/resolutions.py:175-181`) -/
def statisticsRow (e : ChargeEntry) : ResRow :=
  ⟨e.pixel, e.key, e.measured, e.measured.map fun m => m ^ 2, 1⟩

/-- `np.sqrt`: NaN for negative numbers -/
noncomputable def npSqrt (q : ℚ) : Option ℝ := if q < 0 then none else some (Real.sqrt q)

/-- what is below the square root of the resolution: `charge_res_abs` or `rmse_abs` (`utils/resolutions.py:43-57`) -/
def resolutionSquare (mcTrue : Bool) (r : ResRow) : ℚ := if mcTrue then r.sum.getD 0 / r.n + r.key else r.sum.getD 0 / r.n

/-- a row of the results of `ChargeResolution.finish`: the group row, the absolute resolution and the resolution -/
structure ResolutionRow where
  row : ResRow
  abs : Option ℝ
  rel : Option ℝ

/-- the columns `charge_resolution_abs`, `charge_resolution` (`utils/resolutions.py:114-119,125-130`) -/
noncomputable def resolutionColumns (mcTrue : Bool) (r : ResRow) : ResolutionRow :=
  let a := npSqrt (resolutionSquare mcTrue r)
  ⟨r, a, a.map fun x => x / |(r.key : ℝ)|⟩

/-- `ChargeResolution.finish` (`utils/resolutions.py:94-132`): the new state, the table per pixel and that of the camera -/
noncomputable def finishResolution (mcTrue : Bool) (s : ResState) : Except Err (ResState × List ResolutionRow × List ResolutionRow) :=
  match amalgamate s with
  | .error e => .error e
  | .ok s =>
    let df := (s.df.getD []).filter fun r => r.key ≠ 0
    .ok ({ s with df := some df }, df.map (resolutionColumns mcTrue), (groupByKey df).map (resolutionColumns mcTrue))

/-- a row of the results of `ChargeStatistics.finish` -/
structure StatisticsRow where
  row : ResRow
  mean : ℚ
  std : Option ℝ

/-- mean and variance of a group row (`utils/resolutions.py:214-215,223-224`) -/
def rowMean (r : ResRow) : ℚ := r.sum.getD 0 / r.n
def rowVariance (r : ResRow) : ℚ := r.sum2.getD 0 / r.n - rowMean r ^ 2

noncomputable def statisticsColumns (r : ResRow) : StatisticsRow := ⟨r, rowMean r, npSqrt (rowVariance r)⟩

/-- `ChargeStatistics.finish` (`utils/resolutions.py:197-227`) -/
noncomputable def finishStatistics (s : ResState) : Except Err (ResState × List StatisticsRow × List StatisticsRow) :=
  match amalgamate s with
  | .error e => .error e
  | .ok s =>
    let df := s.df.getD []
    .ok (s, df.map statisticsColumns, (groupByKey df).map statisticsColumns)

/-! ## sessions: any sequence of `add` and `finish` calls on one object -/

inductive ResOp
  | add (entries : List ChargeEntry)
  | finish

/-- a sequence of calls on a `ChargeResolution` -/
noncomputable def runResolution (mem : List ResRow → Nat) (mcTrue : Bool) : ResState → List ResOp → Except Err ResState
  | s, [] => .ok s
  | s, .add es :: ops => match addFrame mem s (es.map resolutionRow) with
    | .error e => .error e
    | .ok s => runResolution mem mcTrue s ops
  | s, .finish :: ops => match finishResolution mcTrue s with
    | .error e => .error e
    | .ok (s, _, _) => runResolution mem mcTrue s ops

/-- a sequence of calls on a `ChargeStatistics` -/
noncomputable def runStatistics (mem : List ResRow → Nat) : ResState → List ResOp → Except Err ResState
  | s, [] => .ok s
  | s, .add es :: ops => match addFrame mem s (es.map statisticsRow) with
    | .error e => .error e
    | .ok s => runStatistics mem s ops
  | s, .finish :: ops => match finishStatistics s with
    | .error e => .error e
    | .ok (s, _, _) => runStatistics mem s ops

end Verif.Model
