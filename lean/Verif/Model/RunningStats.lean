import Verif.Py.Basic
import Verif.Py.Unique
import Mathlib.Data.Rat.Defs
import Mathlib.Algebra.Order.Ring.Rat
import Mathlib.Algebra.Order.Field.Rat
import Mathlib.Algebra.Group.Prod
import Mathlib.Algebra.BigOperators.Group.List.Defs

/-!
# The running statistics of `examples/pandas_cookbook.py` (`get_running_mean`, lines 129-192)

Numbers are exact rationals; a charge may be missing (NaN), written `none`. `mem` is the memory size of a frame (arbitrary). `groupby(['tm']).sum()` yields one row per
module in ascending order; NaN is skipped in the sums (pandas). The square root of the column `std` is not taken: `variance` is what is below it.
-/

namespace Verif.Model

open Verif.Py

/-- a row of the table of an event: pixel and charge -/
structure PixelCharge where
  pixel : Int
  charge : Option ℚ
  deriving DecidableEq

/-- a row of the frames: module, and the columns `sum`, `sum2` and `n` -/
structure ModuleSums where
  tm : Int
  sums : ℚ × ℚ × ℕ
  deriving DecidableEq

/-- the frame of one event (`examples/pandas_cookbook.py:147-157`) -/
def tmRow (e : PixelCharge) : ModuleSums := ⟨e.pixel / 64, e.charge.getD 0, e.charge.getD 0 ^ 2, 1⟩

/-- `groupby(['tm']).sum().reset_index()` (`examples/pandas_cookbook.py:165`) -/
def groupByTm (rows : List ModuleSums) : List ModuleSums :=
  (unique (rows.map ModuleSums.tm)).map fun k => ⟨k, ((rows.filter fun r => r.tm = k).map ModuleSums.sums).sum⟩

/-- attributes of `RunningStats` (`examples/pandas_cookbook.py:141-145`); `none` is the frame without columns -/
structure RunningStats where
  dfList : List (List ModuleSums)
  df : Option (List ModuleSums)
  nBytes : Nat

def RunningStats.init : RunningStats := ⟨[], none, 0⟩

/-- `amalgamate` (`examples/pandas_cookbook.py:163-167`): grouping a frame without columns raises `KeyError` -/
def amalgamateTm (s : RunningStats) : Except Err RunningStats :=
  match s.df, s.dfList with
  | none, [] => .error .keyError
  | df, l => .ok ⟨[], some (groupByTm (df.getD [] ++ l.flatten)), 0⟩

/-- `add` (`examples/pandas_cookbook.py:147-161`); the limit is 0.5e9 bytes -/
def addEvent (mem : List ModuleSums → Nat) (s : RunningStats) (event : List PixelCharge) : Except Err RunningStats :=
  let df := event.map tmRow
  let s : RunningStats := ⟨s.dfList ++ [df], s.df, s.nBytes + mem df⟩
  if s.nBytes > 500000000 then amalgamateTm s else .ok s

/-- a row of the result -/
structure RunningRow where
  tm : Int
  sum : ℚ
  sum2 : ℚ
  n : ℕ
  mean : ℚ
  variance : ℚ
  deriving DecidableEq

/-- the columns `mean` and `std` (`examples/pandas_cookbook.py:172-178`) -/
def runningRow (r : ModuleSums) : RunningRow :=
  let mean := r.sums.1 / r.sums.2.2
  ⟨r.tm, r.sums.1, r.sums.2.1, r.sums.2.2, mean, r.sums.2.1 / r.sums.2.2 - mean ^ 2⟩

/-- `finish` (`examples/pandas_cookbook.py:169-179`) -/
def finishRunning (s : RunningStats) : Except Err (List RunningRow) :=
  match amalgamateTm s with
  | .error e => .error e
  | .ok s => .ok ((s.df.getD []).map runningRow)

/-- the loop over the events (`examples/pandas_cookbook.py:181-184`) -/
def runEvents (mem : List ModuleSums → Nat) : RunningStats → List (List PixelCharge) → Except Err RunningStats
  | s, [] => .ok s
  | s, e :: es => match addEvent mem s e with
    | .error err => .error err
    | .ok s => runEvents mem s es

/-- the table of running statistics (`examples/pandas_cookbook.py:181-185`) -/
def runningTable (mem : List ModuleSums → Nat) (events : List (List PixelCharge)) : Except Err (List RunningRow) :=
  match runEvents mem .init events with
  | .error e => .error e
  | .ok s => finishRunning s

/-- mean of the charges of a module as pandas calculates it: NaN is skipped, and nothing has the mean NaN -/
def pandasMean (xs : List ℚ) : Option ℚ := if xs = [] then none else some (xs.sum / xs.length)

/-- what is below the root of pandas' standard deviation: divided by one less than the number -/
def pandasVariance (xs : List ℚ) : Option ℚ :=
  if xs.length ≤ 1 then none else some ((xs.map fun x => (x - xs.sum / xs.length) ^ 2).sum / (xs.length - 1))

/-- the charges of a module in the whole table -/
def tmCharges (table : List PixelCharge) (tm : Int) : List ℚ := (table.filter fun e => e.pixel / 64 = tm).filterMap PixelCharge.charge

/-- the columns `pd_mean` and `pd_std` beside the table (`examples/pandas_cookbook.py:187-191`): the columns of pandas are indexed by module, the table by
the number of its row -/
def comparison (table : List PixelCharge) (rows : List RunningRow) : List (RunningRow × Option ℚ × Option ℚ) :=
  rows.zipIdx.map fun ri => (ri.1, pandasMean (tmCharges table ri.2), pandasVariance (tmCharges table ri.2))

end Verif.Model
