import Verif.Model.RunningStats

/-!
# Tables of statistics per module (`examples/pandas_cookbook.py:25-112`)

The whole table of a file, its columns `pixel` and `charge`; a charge may be missing (NaN), written `none`. Numbers are exact rationals, no square
root is taken: a standard deviation is given by its square. `groupby` yields the groups in ascending order of the module; statistics skip NaN.
-/

namespace Verif.Model

open Verif.Py

/-- `df.loc[df['tm'] == tm]` with `df['tm'] = df['pixel'] // 64` (`examples/pandas_cookbook.py:53-54`) -/
def selectModule (table : List PixelCharge) (tm : Int) : List PixelCharge := table.filter fun e => e.pixel / 64 = tm

/-- the modules of the groups, in order (`groupby('tm')`, `examples/pandas_cookbook.py:65`, `78`, `92`, `109`) -/
def tmKeys (table : List PixelCharge) : List Int := unique (table.map fun e => e.pixel / 64)

/-- `np.mean(df['charge'])` (`examples/pandas_cookbook.py:33`): of a column this is the method of pandas -/
def tableMean (table : List PixelCharge) : Option ℚ := pandasMean (table.filterMap PixelCharge.charge)

/-- `df.groupby('tm').mean().reset_index()` (`examples/pandas_cookbook.py:65`): module, mean pixel, mean charge -/
def meanPerTm (table : List PixelCharge) : List (Int × Option ℚ × Option ℚ) :=
  (tmKeys table).map fun k => (k, pandasMean ((selectModule table k).map fun e => (e.pixel : ℚ)), pandasMean (tmCharges table k))

/-- `min` and `max` of the values of a column: of nothing NaN -/
def columnMin : List ℚ → Option ℚ
  | [] => none
  | x :: xs => some (xs.foldl min x)

@[inherit_doc columnMin]
def columnMax : List ℚ → Option ℚ
  | [] => none
  | x :: xs => some (xs.foldl max x)

/-- `df[['tm', 'charge']].groupby('tm').agg(['mean', 'min', 'max'])` (`examples/pandas_cookbook.py:78`) -/
def multipleStatistics (table : List PixelCharge) : List (Int × Option ℚ × Option ℚ × Option ℚ) :=
  (tmKeys table).map fun k => (k, pandasMean (tmCharges table k), columnMin (tmCharges table k), columnMax (tmCharges table k))

/-- `agg(dict(pixel='first', charge='std'))` (`examples/pandas_cookbook.py:91-92`): module, pixel of the first row, square of the deviation -/
def differentStatistics (table : List PixelCharge) : List (Int × Option Int × Option ℚ) :=
  (tmKeys table).map fun k => (k, (selectModule table k).head?.map PixelCharge.pixel, pandasVariance (tmCharges table k))

/-- `np.std` of the table of a group (`examples/pandas_cookbook.py:110`): numpy calls the method of the table with `ddof=0`, NaN is skipped -/
def numpyVariance (xs : List ℚ) : Option ℚ :=
  if xs = [] then none else some ((xs.map fun x => (x - xs.sum / xs.length) ^ 2).sum / xs.length)

/-- the columns `pd` and `np` of the comparison (`examples/pandas_cookbook.py:109-111`): both are indexed by module -/
def stdComparison (table : List PixelCharge) : List (Int × Option ℚ × Option ℚ) :=
  (tmKeys table).map fun k => (k, pandasVariance (tmCharges table k), numpyVariance (tmCharges table k))

end Verif.Model
