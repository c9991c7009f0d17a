import Mathlib.Data.Rat.Defs
import Mathlib.Algebra.Order.Ring.Rat
import Mathlib.Algebra.Order.Field.Rat

/-!
# The interpolation helpers of `Timing` (`waveform_reducers/timing.py:133-147`)

Numbers are exact rationals; the results are floating point values, of which the infinities and NaN are kept: `Flt`. A difference that is zero is the positive
zero (rounding to nearest).
-/

namespace Verif.Model

/-- a floating point value -/
inductive Flt
  | fin (q : ℚ)
  | posInf
  | negInf
  | nan
  deriving DecidableEq

/-- division of two numbers (IEEE 754); a zero in the denominator is a positive zero -/
def fltDiv (a b : ℚ) : Flt := if b ≠ 0 then .fin (a / b) else if a > 0 then .posInf else if a < 0 then .negInf else .nan

/-- `c + x` for a number `c` -/
def fltAdd (c : ℚ) : Flt → Flt
  | .fin q => .fin (c + q)
  | .posInf => .posInf
  | .negInf => .negInf
  | .nan => .nan

/-- `-x` -/
def fltNeg : Flt → Flt
  | .fin q => .fin (-q)
  | .posInf => .negInf
  | .negInf => .posInf
  | .nan => .nan

/-- `c * x` for a number `c` -/
def fltMul (c : ℚ) : Flt → Flt
  | .fin q => .fin (c * q)
  | .posInf => if c > 0 then .posInf else if c < 0 then .negInf else .nan
  | .negInf => if c > 0 then .negInf else if c < 0 then .posInf else .nan
  | .nan => .nan

/-- one entry of `Timing.interpolate(x, x1, x2, y1, y2)` (`waveform_reducers/timing.py:135-138`) -/
def interpolateAt (x x1 x2 y1 y2 : ℚ) : Flt :=
  match fltAdd y1 (fltDiv ((y2 - y1) * (x - x1)) (x2 - x1)) with
  | .posInf => .fin y1
  | .negInf => .fin y1
  | y => y

/-- `Timing.interpolate` of arrays of one length, entry by entry (`x`, `x1`, `x2`, `y1`, `y2` of each entry) -/
def interpolate (entries : List (ℚ × ℚ × ℚ × ℚ × ℚ)) : List Flt :=
  entries.map fun e => interpolateAt e.1 e.2.1 e.2.2.1 e.2.2.2.1 e.2.2.2.2

/-- one entry of `Timing.interpolate_peak(y0, y1, y2)` (`waveform_reducers/timing.py:142-147`) -/
def interpolatePeak (y0 y1 y2 : ℚ) : Flt × Flt :=
  let a := y0 - y2
  let b := y0 - 2 * y1 + y2
  let xm := fltDiv (1 / 2 * a) b
  (xm, fltAdd y1 (fltNeg (fltMul (1 / 4 * (y0 - y2)) xm)))

end Verif.Model
