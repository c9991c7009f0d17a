import Mathlib.Analysis.SpecialFunctions.Sqrt
import Mathlib.Data.Int.Log
import Verif.Py.Basic
import Verif.Py.Decimal

/-!
# The numbers written on the plots of single-photoelectron fits

`scripts/plot_spe.py:32-37` and `plotting/spe.py:14-32`. Python writes the exact value of a double rounded to the wanted digits, ties to even; numbers are finite reals here, mean and standard
deviation exact. `initial` and `values` are dictionaries of numbers.
-/

namespace Verif.Model

open Verif.Py

/-- the nearest integer of a non-negative number, of two equally near ones the even one -/
noncomputable def nearestNat (x : ℝ) : Nat :=
  if x - ⌊x⌋₊ < 1 / 2 ∨ (x - ⌊x⌋₊ = 1 / 2 ∧ ⌊x⌋₊ % 2 = 0) then ⌊x⌋₊ else ⌊x⌋₊ + 1

/-- the sign written: none, or a minus (also before a zero that was negative before rounding) -/
noncomputable def signText (x : ℝ) : List Char := if x < 0 then ['-'] else []

/-- `'{:.<d>f}'.format(x)` and `'%.<d>f' % x` for positive `d` (`plotting/spe.py:16`, `:28-30`) -/
noncomputable def fixedText (d : Nat) (x : ℝ) : List Char :=
  let n := nearestNat (|x| * 10 ^ d)
  signText x ++ (decimal (n / 10 ^ d) ++ '.' :: decimalPad d (n % 10 ^ d))

/-- `g` drops zeros at the end of the fraction, and then a point at the end -/
def withFraction (whole fraction : List Char) : List Char :=
  let f := (fraction.reverse.dropWhile (· = '0')).reverse
  if f = [] then whole else whole ++ '.' :: f

/-- `m` times `10 ^ -d` without exponent -/
def plainText (d m : Nat) : List Char := withFraction (decimal (m / 10 ^ d)) (if d = 0 then [] else decimalPad d (m % 10 ^ d))

/-- `m` hundredths times `10 ^ e` with exponent -/
def scientificText (m : Nat) (e : Int) : List Char :=
  withFraction (decimal (m / 100)) (decimalPad 2 (m % 100)) ++ 'e' :: (if e < 0 then '-' else '+') :: decimalPad 2 e.natAbs

/-- the three digits, as a number from 100 to 999, and the exponent of the first digit -/
noncomputable def threeDigits (a : ℝ) : Nat × Int :=
  let e := Int.log 10 a
  let m := nearestNat (a * 10 ^ (2 - e))
  if m = 1000 then (100, e + 1) else (m, e)

/-- `'{:.3g}'.format(x)` and `'%.3g' % x` (`scripts/plot_spe.py:35`, `plotting/spe.py:28`) -/
noncomputable def generalText (x : ℝ) : List Char :=
  if x = 0 then ['0']
  else
    let p := threeDigits |x|
    signText x ++ if -4 ≤ p.2 ∧ p.2 < 3 then plainText (2 - p.2).toNat p.1 else scientificText p.1 p.2

/-- `np.mean` -/
noncomputable def histMean (values : List ℝ) : ℝ := values.sum / values.length

/-- `np.std` -/
noncomputable def histStd (values : List ℝ) : ℝ := Real.sqrt ((values.map fun v => (v - histMean values) ^ 2).sum / values.length)

/-- the label of `SPEHist.plot` (`scripts/plot_spe.py:33-35`); of no values both are `nan` -/
noncomputable def histogramLabel (values : List ℝ) : List Char :=
  if values = [] then "Mean = nan, Stddev = nan".toList
  else "Mean = ".toList ++ generalText (histMean values) ++ ", Stddev = ".toList ++ generalText (histStd values)

/-- a value with its error, as in the table (`plotting/spe.py:30`) -/
noncomputable def withError (v e : ℝ) : List Char := fixedText 3 v ++ " ± ".toList ++ fixedText 3 e

/-- the label of a light level (`plotting/spe.py:16`) -/
noncomputable def levelLabel (values errors : Dict String ℝ) (i : Nat) : Except Err (List Char) :=
  let name := String.ofList ("lambda_".toList ++ decimal i)
  match Dict.getItem values name with
  | .error e => .error e
  | .ok v => match Dict.getItem errors name with
    | .error e => .error e
    | .ok err => .ok ("λ_".toList ++ decimal i ++ " = ".toList ++ withError v err ++ " p.e.".toList)

/-- the table (`plotting/spe.py:25-32`): a row for each value, with its initial value and the fitted one. `cells` is made of all rows first, then the second column again with the errors; both
only raise `KeyError`. -/
noncomputable def fitTable (values errors initial : Dict String ℝ) : Except Err (List (String × List Char × List Char)) :=
  match values.mapM fun p => (Dict.getItem initial p.1).map fun a => (p.1, generalText a, fixedText 3 p.2) with
  | .error e => .error e
  | .ok cells => (cells.zip values).mapM fun c => (Dict.getItem errors c.2.1).map fun err => (c.1.1, c.1.2.1, withError c.2.2 err)

end Verif.Model
