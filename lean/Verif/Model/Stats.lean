import Mathlib.Analysis.SpecialFunctions.Gamma.Basic
import Mathlib.Analysis.SpecialFunctions.Log.Basic
import Mathlib.Analysis.SpecialFunctions.Trigonometric.Basic

/-!
# `stats`: Welford's algorithm and probability functions

Exact reals instead of floating point. `lgamma` is the logarithm of the absolute value of Gamma; its poles (the integers
up to 0) are not modelled: the C function returns infinity there, and the sources are compiled with `fastmath`, which
gives infinities no defined meaning.
-/

namespace Verif.Model

/-- the running values `mean`, `count`, `m2` of `welfords_online_algorithm` (`stats/welfords.py:5`) -/
structure Welford where
  mean : ℝ
  count : Nat
  m2 : ℝ

/-- `welfords_online_algorithm(sample, mean, count, m2)` (`stats/welfords.py:29-34`) -/
noncomputable def welfordStep (w : Welford) (sample : ℝ) : Welford :=
  let delta := sample - w.mean
  let count := w.count + 1
  let mean := w.mean + delta / count
  let delta2 := sample - mean
  ⟨mean, count, w.m2 + delta * delta2⟩

/-- the loop in which a caller uses the update: starting from zeros, one sample at a time -/
noncomputable def welfordRun (xs : List ℝ) : Welford := xs.foldl welfordStep ⟨0, 0, 0⟩

/-- `math.lgamma` (see the header) -/
noncomputable def lgamma (x : ℝ) : ℝ := Real.log |Real.Gamma x|

/-- `binom(n, k)` (`stats/pdf.py:18`) -/
noncomputable def binom (n k : ℤ) : ℝ := Real.exp (lgamma (n + 1) - lgamma (k + 1) - lgamma (n - k + 1))

/-- `poisson(k, mu)` (`stats/pdf.py:32`) -/
noncomputable def poisson (k : ℤ) (mu : ℝ) : ℝ := Real.exp (k * Real.log mu - mu - lgamma (k + 1))

/-- `SQRT2PI` (`stats/pdf.py:4`) -/
noncomputable def sqrt2pi : ℝ := Real.sqrt (2 * Real.pi)

/-- `normal_pdf(x, mean, std_deviation)` (`stats/pdf.py:45-46`); `x` is rounded to 32 bits in the source, not here -/
noncomputable def normalPdf (x mean std : ℝ) : ℝ :=
  let u := (x - mean) / std
  Real.exp (-0.5 * u ^ 2) / (sqrt2pi * std)

/-- `xlogy(x, y)` for a number `y` (`stats/pdf.py:50-54`) -/
noncomputable def xlogy (x y : ℝ) : ℝ := if x = 0 then 0 else x * Real.log y

/-- `poisson_logpmf(k, mu)` (`stats/pdf.py:59`) -/
noncomputable def poissonLogpmf (k mu : ℝ) : ℝ := xlogy k mu - lgamma (k + 1) - mu

end Verif.Model
