import Verif.Model.Stats
import Verif.Model.SpectrumFitter

/-!
# `spectrum_fitters/mapm.py` and `spectrum_fitters/gentile.py`

Exact reals instead of floating point. Arrays of x values are lists; the functions are applied to each of them.
-/

namespace Verif.Model

open Verif.Py

open Classical in
/-- the loop over the numbers of fired cells with its rule for leaving out insignificant probabilities (`spectrum_fitters/mapm.py:89-103`,
`spectrum_fitters/gentile.py:95-120`): the peaks that are added, with their weights. `m` is `pk_max`. -/
noncomputable def peakLoop (w : Nat → ℝ) : List Nat → ℝ → List (Nat × ℝ)
  | [], _ => []
  | k :: ks, m =>
    if w k > m then (k, w k) :: peakLoop w ks (w k)
    else if w k < 1e-4 then []
    else (k, w k) :: peakLoop w ks m

/-- `range(1, 100)` -/
def cells : List Nat := (List.range 99).map (· + 1)

/-- the spectrum for a weight function: pedestal and peaks (`spectrum_fitters/mapm.py:83-105`, `spectrum_fitters/gentile.py:89-122`) -/
noncomputable def spectrumOf (w : Nat → ℝ) (eped epedSigma spe speSigma lam x : ℝ) : ℝ :=
  Real.exp (-lam) * normalPdf x eped epedSigma +
    ((peakLoop w cells 0).map fun kp =>
      kp.2 * normalPdf x (eped + (kp.1 : ℝ) * spe) (Real.sqrt ((kp.1 : ℝ) * speSigma ^ 2 + epedSigma ^ 2))).sum

/-- `mapm_spe` (`spectrum_fitters/mapm.py:58-105`) at one value of x -/
noncomputable def mapmSpe (eped epedSigma spe speSigma lam x : ℝ) : ℝ :=
  spectrumOf (fun k => poisson k lam) eped epedSigma spe speSigma lam x

open Classical in
/-- the term for `j` initially fired cells (`spectrum_fitters/gentile.py:98-108`) -/
noncomputable def gentileTerm (opct lam : ℝ) (k j : Nat) : ℝ :=
  if poisson j lam < 1e-4 then 0 else poisson j lam * (1 - opct) ^ j * opct ^ (k - j) * binom ((k : ℤ) - 1) ((j : ℤ) - 1)

/-- the probability of `k` fired cells as it is summed (`spectrum_fitters/gentile.py:97-108`) -/
noncomputable def gentileWeight (opct lam : ℝ) (k : Nat) : ℝ := ((List.range k).map fun i => gentileTerm opct lam k (i + 1)).sum

/-- `sipm_gentile_spe` (`spectrum_fitters/gentile.py:61-122`) at one value of x -/
noncomputable def gentileSpe (eped epedSigma spe speSigma opct lam x : ℝ) : ℝ :=
  spectrumOf (gentileWeight opct lam) eped epedSigma spe speSigma lam x

/-- `parameter_values[lookup[name]]` -/
def paramValue (lookup : Dict String Nat) (values : List ℝ) (name : String) : Except Err ℝ :=
  match lookup.get? name with
  | none => .error .keyError
  | some slot => match values[slot]? with
    | none => .error .indexError
    | some v => .ok v

/-- `calculate_spectrum` of the MAPM fitter (`spectrum_fitters/mapm.py:46-55`) -/
noncomputable def mapmCalculate (xs : List ℝ) (lookup : Dict String Nat) (values : List ℝ) : Except Err (List ℝ) := do
  let eped ← paramValue lookup values "eped"
  let epedSigma ← paramValue lookup values "eped_sigma"
  let spe ← paramValue lookup values "spe"
  let speSigma ← paramValue lookup values "spe_sigma"
  let lam ← paramValue lookup values "lambda_"
  pure (xs.map (mapmSpe eped epedSigma spe speSigma lam))

/-- `calculate_spectrum` of the Gentile fitter (`spectrum_fitters/gentile.py:48-58`) -/
noncomputable def gentileCalculate (xs : List ℝ) (lookup : Dict String Nat) (values : List ℝ) : Except Err (List ℝ) := do
  let eped ← paramValue lookup values "eped"
  let epedSigma ← paramValue lookup values "eped_sigma"
  let spe ← paramValue lookup values "spe"
  let speSigma ← paramValue lookup values "spe_sigma"
  let opct ← paramValue lookup values "opct"
  let lam ← paramValue lookup values "lambda_"
  pure (xs.map (gentileSpe eped epedSigma spe speSigma opct lam))

/-- `_get_spectra` (`spectrum_fitters/mapm.py:26-33`, `spectrum_fitters/gentile.py:28-35`) -/
noncomputable def getSpectra (calculate : List ℝ → Dict String Nat → List ℝ → Except Err (List ℝ)) (lookup : List (Dict String Nat)) (xs values : List ℝ) :
    Except Err (List (List ℝ)) := lookup.mapM fun d => calculate xs d values

/-- `np.trapz(y, x)` -/
noncomputable def trapzR : List ℝ → List ℝ → ℝ
  | y0 :: y1 :: ys, x0 :: x1 :: xs => (x1 - x0) * (y0 + y1) / 2 + trapzR (y1 :: ys) (x1 :: xs)
  | _, _ => 0

open Classical in
/-- one pass of the loop of `_get_likelihood` (`spectrum_fitters/mapm.py:40-42`, `spectrum_fitters/gentile.py:42-44`); a spectrum without area is a
division by zero, for which the caller returns infinity (`core/spectrum_fitter.py:304-305`). There are no NaN among exact reals. -/
noncomputable def illuminationLikelihood (xs ys spectrum : List ℝ) : Except Err ℝ :=
  if trapzR spectrum xs = 0 then .error .zeroDivision
  else
    let scale := trapzR ys xs / trapzR spectrum xs
    .ok ((List.zipWith (fun y s => -2 * poissonLogpmf y (s * scale)) ys spectrum).sum)

/-- `_get_likelihood` (`spectrum_fitters/mapm.py:35-43`, `spectrum_fitters/gentile.py:37-45`) -/
noncomputable def getLikelihood (calculate : List ℝ → Dict String Nat → List ℝ → Except Err (List ℝ)) (xs values : List ℝ) :
    List (Dict String Nat) → List (List ℝ) → Except Err ℝ
  | d :: ds, ys :: yss => match calculate xs d values with
    | .error e => .error e
    | .ok spectrum => match illuminationLikelihood xs ys spectrum with
      | .error e => .error e
      | .ok l => match getLikelihood calculate xs values ds yss with
        | .error e => .error e
        | .ok rest => .ok (l + rest)
  | _, _ => .ok 0

/-- `_minimize_function` (`core/spectrum_fitter.py:295-305`), the function given to the minimiser; `⊤` is `np.inf` -/
noncomputable def minimizeFunction (calculate : List ℝ → Dict String Nat → List ℝ → Except Err (List ℝ)) (xs : List ℝ) (yss : List (List ℝ))
    (lookup : List (Dict String Nat)) (values : List ℝ) : Except Err (WithTop ℝ) :=
  match getLikelihood calculate xs values lookup yss with
  | .ok l => .ok (l : WithTop ℝ)
  | .error .zeroDivision => .ok ⊤
  | .error e => .error e

/-- the function minimised after the request of a fit, for the values of the fit parameters by name -/
noncomputable def objective (calculate : List ℝ → Dict String Nat → List ℝ → Except Err (List ℝ)) (q : FitRequest) (v : String → ℝ) : Except Err (WithTop ℝ) :=
  minimizeFunction calculate (q.histX.map fun (x : ℚ) => (x : ℝ)) (q.histY.map fun h => h.map fun (y : ℚ) => (y : ℝ)) q.lookup (q.names.map v)

end Verif.Model
