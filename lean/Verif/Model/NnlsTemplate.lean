import Verif.Model.Nnls
import Mathlib.Algebra.Order.Floor.Defs
import Mathlib.Data.Rat.Floor

/-!
# `waveform_reducers/nnls_pulse_extraction.py:18-75,100-116`: the reference pulse, the basis and the merging of pulses

Times in ns, exact numbers. Reading the text file and the spline through the points are not modelled: the template is a function of the time which is 0
outside its points (`ext=1`). Dividing by 0 gives inf or NaN in numpy, here an error.
-/

namespace Verif.Model

open Verif.Py

/-- the points of `load_reference_pulse` after both ends were replaced (`waveform_reducers/nnls_pulse_extraction.py:59-73`); `x` and `y` are the columns of the
file, of the same length -/
def smoothEnds (x y : List ℚ) : Except Err (List ℚ) :=
  match x[4]?, y[4]?, x[10]? with
  | some x4, some y4, some x10 =>
    if x4 = 0 ∨ x10 = 0 then .error .zeroDivision
    else
      let k := y4 / x4
      let y := (List.range 4).foldl (fun y i => y.set i (k * x.getD i 0)) y
      let e := y.length - 10
      let k := -(y.getD e 0) / x10
      let m := y.getD e 0 - k * x.getD e 0
      .ok ((List.range 10).foldl (fun y j => y.set (y.length - (j + 1)) (k * x.getD (y.length - (j + 1)) 0 + m)) y)
  | _, _, _ => .error .indexError

/-- `np.linspace(a, b, n)` at position `i` -/
def linspaceAt (a b : ℚ) (n i : Nat) : ℚ := if n = 1 then a else a + i * ((b - a) / (n - 1 : ℕ))

/-- what the constructor keeps: `basis_t` and `model_matrix` with a row for each sample -/
structure NnlsBasis where
  basisT : List ℚ
  matrix : List (List ℚ)

/-- `t_end` (`waveform_reducers/nnls_pulse_extraction.py:33-35`): the last of 1000 times from 0 to 120 ns at which the template is positive -/
def templateEnd (template : ℚ → ℚ) : Except Err ℚ :=
  match (List.range 1000).reverse.find? fun i => decide (0 < template (linspaceAt 0 120 1000 i)) with
  | none => .error .valueError
  | some i => .ok (linspaceAt 0 120 1000 i)

/-- the rest of the constructor (`waveform_reducers/nnls_pulse_extraction.py:30-40`): 128 samples whatever `n_samples`; `t_end` is in s where it is added to
127 -/
def nnlsBasis (template : ℚ → ℚ) (basesBin : Nat) (_nSamples : Nat) : Except Err NnlsBasis :=
  match templateEnd template with
  | .error e => .error e
  | .ok tEnd =>
    let nbasis := (⌊127 + tEnd / 1000000000⌋).toNat * basesBin
    let ts := (List.range nbasis).map (linspaceAt (0 - tEnd) 126 nbasis)
    .ok ⟨ts, (List.range 128).map fun (s : Nat) => ts.map fun t => template ((s : ℚ) - t)⟩

/-- the pulses of one waveform with the basis (`waveform_reducers/nnls_pulse_extraction.py:80-88`); numpy refuses to multiply the matrix with a waveform of
another length -/
def fitWaveform (basis : NnlsBasis) (tolerance : ℚ) (solve : List Nat → List ℚ) (wf : List ℚ) : Except Err (List (ℚ × ℚ)) :=
  if wf.length = basis.matrix.length then
    .ok (extractPulses (fun i => basis.basisT.getD i 0)
      (nnls basis.basisT.length (fun m i => (basis.matrix.getD m []).getD i 0) wf none tolerance solve))
  else .error .valueError

/-- the loop of `_merge_pulses` (`waveform_reducers/nnls_pulse_extraction.py:105-112`): `t`, `c` is the last merged pulse, the others are already in front -/
def mergeLoop (width : ℚ) : ℚ → ℚ → List (ℚ × ℚ) → List (ℚ × ℚ)
  | t, c, [] => [(t, c)]
  | t, c, (t', c') :: rest =>
    if t' - t < width then mergeLoop width ((t * c + t' * c') / (c + c')) (c + c') rest
    else (t, c) :: mergeLoop width t' c' rest

/-- `_merge_pulses` (`waveform_reducers/nnls_pulse_extraction.py:100-116`); a pulse is (time, charge) -/
def mergePulses (width : ℚ) : List (ℚ × ℚ) → List (ℚ × ℚ)
  | [] => []
  | (t, c) :: rest => mergeLoop width t c rest

end Verif.Model
