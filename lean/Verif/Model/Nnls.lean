import Verif.Py.Array
import Mathlib.Data.List.Sort

/-!
# `waveform_reducers/nnls_pulse_extraction.py`

Arrays are functions of the index. A solution entry is an exact number or NaN (`none`); NaN arises from `0 / 0` in line 244. The solver
`np.linalg.lstsq` is a parameter that gives one number for every column it is asked for. The basis matrix, made from splines, is a parameter.
-/

namespace Verif.Model

open Verif.Py

/-- the sets and the solution: `F`, `G`, `x` -/
structure NnlsState where
  F : List Nat
  G : List Nat
  x : Nat → Option ℚ

/-- `l.sort()` -/
def sortNat (l : List Nat) : List Nat := l.insertionSort (· ≤ ·)

/-- position of the first smallest entry, the first NaN if there is one (`argmin`); `none` for an empty array -/
def argminNaN : List (Option ℚ) → Option Nat
  | [] => none
  | l => match l.findIdx? (· = none) with
    | some i => some i
    | none => some (l.findIdx fun v => l.all fun w => (v.getD 0) ≤ (w.getD 0))

/-- `theta` for one entry (`waveform_reducers/nnls_pulse_extraction.py:244`): `x / (x - v)`, NaN for `0 / 0` -/
def theta (x : Option ℚ) (v : ℚ) : Option ℚ :=
  match x with
  | none => none
  | some a => if a - v = 0 then none else some (a / (a - v))

/-- `x + alpha * (v - x)` for one entry (line 249) -/
def blend (x alpha : Option ℚ) (v : ℚ) : Option ℚ :=
  match x, alpha with
  | some a, some al => some (a + al * (v - a))
  | _, _ => none

/-- the value the solver gave for column `f` -/
def solved (F : List Nat) (xF : List ℚ) (f : Nat) : ℚ := xF.getD (F.idxOf f) 0

/-- one pass of the inner loop (`waveform_reducers/nnls_pulse_extraction.py:234-251`); the flag is `feasible` -/
def innerStep (solve : List Nat → List ℚ) (s : NnlsState) : NnlsState × Bool :=
  let xF := solve s.F
  if xF.all (0 ≤ ·) then (⟨s.F, s.G, fun i => if i ∈ s.F then some (solved s.F xF i) else s.x i⟩, true)
  else
    let masked := s.F.filter fun f => solved s.F xF f ≤ 0
    let thetas := masked.map fun f => theta (s.x f) (solved s.F xF f)
    match argminNaN thetas with
    | none => (s, false)
    | some k =>
      let alpha := thetas.getD k none
      let r := masked.getD k 0
      (⟨s.F.erase r, sortNat (s.G ++ [r]), fun i => if i ∈ s.F then blend (s.x i) alpha (solved s.F xF i) else s.x i⟩, false)

/-- the inner loop, at most `fuel` passes -/
def innerLoop (solve : List Nat → List ℚ) : Nat → NnlsState → NnlsState × Bool
  | 0, s => (s, false)
  | fuel + 1, s => match innerStep solve s with
    | (s', true) => (s', true)
    | (s', false) => innerLoop solve fuel s'

/-- `y` (lines 212 and 253-254): the gradient at the present solution for the column `g`; NaN if a summand is NaN -/
def gradient (A : Nat → Nat → ℚ) (b : List ℚ) (s : NnlsState) (g : Nat) : Option ℚ :=
  if s.F.any (fun f => s.x f = none) then none
  else some (((List.range b.length).map fun m =>
    A m g * ((s.F.map fun f => A m f * (s.x f).getD 0).sum - b.getD m 0)).sum)

/-- one pass of the outer loop (`waveform_reducers/nnls_pulse_extraction.py:219-254`); `none` is `break`. The inner loop gets as many passes as it
can need. -/
def outerStep (A : Nat → Nat → ℚ) (b : List ℚ) (tolerance : ℚ) (solve : List Nat → List ℚ) (s : NnlsState) : Option (NnlsState × Bool) :=
  match argminNaN (s.G.map (gradient A b s)) with
  | none => none
  | some k =>
    let r := s.G.getD k 0
    if (match gradient A b s r with | some v => decide (tolerance ≤ v) | none => false) then none
    else
      let s' : NnlsState := ⟨sortNat (s.F ++ [r]), s.G.erase r, s.x⟩
      some (innerLoop solve (s'.F.length + 1) s')

/-- the outer loop, `iterations` passes left; the flag says that every inner loop ended -/
def nnlsLoop (A : Nat → Nat → ℚ) (b : List ℚ) (tolerance : ℚ) (solve : List Nat → List ℚ) : Nat → NnlsState → NnlsState × Bool
  | 0, s => (s, true)
  | iterations + 1, s => match outerStep A b tolerance solve s with
    | none => (s, true)
    | some (s', false) => (s', false)
    | some (s', true) => nnlsLoop A b tolerance solve iterations s'

/-- the initial state (lines 208-210) for `n` columns -/
def nnlsInit (n : Nat) : NnlsState := ⟨[], List.range n, fun _ => some 0⟩

/-- `nnls(A, b, maxit, tolerance)` (`waveform_reducers/nnls_pulse_extraction.py:190-256`) -/
def nnls (n : Nat) (A : Nat → Nat → ℚ) (b : List ℚ) (maxit : Option Nat) (tolerance : ℚ) (solve : List Nat → List ℚ) : List (Option ℚ) :=
  (List.range n).map (nnlsLoop A b tolerance solve (maxit.getD b.length) (nnlsInit n)).1.x

/-- the pulses of one waveform (`waveform_reducers/nnls_pulse_extraction.py:80-95`): times and charges of the positive entries, times 7 -/
def extractPulses (basisT : Nat → ℚ) (sol : List (Option ℚ)) : List (ℚ × ℚ) :=
  (sol.zipIdx.filterMap fun (v, i) => match v with
    | some q => if 0 < q * 7 then some (basisT i, q * 7) else none
    | none => none)

/-- the rough time of a pixel (`waveform_reducers/nnls_pulse_extraction.py:90-93`) -/
def roughTime (pulses : List (ℚ × ℚ)) : ℚ :=
  match pulses with
  | [] => 0
  | _ => (pulses.map fun p => p.1 * p.2).sum / (pulses.map (·.2)).sum

/-- the reported charges of a pixel -/
structure NnlsCharges where
  charge : ℚ
  tcharge : ℚ
  tmcharge : ℚ
  tccharge : ℚ
  npulses : Nat
  deriving DecidableEq

/-- `np.max` of a non-empty list, 0 otherwise -/
def maxOf : List ℚ → ℚ
  | [] => 0
  | x :: xs => xs.foldl max x

/-- the body of the pixel loop of `_prepare` (`waveform_reducers/nnls_pulse_extraction.py:131-143`); times in ns -/
def pixelCharges (avTime : ℚ) (pulses : List (ℚ × ℚ)) : NnlsCharges :=
  let m := pulses.filter fun p => 0 < p.2
  let tm := pulses.filter fun p => |p.1 - avTime| ≤ 5 ∧ 0 < p.2
  let rest := pulses.filter fun p => ¬ (|p.1 - avTime| ≤ 5 ∧ 0 < p.2)
  let tcharge := (tm.map (·.2)).sum
  ⟨(m.map (·.2)).sum, tcharge, if 0 < tcharge then maxOf (tm.map (·.2)) else 0, (rest.map (·.2)).sum, m.length⟩

/-- `_prepare` (`waveform_reducers/nnls_pulse_extraction.py:118-159`) from the extracted pulses of all pixels -/
def nnlsPrepare (extracted : List (List (ℚ × ℚ))) : List NnlsCharges :=
  extracted.map (pixelCharges (mean (extracted.map roughTime)))

end Verif.Model
