import Mathlib.Data.Rat.Defs
import Mathlib.Algebra.Order.Ring.Rat
import Mathlib.Algebra.BigOperators.Group.Finset.Defs
import Mathlib.Data.Finset.Range

/-!
# Least squares with non-negative unknowns

`A m i` is sample `m` of the `i`-th basis pulse, `b` the waveform, `z` one amplitude for every basis pulse.
-/

namespace Verif.Spec

/-- the waveform made of the basis pulses with amplitudes `z`, at sample `m` -/
def synth (n : Nat) (A : Nat → Nat → ℚ) (z : Nat → ℚ) (m : Nat) : ℚ := ∑ i ∈ Finset.range n, A m i * z i

/-- the squared distance of that waveform from `b` -/
def misfit (n : Nat) (A : Nat → Nat → ℚ) (b : List ℚ) (z : Nat → ℚ) : ℚ :=
  ∑ m ∈ Finset.range b.length, (synth n A z m - b.getD m 0) ^ 2

/-- a solver of unconstrained least squares: for any distinct columns it gives one number for each, such that what is left of the waveform is
orthogonal to all of these columns -/
def LeastSquares (A : Nat → Nat → ℚ) (b : List ℚ) (solve : List Nat → List ℚ) : Prop :=
  ∀ F : List Nat, (solve F).length = F.length ∧ (F.Nodup → ∀ g ∈ F, ∑ m ∈ Finset.range b.length,
    A m g * (((F.zip (solve F)).map fun p => A m p.1 * p.2).sum - b.getD m 0) = 0)

/-- all pulse positions of a solution that are positive, each with its amplitude -/
def positives (sol : List (Option ℚ)) : List ℚ := sol.filterMap fun v => if 0 < v.getD 0 then v else none

end Verif.Spec
