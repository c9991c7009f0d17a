import Verif.Model.Reducers

/-! # Specification vocabulary for the waveform reducers -/

namespace Verif.Spec

open Verif.Py Verif.Model

/-- `p` is the first position among `0 … n-1` at which `f` is largest -/
def FirstMax (n : Nat) (f : Nat → ℚ) (p : Nat) : Prop := p < n ∧ (∀ j < n, f j ≤ f p) ∧ ∀ j < p, f j < f p

/-- sum over the pixels of sample `j` -/
def cameraSum (ws : List (List ℚ)) (j : Nat) : ℚ := (ws.map fun r => r.getD j 0).sum

/-- sum of the `k` samples from sample `a` on -/
def windowSum (row : List ℚ) (a k : Nat) : ℚ := ((List.range k).map fun i => row.getD (a + i) 0).sum

/-- an event: at least one pixel, all with `n` samples -/
def Event (n : Nat) (ws : List (List ℚ)) : Prop := ws ≠ [] ∧ ∀ r ∈ ws, r.length = n

/-- the time of the camera-averaged waveform's first maximum kept 10 samples away from both edges -/
def clampedTime (n p : Nat) : Nat := min (max p 10) (n - 10)

end Verif.Spec
