import Verif.Spec.Reducers
import Verif.Model.CrossCorr

/-! # Specification vocabulary for cross correlation and sliding windows -/

namespace Verif.Spec

/-- area of a sampled pulse under the trapezoidal rule -/
def area (y : List ℚ) : ℚ := ((List.range (y.length - 1)).map fun i => (y.getD i 0 + y.getD (i + 1) 0) / 2).sum

/-- a waveform of `n` samples that is zero apart from a pulse of charge `q` and shape `y` which starts at sample `s` -/
def pulseRow (n s : Nat) (y : List ℚ) (q : ℚ) : List ℚ :=
  (List.range n).map fun j => if s ≤ j then q * (y.getD (j - s) 0 / area y) else 0

/-- the largest sample -/
def Largest (row : List ℚ) (x : ℚ) : Prop := x ∈ row ∧ ∀ y ∈ row, y ≤ x

/-- sum of the samples `a … a+k-1` that exist, over all pixels -/
def cameraWindow (ws : List (List ℚ)) (k a : Nat) : ℚ := (ws.map fun r => windowSum r a k).sum

end Verif.Spec
