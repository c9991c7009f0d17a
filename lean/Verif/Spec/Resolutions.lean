import Verif.Model.Resolutions

namespace Verif.Spec

open Verif.Model

/-- all entries of a session, in the order of the calls -/
def entries : List ResOp → List ChargeEntry
  | [] => []
  | .add es :: ops => es ++ entries ops
  | .finish :: ops => entries ops

/-- arithmetic mean; a missing measurement counts as 0 -/
def measuredMean (g : List ChargeEntry) : ℚ := (g.map fun e => e.measured.getD 0).sum / g.length

/-- population variance -/
def measuredVariance (g : List ChargeEntry) : ℚ :=
  (g.map fun e => (e.measured.getD 0 - measuredMean g) ^ 2).sum / g.length

/-- mean squared deviation from the true charge; an entry without measured charge counts as exact -/
def meanSquare (g : List ChargeEntry) : ℚ := (g.map fun e => (e.measured.getD e.key - e.key) ^ 2).sum / g.length

/-- entries of one pixel and true charge -/
def groupOf (E : List ChargeEntry) (p : Int) (t : ℚ) : List ChargeEntry := E.filter fun e => e.pixel = p ∧ e.key = t

/-- entries of one true charge -/
def cameraGroupOf (E : List ChargeEntry) (t : ℚ) : List ChargeEntry := E.filter fun e => e.key = t

end Verif.Spec
