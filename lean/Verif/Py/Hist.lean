import Mathlib.Order.Defs.LinearOrder

/-!
# Bins of `np.histogram` and `scipy.stats.binned_statistic`

Every bin includes its lower edge; only the last one includes its upper edge.
-/

namespace Verif.Py

/-- the bins between the edges; the flag marks the last one -/
def binsOf {α : Type} : List α → List (α × α × Bool)
  | a :: b :: rest => (a, b, rest.isEmpty) :: binsOf (b :: rest)
  | _ => []

/-- whether a value is in a bin -/
def inBin {α : Type} [LinearOrder α] (bin : α × α × Bool) (x : α) : Bool :=
  decide (bin.1 ≤ x) && (decide (x < bin.2.1) || (bin.2.2 && decide (x = bin.2.1)))

end Verif.Py
