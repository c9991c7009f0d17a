import Verif.Py.Basic
import Mathlib.Analysis.Real.Sqrt
import Mathlib.Algebra.Order.Floor.Semiring

/-!
# `get_row_column` (`utils/mapping.py:177-223`)

Exact reals instead of floating point. The two coordinate arrays are one list of positions `(x, y)`.
-/

namespace Verif.Model

open Verif.Py

open Classical in
/-- `np.min`; `ValueError` for an empty array -/
noncomputable def minR : List ℝ → Except Err ℝ
  | [] => .error .valueError
  | x :: xs => .ok (xs.foldl min x)

/-- distance of two positions -/
noncomputable def distance2 (p q : ℝ × ℝ) : ℝ := Real.sqrt ((p.1 - q.1) ^ 2 + (p.2 - q.2) ^ 2)

open Classical in
/-- `max_nrow` and `max_ncol` (`utils/mapping.py:197-198`); a distance of zero gives infinity or NaN, for which `int` raises (the kind of the exception
is not distinguished) -/
noncomputable def axisBins (lo hi dist : ℝ) : Except Err Nat :=
  if dist = 0 then .error .valueError else .ok (⌈(hi - lo) / dist⌉₊ + 1)

open Classical in
/-- the bin of `np.histogram2d` along one axis: `n` bins of equal width from `lo` to `hi`, the last one closed; an axis without extent is widened by a half on
both sides -/
noncomputable def axisBin (lo hi : ℝ) (n : Nat) (v : ℝ) : Nat :=
  if lo = hi then ⌊(v - lo + 1 / 2) * n⌋₊
  else if v = hi then n - 1
  else ⌊(v - lo) * n / (hi - lo)⌋₊

/-- `np.histogram2d(pix_x, pix_y, weights=w)`: the sum of the weights of the pixels in a cell; `bin` gives the cell of a pixel -/
noncomputable def histCell (bin : ℝ × ℝ → Nat × Nat) (w : ℝ × ℝ → ℝ) (ps : List (ℝ × ℝ)) (i j : Nat) : ℝ :=
  ((ps.filter fun p => bin p = (i, j)).map w).sum

/-- number of pixels in a cell -/
noncomputable def histCount (bin : ℝ × ℝ → Nat × Nat) (ps : List (ℝ × ℝ)) (i j : Nat) : Nat := (ps.filter fun p => bin p = (i, j)).length

/-- first position of the largest number -/
def argmaxNat (f : Nat → Nat) : Nat → Nat
  | 0 => 0
  | n + 1 => if n ≠ 0 ∧ f n ≤ f (argmaxNat f n) then argmaxNat f n else n

open Classical in
/-- `np.bincount(hist.nonzero()[0]).argmax()` (`utils/mapping.py:206-207`): the first index along the first axis with the most cells that are not zero;
`ValueError` if all are zero -/
noncomputable def fullest (hist : Nat → Nat → ℝ) (nCol nRow : Nat) : Except Err Nat :=
  let count := fun i => ((List.range nRow).filter fun j => hist i j ≠ 0).length
  if (List.range nCol).all (fun i => count i = 0) then .error .valueError else .ok (argmaxNat count nCol)

open Classical in
/-- `np.digitize(v, edges)`: the edges have to be monotonic -/
noncomputable def digitize (edges : List ℝ) (v : ℝ) : Except Err Nat :=
  if edges.Pairwise (· ≤ ·) then .ok (edges.filter fun e => e ≤ v).length
  else if edges.Pairwise (· ≥ ·) then .ok (edges.filter fun e => v < e).length
  else .error .valueError

/-- `full - full[0]` and so on: numpy broadcasting of two arrays of positions, of the same length or one of length one -/
noncomputable def lineDistances (fx fy : List ℝ) : Except Err (List ℝ) :=
  match fx, fy with
  | x0 :: xs, y0 :: ys =>
    if xs.length = ys.length then .ok (List.zipWith (fun x y => distance2 (x, y) (x0, y0)) (x0 :: xs) (y0 :: ys))
    else if xs = [] then .ok ((y0 :: ys).map fun y => distance2 (x0, y) (x0, y0))
    else if ys = [] then .ok ((x0 :: xs).map fun x => distance2 (x, y0) (x0, y0))
    else .error .valueError
  | _, _ => .error .indexError

/-- `[*(full - mid), full[-1] + mid]` (`utils/mapping.py:216-217`) -/
noncomputable def lineEdges (full : List ℝ) (mid : ℝ) : List ℝ := full.map (· - mid) ++ [full.getLast?.getD 0 + mid]

/-- the array of `np.digitize(...) - 1` -/
noncomputable def digitizeAll (edges : List ℝ) (vs : List ℝ) : Except Err (List Int) :=
  vs.mapM fun v => match digitize edges v with
    | .error e => .error e
    | .ok k => .ok ((k : Int) - 1)

/-- lines 213-223, from the coordinates of the pixels along a full row and a full column: `mid_dist`, the edges, and the result -/
noncomputable def placePixels (fullX fullY : List ℝ) (ps : List (ℝ × ℝ)) : Except Err (List Int × List Int) :=
  match lineDistances fullX fullY with
  | .error e => .error e
  | .ok ds => match minR ds.tail with
    | .error e => .error e
    | .ok m => match digitizeAll (lineEdges fullX (m / 2)) (ps.map Prod.fst) with
      | .error e => .error e
      | .ok column => match digitizeAll (lineEdges fullY (m / 2)) (ps.map Prod.snd) with
        | .error e => .error e
        | .ok row => .ok (row, column)

/-- lines 200-210 with the sizes of the histogram: the coordinates along a full row and a full column. `full_col`, an index of the first axis, is used for
the second axis of `hist_x` (line 209). -/
noncomputable def fullLines (bin : ℝ × ℝ → Nat × Nat) (nCol nRow : Nat) (ps : List (ℝ × ℝ)) : Except Err (List ℝ × List ℝ) :=
  match fullest (histCell bin Prod.fst ps) nCol nRow with
  | .error e => .error e
  | .ok fullCol => match fullest (histCell bin Prod.snd ps) nCol nRow with
    | .error e => .error e
    | .ok fullRow =>
      if nRow ≤ fullCol then .error .indexError
      else .ok (((List.range nCol).filter fun i => histCount bin ps i fullCol ≠ 0).map fun i => histCell bin Prod.fst ps i fullCol,
        ((List.range nRow).filter fun j => histCount bin ps fullRow j ≠ 0).map fun j => histCell bin Prod.snd ps fullRow j)

/-- `get_row_column(pix_x, pix_y)` (`utils/mapping.py:177-223`): rows and columns -/
noncomputable def getRowColumn (ps : List (ℝ × ℝ)) : Except Err (List Int × List Int) :=
  match ps with
  | [] => .error .indexError
  | p0 :: rest => match minR (rest.map fun p => distance2 p p0) with
    | .error e => .error e
    | .ok dist =>
      let xs := rest.map Prod.fst
      let ys := rest.map Prod.snd
      let x0 := xs.foldl min p0.1
      let x1 := xs.foldl max p0.1
      let y0 := ys.foldl min p0.2
      let y1 := ys.foldl max p0.2
      match axisBins y0 y1 dist, axisBins x0 x1 dist with
      | .ok nRow, .ok nCol =>
        match fullLines (fun p => (axisBin x0 x1 nCol p.1, axisBin y0 y1 nRow p.2)) nCol nRow ps with
        | .error e => .error e
        | .ok (fullX, fullY) => placePixels fullX fullY ps
      | .error e, _ => .error e
      | _, .error e => .error e

end Verif.Model
