import Verif.Py.Array
import Verif.Py.Grid
import Mathlib.Data.List.Sort
import Mathlib.Data.Rat.Floor

/-!
# `calib`: amplitude calibration, illumination profile, time correction, SiPM data sheet

Exact rationals instead of floating point; a division by zero gives 0 where numpy gives NaN or an infinity, the theorems
exclude it.
-/

namespace Verif.Model

open Verif.Py

/-! ## amplitude calibration and illumination profile -/

/-- numpy broadcasting of an elementwise operation on one-dimensional arrays -/
def npBinary (f : ℚ → ℚ → ℚ) (a b : List ℚ) : Except Err (List ℚ) :=
  if a.length = b.length then .ok (a.zipWith f b)
  else match a, b with
    | [x], b => .ok (b.map (f x))
    | a, [y] => .ok (a.map fun x => f x y)
    | _, _ => .error .valueError

/-- an `AmplitudeCalibrator` (`calib/amplitude_calibrator.py:19-21`) -/
structure AmplitudeCalibrator where
  ff : List ℚ
  pedestal : List ℚ
  conversion : ℚ

/-- `AmplitudeCalibrator.__call__` (`calib/amplitude_calibrator.py:40-41`) on arrays: indexing with an array of pixels,
subtraction, division by the scalar, multiplication -/
def calibrate (c : AmplitudeCalibrator) (values : List ℚ) (pixels : List Int) : Except Err (List ℚ) :=
  match takeAll c.pedestal pixels with
  | .error e => .error e
  | .ok ped => match npBinary (· - ·) values ped with
    | .error e => .error e
    | .ok diff => match takeAll c.ff pixels with
      | .error e => .error e
      | .ok ff => npBinary (· * ·) (diff.map (· / c.conversion)) ff

/-- `IlluminationProfile.unfold` (`calib/illumination_profile.py:31`) -/
def unfoldProfile (profile image : List ℚ) : Except Err (List ℚ) := npBinary (· / ·) image profile

/-- `IlluminationProfile.fold` (`calib/illumination_profile.py:47`) -/
def foldProfile (profile image : List ℚ) : Except Err (List ℚ) := npBinary (· * ·) image profile

/-! ## time correction -/

/-- sample `i` of a corrected waveform (`calib/time_calibrator.py:17-28`). The compiled loop does not check indices; an
index outside the row is an `IndexError` here. Division by zero raises in numba's default error model. -/
def tCorSample (row : List ℚ) (correction : ℚ) (i : Nat) : Except Err ℚ :=
  let n : Int := row.length
  let x : ℚ := i - correction
  let x1 := ⌊x⌋
  let x2 := ⌈x⌉
  let p : Int × Int := if x1 < 0 then (0, 1) else if x2 ≥ n then (n - 2, n - 1) else (x1, x2)
  match getIndex row p.1 with
  | .error e => .error e
  | .ok y1 => match getIndex row p.2 with
    | .error e => .error e
    | .ok y2 => if p.2 - p.1 = 0 then .error .zeroDivision else .ok (y1 + (y2 - y1) * (x - p.1) / ((p.2 - p.1 : Int) : ℚ))

/-- one pixel of `apply_t_cor` (`calib/time_calibrator.py:16-28`) -/
def tCorRow (row : List ℚ) (correction : ℚ) : Except Err (List ℚ) :=
  (List.range row.length).mapM (tCorSample row correction)

/-- `apply_t_cor(waveforms, t_cor)` (`calib/time_calibrator.py:11-29`): a row for each pixel, `t_cor[ipix]` its correction -/
def applyTCor : List (List ℚ) → List ℚ → Except Err (List (List ℚ))
  | [], _ => .ok []
  | _ :: _, [] => .error .indexError
  | row :: rows, c :: cs => match tCorRow row c with
    | .error e => .error e
    | .ok r => match applyTCor rows cs with
      | .error e => .error e
      | .ok rs => .ok (r :: rs)

/-! ## SiPM data sheet -/

/-- order of table cells when sorting: NaN last -/
def cellLe : Option ℚ → Option ℚ → Bool
  | some a, some b => decide (a ≤ b)
  | some _, none => true
  | none, none => true
  | none, some _ => false

/-- rows of the interpolation table sorted by `x` (`interp1d(..., assume_sorted=False)`, a stable sort) -/
def sortTable (t : List (Option ℚ × Option ℚ)) : List (Option ℚ × Option ℚ) :=
  t.insertionSort fun a b => cellLe a.1 b.1 = true

/-- `np.interp` at `v` from a row with `xa ≤ v` on: the last row with `x ≤ v` is the left end of the interval.
`none` is NaN: a missing end point makes the result NaN, unless `v` is the left end itself or both values are equal. -/
def interpFrom (v : ℚ) (xa : ℚ) (ya : Option ℚ) : List (Option ℚ × Option ℚ) → Option ℚ
  | [] => ya
  | (none, yb) :: _ => if v = xa then ya else if ya = yb then ya else none
  | (some xb, yb) :: rest =>
    if xb ≤ v then interpFrom v xb yb rest
    else if v = xa then ya
    else match ya, yb with
      | some ya, some yb => some ((yb - ya) / (xb - xa) * (v - xa) + ya)
      | _, _ => none

/-- the search from the first row on; without any number in `x` it stays there -/
def interpStart (v : ℚ) : Option ℚ × Option ℚ → List (Option ℚ × Option ℚ) → Option ℚ
  | (some xa, ya), rest => interpFrom v xa ya rest
  | (none, y), [] => y
  | (none, y), (_, y') :: _ => if y = y' then y else none

/-- `v < x` for a cell; comparisons with NaN are false -/
def below (v : ℚ) : Option ℚ → Bool
  | some x => decide (v < x)
  | none => false

/-- with more than four rows the search of `np.interp` compares `v` with the cells 1, 2 and 3 before it bisects, and takes comparisons with NaN for false:
if cell 2 is missing and `v` is not below cell 1, it ends at cell 2 -/
def searchLost (v : ℚ) (t : List (Option ℚ × Option ℚ)) : Bool :=
  decide (4 < t.length) && (t.getD 2 (none, none)).1.isNone && !below v (t.getD 1 (none, none)).1

/-- `np.interp` at `v` on the sorted table, after the range check -/
def interpAt (v : ℚ) : List (Option ℚ × Option ℚ) → Option ℚ
  | [] => none
  | row :: rest =>
    if searchLost v (row :: rest) then
      let y := ((row :: rest).getD 2 (none, none)).2
      if y = ((row :: rest).getD 3 (none, none)).2 then y else none
    else interpStart v row rest

/-- `v > x` for a cell -/
def above (v : ℚ) : Option ℚ → Bool
  | some x => decide (x < v)
  | none => false

/-- `interp1d(x, y)(v)` (`calib/sipm_data_sheet.py:29-30`), linear, with the default `bounds_error` -/
def interp1d (x y : List (Option ℚ)) (v : ℚ) : Except Err (Option ℚ) :=
  if x.length ≠ y.length then .error .valueError
  else
    let t := sortTable (x.zip y)
    match t.head?, t.getLast? with
    | some first, some last =>
      if below v first.1 || above v last.1 then .error .valueError else .ok (interpAt v t)
    | _, _ => .error .valueError

/-- the named arguments of `SiPMDataSheetConverter.__call__` in the order of the dictionary `values`
(`calib/sipm_data_sheet.py:15-16`) -/
structure SipmQuery where
  vover : Option ℚ := none
  opct : Option ℚ := none
  pde : Option ℚ := none
  gain : Option ℚ := none

def SipmQuery.values (q : SipmQuery) : List (String × Option ℚ) :=
  [("vover", q.vover), ("opct", q.opct), ("pde", q.pde), ("gain", q.gain)]

/-- a table: its columns by name -/
abbrev SipmTable := Dict String (List (Option ℚ))

/-- the loop over the columns (`calib/sipm_data_sheet.py:28-30`) -/
def interpColumns (x : List (Option ℚ)) (v : ℚ) : SipmTable → Except Err (Dict String (Option ℚ))
  | [] => .ok []
  | (name, y) :: cols => match interp1d x y v with
    | .error e => .error e
    | .ok r => match interpColumns x v cols with
      | .error e => .error e
      | .ok rs => .ok ((name, r) :: rs)

/-- `SiPMDataSheetConverter.__call__` (`calib/sipm_data_sheet.py:15-31`) -/
def sipmConvert (df : SipmTable) (q : SipmQuery) : Except Err (Dict String (Option ℚ)) :=
  let values := q.values
  if (values.filter fun kv => kv.2.isSome).length ≠ 1 then .error .valueError
  else match values.filterMap fun kv => kv.2.map fun v => (kv.1, v) with
    | [] => .error .valueError
    | (key, v) :: _ => match df.getItem key with
      | .error e => .error e
      | .ok x => interpColumns x v df

end Verif.Model
