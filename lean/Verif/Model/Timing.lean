import Verif.Model.Reducers
import Mathlib.Data.Rat.Floor

/-!
# `waveform_reducers/timing.py`

Numbers are exact. `numba` does not check array bounds: a sample read outside the row has the value `beyond`, `none` standing for NaN (for
which every comparison is false; what lies there is a number or NaN, not an infinity). With `numba`'s default error model a division by zero raises `ZeroDivisionError`.
-/

namespace Verif.Model

open Verif.Py

/-- `np.round`: to the nearest integer, halves to the even one -/
def roundEven (x : ℚ) : Int :=
  let f := ⌊x⌋
  if x - f < 1 / 2 then f
  else if 1 / 2 < x - f then f + 1
  else if f % 2 = 0 then f else f + 1

/-- `wf[i]` in `numba`: negative indices count from the end, other indices outside read whatever is there -/
def readSample (beyond : Option ℚ) (row : List ℚ) (i : Int) : Option ℚ :=
  let j := if i < 0 then i + row.length else i
  if 0 ≤ j ∧ j < row.length then some (row.getD j.toNat 0) else beyond

/-- `xi + (level - yi) * (xj - xi) / (yj - yi)` (`waveform_reducers/timing.py:66`, `76`, `79`, `82`) -/
def crossing (level yi yj : ℚ) (xi xj : Int) : Except Err ℚ :=
  if yj - yi = 0 then .error .zeroDivision else .ok (xi + (level - yi) * ((xj : ℚ) - xi) / (yj - yi))

/-- the forward loop (`waveform_reducers/timing.py:60-67`): `steps` samples are left, starting at `xi`; 0 if there is no crossing -/
def forwardLoop (row : List ℚ) (level : ℚ) : Nat → Nat → Except Err ℚ
  | 0, _ => .ok 0
  | steps + 1, xi =>
    if row.getD xi 0 ≥ level ∧ level ≥ row.getD (xi + 1) 0 then crossing level (row.getD xi 0) (row.getD (xi + 1) 0) xi (xi + 1)
    else forwardLoop row level steps (xi + 1)

/-- one `if yi >= level >= yj: if not t: t = ...` (`waveform_reducers/timing.py:74-76`, `77-79`, `80-82`) for the pair of sample `xi` and the one
before it -/
def updateCrossing (level : ℚ) (yi : Option ℚ) (yj : ℚ) (xi : Nat) (t : ℚ) : Except Err ℚ :=
  match yi with
  | none => .ok t
  | some yi => if yi ≥ level ∧ level ≥ yj ∧ t = 0 then crossing level yi yj xi ((xi : Int) - 1) else .ok t

/-- the backward loop (`waveform_reducers/timing.py:69-84`), at sample `xi`; the state is `(fwhm_l, rt_90, rt_10)` -/
def backwardLoop (beyond : Option ℚ) (row : List ℚ) (half p90 p10 : ℚ) : Nat → ℚ × ℚ × ℚ → Except Err (ℚ × ℚ × ℚ)
  | 0, s => .ok s
  | xj + 1, (l, a, b) =>
    let yi := readSample beyond row ((xj : Int) + 1)
    let yj := row.getD xj 0
    match updateCrossing half yi yj (xj + 1) l with
    | .error e => .error e
    | .ok l' => match updateCrossing p90 yi yj (xj + 1) a with
      | .error e => .error e
      | .ok a' => match updateCrossing p10 yi yj (xj + 1) b with
        | .error e => .error e
        | .ok b' => if l' ≠ 0 ∧ a' ≠ 0 ∧ b' ≠ 0 then .ok (l', a', b') else backwardLoop beyond row half p90 p10 xj (l', a', b')

/-- the values of one pixel; `none` is NaN -/
structure PulseTiming where
  tPulse : ℚ := 0
  hPulse : ℚ := 0
  fwhm : Option ℚ := some 0
  riseTime : Option ℚ := some 0
  tL : ℚ := 0
  tR : ℚ := 0
  t10 : ℚ := 0
  t90 : ℚ := 0
  deriving DecidableEq

/-- `a - b` if both are set, otherwise NaN (`waveform_reducers/timing.py:86-94`) -/
def difference (a b : ℚ) : Option ℚ := if a ≠ 0 ∧ b ≠ 0 then some (a - b) else none

/-- the loops for a pulse of height `h` above `baseline` at `t` (`waveform_reducers/timing.py:46-104`) -/
def pulseShape (beyond : Option ℚ) (row : List ℚ) (baseline hPulse tPulse : ℚ) : Except Err PulseTiming :=
  let iPulse := (roundEven tPulse).toNat
  match forwardLoop row (baseline + hPulse / 2) (row.length - 1 - iPulse) iPulse with
  | .error e => .error e
  | .ok r => match backwardLoop beyond row (baseline + hPulse / 2) (baseline + 9 / 10 * hPulse) (baseline + 1 / 10 * hPulse) iPulse (0, 0, 0) with
    | .error e => .error e
    | .ok (l, a, b) => .ok ⟨tPulse, hPulse, difference r l, difference a b, l, r, b, a⟩

/-- the body of the pixel loop of `obtain_pulse_timing` (`waveform_reducers/timing.py:22-104`) -/
def pixelTiming (beyond : Option ℚ) (row : List ℚ) (windowStart windowEnd : Int) : Except Err PulseTiming :=
  let baseline := mean (sliceList row none (some 10))
  match argmax (sliceList row (some windowStart) (some windowEnd)) with
  | .error e => .error e
  | .ok k =>
    let peakpos := (k : Int) + windowStart
    match readSample beyond row (peakpos - 1), readSample beyond row peakpos, readSample beyond row (peakpos + 1) with
    | some y0, some y1, some y2 =>
      let a := y0 - y2
      let b := y0 - 2 * y1 + y2
      if b = 0 then .ok {}
      else
        let t := (1 / 2) * a / b
        let h := y1 - (1 / 4) * (y0 - y2) * t
        if 0 ≤ t + peakpos ∧ t + peakpos < row.length then pulseShape beyond row baseline (h - baseline) (t + peakpos)
        else .ok {}
    | _, _, _ => .ok {}

/-- all pixels of an event; `mem i` is what is read outside row `i` -/
def pixelTimings (mem : Nat → Option ℚ) (windowStart windowEnd : Int) : Nat → List (List ℚ) → Except Err (List PulseTiming)
  | _, [] => .ok []
  | i, r :: rs => match pixelTiming (mem i) r windowStart windowEnd with
    | .error e => .error e
    | .ok p => match pixelTimings mem windowStart windowEnd (i + 1) rs with
      | .error e => .error e
      | .ok ps => .ok (p :: ps)

/-- `Timing._prepare` (`waveform_reducers/timing.py:149-179`): `t_event` and the values of the pixels -/
def timingPrepare (kwargs : Config Setting) (mem : Nat → Option ℚ) (ws : List (List ℚ)) : Except Err (Int × List PulseTiming) :=
  match extractionTime kwargs "t_extract" ws with
  | .error e => .error e
  | .ok t =>
    let start := t - kwNumber kwargs "window_shift" 4
    match pixelTimings mem start (start + kwNumber kwargs "window_size" 8) 0 ws with
    | .error e => .error e
    | .ok ps => .ok (t, ps)

end Verif.Model
