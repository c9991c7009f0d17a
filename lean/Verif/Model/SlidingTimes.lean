import Verif.Model.CrossCorr

/-!
# the pulse times of `waveform_reducers/sliding_window.py`

`time row peak width` is `ctapipe`'s `extract_pulse_time_around_peak(row, peak, width, 0)`, which is external: nothing is assumed about it here.
-/

namespace Verif.Model

open Verif.Py

/-- `t_sliding` (`waveform_reducers/sliding_window.py:31-46`) -/
def timeSliding {τ : Type} (time : List ℚ → Nat → Nat → τ) (size : Nat) (ws : List (List ℚ)) : Except Err (List τ) :=
  match slidingPrepare size ws with
  | .error e => .error e
  | .ok p => .ok (ws.map fun r => time r p size)

/-- `t_sliding_local` (`waveform_reducers/sliding_window.py:63-77`) -/
def timeSlidingLocal {τ : Type} (time : List ℚ → Nat → Nat → τ) (size : Nat) (ws : List (List ℚ)) : Except Err (List τ) :=
  match correlateRows (slidingWindow size).1 (slidingWindow size).2 ws with
  | .error e => .error e
  | .ok c => match argmaxRows c with
    | .error e => .error e
    | .ok ps => .ok (List.zipWith (fun r p => time r p size) ws ps)

/-- `t_sliding_nn` (`waveform_reducers/sliding_window.py:110-125`); `avg` is `ctapipe`'s `neighbor_average_waveform` -/
def timeSlidingNn {τ : Type} (time : List ℚ → Nat → Nat → τ) (avg : List (List ℚ) → List (List ℚ)) (size : Nat) (ws : List (List ℚ)) :
    Except Err (List τ) :=
  match correlateRows (slidingWindow size).1 (slidingWindow size).2 (avg ws) with
  | .error e => .error e
  | .ok c => match argmaxRows c with
    | .error e => .error e
    | .ok ps => .ok (List.zipWith (fun r p => time r p size) ws ps)

end Verif.Model
