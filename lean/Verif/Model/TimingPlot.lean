import Verif.Model.Timing
import Verif.Model.Figures

/-!
# The check plot of `Timing`: `waveform_reducers/timing.py:217-251`

What is drawn in the two panels, and the figures of pyplot. Titles, colours, legends and the pause are not modelled; matplotlib is assumed to be importable.
-/

namespace Verif.Model

open Verif.Py

/-- what one panel shows: the waveform, the vertical lines, and the dot at the pulse -/
structure TimingPanel where
  curve : List ℚ
  tEvent : Int
  window : Int × Int
  tPulse : ℚ
  dot : ℚ × ℚ
  tL : ℚ
  tR : ℚ
  t10 : ℚ
  t90 : ℚ
  deriving DecidableEq

/-- `row[t]`: negative positions count from the end; `IndexError` outside -/
def sampleAt (t : Int) (row : List ℚ) : Except Err ℚ :=
  let j := if t < 0 then t + row.length else t
  if 0 ≤ j ∧ j < row.length then .ok (row.getD j.toNat 0) else .error .indexError

/-- `np.argmin`: the first position of the minimum; `ValueError` on an empty array -/
def argmin (xs : List ℚ) : Except Err Nat := argmax (xs.map fun x => -x)

/-- the panel of pixel `i` (`waveform_reducers/timing.py:226-236`, `239-248`) -/
def timingPanel (kwargs : Config Setting) (ws : List (List ℚ)) (t : Int) (ps : List PulseTiming) (i : Nat) : Except Err TimingPanel :=
  match ws[i]?, ps[i]? with
  | some r, some p =>
    let start := t - kwNumber kwargs "window_shift" 4
    .ok ⟨r, t, (start, start + kwNumber kwargs "window_size" 8), p.tPulse, (p.tPulse, p.hPulse), p.tL, p.tR, p.t10, p.t90⟩
  | _, _ => .error .indexError

/-- `Timing._post` (`waveform_reducers/timing.py:217-251`): pyplot afterwards, and the panels of the largest and the smallest pulse. The pixels are found before the figure is made;
`plt.close("all")` closes every figure. Simplification: for an event without pixels `ValueError` is raised whatever the time. -/
def timingPost (plot : Bool) (kwargs : Config Setting) (s : Pyplot) (ws : List (List ℚ)) (t : Int) (ps : List PulseTiming) :
    Pyplot × Except Err (Option (TimingPanel × TimingPanel)) :=
  if plot then
    match ws.mapM (sampleAt t) with
    | .error e => (s, .error e)
    | .ok column => match argmax column, argmin column with
      | .ok ipulse, .ok ilow =>
        let s := (newFigure s).1
        match timingPanel kwargs ws t ps ipulse, timingPanel kwargs ws t ps ilow with
        | .ok large, .ok low => ({ s with opened := [] }, .ok (some (large, low)))
        | .error e, _ => (s, .error e)
        | _, .error e => (s, .error e)
      | .error e, _ => (s, .error e)
      | _, .error e => (s, .error e)
  else (s, .ok none)

/-- whether `plot_timing` is set to something true (`waveform_reducers/timing.py:115-120`, `:218`) -/
def plotTiming (kwargs : Config Setting) : Bool :=
  match Dict.get? kwargs "plot_timing" with
  | some v => v.truthy
  | none => false

/-- `process` of `Timing` (`core/reducer.py:171-189`): the event time and the values of the pixels, from which the columns are taken, and what was drawn. `plot_timing` is taken out of the keyword
arguments by the constructor (`waveform_reducers/timing.py:115-120`). -/
def timingProcess (kwargs : Config Setting) (mem : Nat → Option ℚ) (s : Pyplot) (ws : List (List ℚ)) :
    Pyplot × Except Err ((Int × List PulseTiming) × Option (TimingPanel × TimingPanel)) :=
  match timingPrepare kwargs mem ws with
  | .error e => (s, .error e)
  | .ok (t, ps) => match timingPost (plotTiming kwargs) kwargs s ws t ps with
    | (s, .error e) => (s, .error e)
    | (s, .ok panels) => (s, .ok ((t, ps), panels))

end Verif.Model
