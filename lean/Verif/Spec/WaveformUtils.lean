import Verif.Model.WaveformUtils

/-! # Specification vocabulary for waveform utilities -/

namespace Verif.Spec

open Verif.Model

/-- sum of the first `m` samples of pixel `p` -/
def headSum (m : Nat) (rows : List (List ℚ)) (p : Nat) : ℚ := ((rows.getD p []).take m).sum

/-- the baseline of pixel `p` after the waveforms `ws` were seen: the last `n` of them, completed — while there are fewer
than `n` — by the events `ws.length, ..., n - 1` of the source -/
def rollingBaseline (n m : Nat) (source : List WfEvent) (ws : List (List (List ℚ))) (p : Nat) : ℚ :=
  (((ws.drop (ws.length - n)).map fun w => headSum m w p).sum
    + (((source.take n).drop ws.length).map fun e => headSum m e.rows p).sum) / ((n : ℚ) * (m : ℚ))

/-- waveforms of a camera with `np` pixels and at least `m` samples -/
def Regular (np m : Nat) (rows : List (List ℚ)) : Prop := rows.length = np ∧ ∀ r ∈ rows, m ≤ r.length

/-- the events carry the ids 0, 1, 2, ... -/
def Numbered (source : List WfEvent) : Prop := ∀ j (h : j < source.length), source[j].iev = j

/-- average over the pixels at sample `k` -/
def pixelAverage (rows : List (List ℚ)) (k : Nat) : ℚ := (rows.map fun r => r.getD k 0).sum / rows.length

/-- the array of `np` rows and `n` columns with the entries `f p j` -/
def grid (np n : Nat) (f : Nat → Nat → ℚ) : List (List ℚ) := (List.range np).map fun p => (List.range n).map fun j => f p j

/-- average over the pixels of pulse shapes -/
def shapeAverage (np : Nat) (q : Nat → Int → ℚ) (k : Int) : ℚ := ((List.range np).map fun p => q p k).sum / np

end Verif.Spec
