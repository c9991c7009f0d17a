import Verif.Model.Interpolate
import Verif.Model.CrossCorr
import Verif.Model.WaveformUtils

/-!
# `examples/extract_reference_pulse.py`: the reference pulse of a run

The numbers of the file are written with six digits (`np.savetxt`, line 42), which is not modelled. Division by an area of zero gives infinities and NaN (`Flt`).
-/

namespace Verif.Model

open Verif.Py

/-- the rows (time, value) written by the script (`examples/extract_reference_pulse.py:29-34, 40-42`) for the events `source` of a camera with `nPixels` pixels and `n`
samples. The average of a run without events, which is NaN, is zero here (see `getAverageWf`); both give NaN. -/
def extractPulse (junk : Nat → Nat → ℚ) (nPixels n : Nat) (source : List WfEvent) : Except Err (List (ℚ × Flt)) :=
  match getAverageWf junk nPixels n source 60 with
  | .error e => .error e
  | .ok pulse => .ok (pulse.mapIdx fun i y => ((i : ℚ) * (1 / 1000000000), fltDiv y (trapz pulse)))

end Verif.Model
