import Verif.Py.Array

/-!
# `calib/amplitude_matcher.py`: the amplitude matching procedure

The arrays indexed by superpixel are one list of records. The type of the starting values is wide enough for every value. The constructor is modelled for a table of starting values of
one per superpixel. Amplitudes are exact rationals; the aim is assumed to be non-zero wherever a distance matters (a zero
aim gives infinities). Extracting amplitudes from the raw file is not modelled: a call is given the array
`amplitude` of events and pixels; without events the averages are NaN. The returned table shares its memory with the state in the source; a caller that writes
into it is not modelled.
-/

namespace Verif.Model

open Verif.Py

/-- entries of one superpixel of `current_dac`, `previous_dac`, `previous_distance`, `stage`
(`calib/amplitude_matcher.py:64-67`). Stages: 0 `STEP10`, 1 `STEP5`, 2 `STEP1`, 3 `FINISH` (lines 6-10). -/
structure Sp where
  dac : Int
  prevDac : Int
  prevDist : ℚ
  stage : Nat
  deriving DecidableEq

/-- the state of an `AmplitudeMatcher`. Global stages: 0 `FIRST_PASS`, 1 `RESET`, 2 `SECOND_PASS`, 3 `FINISH` (lines 13-17). -/
structure Matcher where
  aim : ℚ
  mask : List Bool
  globalStage : Nat
  iteration : Nat
  sps : List Sp

/-- `sp_mask` from the constructor arguments (`calib/amplitude_matcher.py:52-57`): the superpixel reduction in line 56 is
computed and discarded -/
def matcherMask (nPixels : Nat) (badHv : Option (List Bool)) : List Bool :=
  match badHv with
  | none => List.replicate (nPixels / 4) false
  | some bad => bad

/-- `AmplitudeMatcher.__init__` (`calib/amplitude_matcher.py:41-68`); `none` for `starting_dacs` is 100 for each superpixel -/
def newMatcher (nPixels : Nat) (aim : ℚ) (starting : Option (List Int)) (badHv : Option (List Bool)) : Matcher :=
  let dacs := starting.getD (List.replicate (nPixels / 4) 100)
  ⟨aim, matcherMask nPixels badHv, 0, 0, dacs.map fun d => ⟨d, d, 0, 0⟩⟩

/-- the average amplitude of superpixel `isp`: mean over events and its 4 pixels (`calib/amplitude_matcher.py:92`) -/
def spAverage (amplitude : List (List ℚ)) (isp : Nat) : ℚ :=
  (amplitude.map fun row => row.getD (4 * isp) 0 + row.getD (4 * isp + 1) 0 + row.getD (4 * isp + 2) 0 + row.getD (4 * isp + 3) 0).sum /
    ((4 * amplitude.length : Nat) : ℚ)

/-- `np.sign` -/
def npSign (x : ℚ) : Int := if 0 < x then 1 else if x < 0 then -1 else 0

/-- `direction` (`calib/amplitude_matcher.py:93`) -/
def directionOf (aim average : ℚ) : Int := npSign (average - aim)

/-- `distance` (`calib/amplitude_matcher.py:94`) -/
def distanceOf (aim average : ℚ) : ℚ := ((average - aim) / aim) ^ 2

/-- the body of the loop over superpixels (`calib/amplitude_matcher.py:105-136`): the next DAC value and stage -/
def nextDac (iteration : Nat) (masked : Bool) (distance : ℚ) (direction : Int) (sp : Sp) : Int × Nat :=
  if sp.stage = 3 then (sp.dac, sp.stage)
  else if masked then (255, 3)
  else
    let previous := if iteration = 0 then distance else sp.prevDist
    if previous < distance then (sp.prevDac, sp.stage + 1)
    else
      let next :=
        if sp.stage = 0 then sp.dac + 10 * direction
        else if sp.stage = 1 then sp.dac + 5 * direction
        else if sp.stage = 2 then sp.dac + 1 * direction
        else sp.dac
      if next > 255 then (255, 3)
      else if next < 10 then (255, 3)
      else (next, sp.stage)

/-- one superpixel after `_get_next_dac` (`calib/amplitude_matcher.py:140-150`) -/
def stepSp (iteration : Nat) (masked : Bool) (distance : ℚ) (direction : Int) (sp : Sp) : Sp :=
  let r := nextDac iteration masked distance direction sp
  ⟨r.1, sp.dac, distance, r.2⟩

/-- superpixel `isp` in a call -/
def stepAt (m : Matcher) (amplitude : List (List ℚ)) (isp : Nat) (sp : Sp) : Sp :=
  stepSp m.iteration (m.mask.getD isp false) (distanceOf m.aim (spAverage amplitude isp)) (directionOf m.aim (spAverage amplitude isp)) sp

/-- the loop reaches the end of its body for superpixel `isp` without an index outside the mask (line 109) or outside the
averages (lines 115, 117), and without adding NaN to an integer (lines 123-128: the averages of a file without events are NaN) -/
def canStep (m : Matcher) (nAverage : Nat) (noEvents : Bool) (isp : Nat) (sp : Sp) : Bool :=
  sp.stage == 3 || (decide (isp < m.mask.length) && (m.mask.getD isp false || (decide (isp < nAverage) && !noEvents)))

/-- what an exception later in the loop leaves of the step for superpixel `isp`: `stage` and (in a first iteration)
`previous_distance` are changed in place, the DAC values are not. (The `previous_distance` of the superpixel at which a file without events
fails becomes NaN in a first iteration; it is kept here, as the next call overwrites it before reading it.) -/
def spoiled (m : Matcher) (amplitude : List (List ℚ)) (isp : Nat) (sp : Sp) : Sp :=
  { sp with
    stage := (stepAt m amplitude isp sp).stage
    prevDist := if sp.stage ≠ 3 ∧ m.mask.getD isp false = false ∧ m.iteration = 0 then distanceOf m.aim (spAverage amplitude isp) else sp.prevDist }

/-- all superpixels, from number `isp` on -/
def stepAll (m : Matcher) (amplitude : List (List ℚ)) : Nat → List Sp → List Sp
  | _, [] => []
  | isp, sp :: sps => stepAt m amplitude isp sp :: stepAll m amplitude (isp + 1) sps

/-- the exception with which the loop fails at some superpixel: `IndexError`, or `ValueError` for NaN -/
def stepFails (m : Matcher) (nAverage : Nat) (noEvents : Bool) : Nat → List Sp → Option Err
  | _, [] => none
  | isp, sp :: sps =>
    if canStep m nAverage noEvents isp sp then stepFails m nAverage noEvents (isp + 1) sps
    else some (if isp < m.mask.length ∧ isp < nAverage then .valueError else .indexError)

/-- all superpixels after a failing loop -/
def spoilAll (m : Matcher) (nAverage : Nat) (amplitude : List (List ℚ)) : Nat → List Sp → List Sp
  | _, [] => []
  | isp, sp :: sps =>
    if canStep m nAverage amplitude.isEmpty isp sp then spoiled m amplitude isp sp :: spoilAll m nAverage amplitude (isp + 1) sps else sp :: sps

/-- the reset at the start of the second pass (`calib/amplitude_matcher.py:172-175`) -/
def resetIfDue (m : Matcher) : Matcher :=
  if m.globalStage = 1 then { m with iteration := 0, sps := m.sps.map fun sp => { sp with stage := 2 }, globalStage := 2 } else m

/-- `process` (`calib/amplitude_matcher.py:154-191`): the state after the call and its result (DAC table, finished). The shape of
`amplitude` is checked where the source fails: the number of pixels has to be a multiple of 4 (`reshape`, line 92, which without events always
succeeds), mask and averages have to reach all superpixels, and the table has to have 512 entries (line 191, after the state was updated). -/
def process (m : Matcher) (nPixels : Nat) (amplitude : List (List ℚ)) : Matcher × Except Err (List Int × Bool) :=
  if amplitude ≠ [] ∧ nPixels % 4 ≠ 0 then (m, .error .valueError)
  else
    let m := resetIfDue m
    if m.globalStage = 3 then (m, .ok (m.sps.map Sp.dac, true))
    else match stepFails m (nPixels / 4) amplitude.isEmpty 0 m.sps with
    | some e => ({ m with sps := spoilAll m (nPixels / 4) amplitude 0 m.sps }, .error e)
    | none =>
      let sps := stepAll m amplitude 0 m.sps
      let finished := sps.all fun sp => sp.stage == 3
      let m := { m with sps := sps, iteration := m.iteration + 1, globalStage := if finished then m.globalStage + 1 else m.globalStage }
      if sps.length ≠ 512 then (m, .error .valueError)
      else (m, .ok (sps.map Sp.dac, false))

/-- a sequence of calls: the final state and the results -/
def processAll (m : Matcher) : List (Nat × List (List ℚ)) → Matcher × List (Except Err (List Int × Bool))
  | [] => (m, [])
  | (nPixels, amplitude) :: calls =>
    let r := process m nPixels amplitude
    let rs := processAll r.1 calls
    (rs.1, r.2 :: rs.2)

end Verif.Model
