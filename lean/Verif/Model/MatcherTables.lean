import Verif.Model.Matcher

/-!
# `calib/amplitude_matcher.py:64-67, 105, 140-191`: the arrays of an `AmplitudeMatcher` as objects

`Verif.Model.Matcher` has the values of the arrays only. Here the arrays of DAC values are objects, in the order of their creation, which a caller that was given one can write
into, and the results have their shapes. The mask is the memory of the array given as `bad_hv` (line 57: `ravel` of an array in memory order is a view).
-/

namespace Verif.Model

open Verif.Py

/-- an `AmplitudeMatcher`: `current` and `previous` are the numbers of the arrays `current_dac` and `previous_dac`; `rest` has the entries of `previous_distance` and
`stage` -/
structure MatcherObj where
  aim : ℚ
  mask : List Bool
  globalStage : Nat
  iteration : Nat
  arrays : List (List Int)
  current : Nat
  previous : Nat
  rest : List (ℚ × Nat)

/-- the entries of one superpixel in the four arrays -/
def joinSp : List Int → List Int → List (ℚ × Nat) → List Sp
  | d :: ds, p :: ps, r :: rs => ⟨d, p, r.1, r.2⟩ :: joinSp ds ps rs
  | _, _, _ => []

/-- `previous_distance` and `stage` -/
def restOf (sps : List Sp) : List (ℚ × Nat) := sps.map fun sp => (sp.prevDist, sp.stage)

/-- the values of the arrays -/
def MatcherObj.state (o : MatcherObj) : Matcher :=
  ⟨o.aim, o.mask, o.globalStage, o.iteration, joinSp (o.arrays.getD o.current []) (o.arrays.getD o.previous []) o.rest⟩

/-- the constructor (`calib/amplitude_matcher.py:41-68`): two copies of the starting values -/
def newMatcherObj (nPixels : Nat) (aim : ℚ) (starting : Option (List Int)) (badHv : Option (List Bool)) : MatcherObj :=
  let dacs := starting.getD (List.replicate (nPixels / 4) 100)
  ⟨aim, matcherMask nPixels badHv, 0, 0, [dacs, dacs], 0, 1, dacs.map fun _ => (0, 0)⟩

/-- an array given to the caller: its number and the shape in which it is seen -/
structure TableRef where
  array : Nat
  shape : List Nat
  deriving DecidableEq

/-- `np.mean(amplitude, axis=0)` (`calib/amplitude_matcher.py:169`); NaN without events -/
def pixelAverages (nPixels : Nat) (amplitude : List (List ℚ)) : List (Option ℚ) :=
  (List.range nPixels).map fun p =>
    if amplitude.isEmpty then none else some ((amplitude.map fun row => row.getD p 0).sum / (amplitude.length : ℚ))

/-- `process` (`calib/amplitude_matcher.py:154-191`) as in `Verif.Model.process`. `_get_next_dac_nb` fills a copy of `current_dac` (line 105), which becomes `current_dac` while the array
before becomes `previous_dac` (lines 147-150), and is given to the caller as a view of shape (32, 16) (line 191). When both passes are finished `current_dac` itself is given
(line 178). -/
def MatcherObj.call (o : MatcherObj) (nPixels : Nat) (amplitude : List (List ℚ)) :
    MatcherObj × Except Err (TableRef × List (Option ℚ) × Bool) :=
  if amplitude ≠ [] ∧ nPixels % 4 ≠ 0 then (o, .error .valueError)
  else
    let m := resetIfDue o.state
    let o := { o with globalStage := m.globalStage, iteration := m.iteration, rest := restOf m.sps }
    if m.globalStage = 3 then (o, .ok (⟨o.current, [(o.arrays.getD o.current []).length]⟩, pixelAverages nPixels amplitude, true))
    else match stepFails m (nPixels / 4) amplitude.isEmpty 0 m.sps with
    | some e => ({ o with rest := restOf (spoilAll m (nPixels / 4) amplitude 0 m.sps) }, .error e)
    | none =>
      let sps := stepAll m amplitude 0 m.sps
      let finished := sps.all fun sp => sp.stage == 3
      let o := { o with arrays := o.arrays ++ [sps.map Sp.dac], previous := o.current, current := o.arrays.length, rest := restOf sps,
                        iteration := m.iteration + 1, globalStage := if finished then m.globalStage + 1 else m.globalStage }
      if sps.length ≠ 512 then (o, .error .valueError)
      else (o, .ok (⟨o.current, [32, 16]⟩, pixelAverages nPixels amplitude, false))

/-- `table[module, superpixel]`: `IndexError` outside the shape, or with a table of one dimension -/
def readCell (o : MatcherObj) (t : TableRef) (module superpixel : Nat) : Except Err Int :=
  match t.shape with
  | [a, b] => if module < a ∧ superpixel < b then getIndex (o.arrays.getD t.array []) (b * module + superpixel : Nat) else .error .indexError
  | _ => .error .indexError

/-- the caller sets the entry `pos`, counted in memory order, of an array it was given -/
def MatcherObj.write (o : MatcherObj) (t : TableRef) (pos : Nat) (v : Int) : MatcherObj :=
  { o with arrays := o.arrays.set t.array ((o.arrays.getD t.array []).set pos v) }

/-- the caller sets an entry of the array given as `bad_hv` -/
def MatcherObj.flag (o : MatcherObj) (pos : Nat) (b : Bool) : MatcherObj := { o with mask := o.mask.set pos b }

/-- what a caller can do with the object and the arrays -/
inductive MatcherAction where
  | call (nPixels : Nat) (amplitude : List (List ℚ))
  | write (t : TableRef) (pos : Nat) (v : Int)
  | flag (pos : Nat) (b : Bool)

/-- the result of a call; of a table, the shape and the values it has when it is returned -/
def MatcherObj.shown (o : MatcherObj) : Except Err (TableRef × List (Option ℚ) × Bool) → Except Err (List Nat × List Int × List (Option ℚ) × Bool)
  | .error e => .error e
  | .ok (t, averages, finished) => .ok (t.shape, o.arrays.getD t.array [], averages, finished)

/-- the object after some actions, and the results of the calls among them -/
def MatcherObj.run (o : MatcherObj) : List MatcherAction → MatcherObj × List (Except Err (List Nat × List Int × List (Option ℚ) × Bool))
  | [] => (o, [])
  | .write t pos v :: as => (o.write t pos v).run as
  | .flag pos b :: as => (o.flag pos b).run as
  | .call nPixels amplitude :: as =>
    let r := o.call nPixels amplitude
    let rs := r.1.run as
    (rs.1, r.1.shown r.2 :: rs.2)

end Verif.Model
