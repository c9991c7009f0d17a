import Verif.Model.Matcher

namespace Verif.Spec

open Verif.Py Verif.Model

/-- the state after the first `k` of a sequence of calls -/
def stateAfter (m : Matcher) (calls : List (Nat × List (List ℚ))) (k : Nat) : Matcher := (processAll m (calls.take k)).1

/-- all superpixels are in the stage `FINISH` -/
def AllFinished (m : Matcher) : Prop := ∀ sp ∈ m.sps, sp.stage = 3

/-- a DAC value that may be set -/
def Allowed (d : Int) : Prop := 10 ≤ d ∧ d ≤ 255

/-- `v` is the mean, over all events and the four pixels of superpixel `i`, of the amplitudes (a row per event) -/
def MeanAmplitude (amp : List (List ℚ)) (i : Nat) (v : ℚ) : Prop :=
  (amp.map fun event => ((event.drop (4 * i)).take 4).sum).sum = v * (4 * amp.length)

/-- one event in which all four pixels of superpixel `i` show the amplitude `resp i d` for its current DAC value `d` -/
def frame (resp : Nat → Int → ℚ) (m : Matcher) : List (List ℚ) :=
  [(List.range (4 * m.sps.length)).map fun p => resp (p / 4) ((m.sps.map Sp.dac).getD (p / 4) 0)]

/-- the control loop: set the DAC values, measure, process -/
def loopState (resp : Nat → Int → ℚ) (m : Matcher) : Nat → Matcher
  | 0 => m
  | k + 1 => (process (loopState resp m k) (4 * m.sps.length) (frame resp (loopState resp m k))).1

/-- result of call `k` of the control loop -/
def loopResult (resp : Nat → Int → ℚ) (m : Matcher) (k : Nat) : Except Err (List Int × Bool) :=
  (process (loopState resp m k) (4 * m.sps.length) (frame resp (loopState resp m k))).2

end Verif.Spec
