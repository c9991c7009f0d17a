import Verif.Spec.Reducers

/-!
# Waveforms that arrive later
-/

namespace Verif.Spec

/-- `r'` is the waveform `r` arriving `d` samples later in a readout of the same length. At least `margin` samples on both sides of the pulse are zero
in both waveforms. -/
structure DelayedBy (d margin : Nat) (r r' : List ℚ) : Prop where
  length : r'.length = r.length
  before : ∀ i < d + margin, r'.getD i 0 = 0
  same : ∀ i, r'.getD (i + d) 0 = r.getD i 0
  after : ∀ i, r'.length ≤ i + margin → r'.getD i 0 = 0

/-- the same for all pixels of an event -/
def EventDelayedBy (d margin : Nat) (ws ws' : List (List ℚ)) : Prop := List.Forall₂ (DelayedBy d margin) ws ws'

end Verif.Spec
