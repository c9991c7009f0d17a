import Verif.Spec.Reducers
import Verif.Model.Timing

/-! # Specification vocabulary for pulse timing -/

namespace Verif.Spec

/-- the waveform falls through `level` between samples `k` and `k + 1` -/
def Falls (row : List ℚ) (level : ℚ) (k : Nat) : Prop := row.getD k 0 ≥ level ∧ level ≥ row.getD (k + 1) 0

/-- the waveform rises through `level` between samples `k` and `k + 1` -/
def Rises (row : List ℚ) (level : ℚ) (k : Nat) : Prop := row.getD (k + 1) 0 ≥ level ∧ level ≥ row.getD k 0

/-- samples `k` and `k + 1` differ, and at `x`, between them, the straight line between these samples has the value `level` -/
def OnLine (row : List ℚ) (level : ℚ) (k : Nat) (x : ℚ) : Prop :=
  row.getD k 0 ≠ row.getD (k + 1) 0 ∧ (k : ℚ) ≤ x ∧ x ≤ k + 1 ∧ row.getD k 0 + (x - k) * (row.getD (k + 1) 0 - row.getD k 0) = level

/-- `x` is where the waveform first falls through `level` after sample `i`, 0 if it does not -/
def FirstFall (row : List ℚ) (level : ℚ) (i : Nat) (x : ℚ) : Prop :=
  (∃ k, i ≤ k ∧ k + 1 < row.length ∧ Falls row level k ∧ OnLine row level k x ∧ ∀ j, i ≤ j → j < k → ¬ Falls row level j) ∨
    (x = 0 ∧ ∀ k, i ≤ k → k + 1 < row.length → ¬ Falls row level k)

/-- `x` is where the waveform last rises through `level` before sample `i`, 0 if it does not -/
def LastRise (row : List ℚ) (level : ℚ) (i : Nat) (x : ℚ) : Prop :=
  (∃ k, k < i ∧ k + 1 < row.length ∧ Rises row level k ∧ OnLine row level k x ∧ ∀ j, k < j → j < i → j + 1 < row.length → ¬ Rises row level j) ∨
    (x = 0 ∧ ∀ k, k < i → k + 1 < row.length → ¬ Rises row level k)

/-- the row followed by the value that is read behind it (if it is a number) -/
def withBeyond (row : List ℚ) (beyond : Option ℚ) : List ℚ := row ++ beyond.toList

/-- mean of the first ten samples -/
def startLevel (row : List ℚ) : ℚ := (row.take 10).sum / (row.take 10).length

end Verif.Spec
