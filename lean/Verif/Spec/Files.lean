import Verif.Model.Files
import Verif.Model.PixelMasks

namespace Verif.Spec

open Verif.Py Verif.Model

/-- the decimal digits -/
def digitChars : List Char := ['0', '1', '2', '3', '4', '5', '6', '7', '8', '9']

theorem mem_digitChars (c : Char) : c ∈ digitChars ↔ isDigitChar c = true := by
  constructor
  · intro h
    simp only [digitChars, List.mem_cons, List.not_mem_nil, or_false] at h
    rcases h with h | h | h | h | h | h | h | h | h | h <;> subst h <;> rfl
  · intro h
    unfold isDigitChar at h
    simp only [Bool.and_eq_true, decide_eq_true_eq] at h
    have hc : c = Char.ofNat c.toNat := (Char.ofNat_toNat c).symm
    rw [hc]
    generalize c.toNat = n at h
    have : n ∈ [48, 49, 50, 51, 52, 53, 54, 55, 56, 57] := by simp; omega
    simp only [List.mem_cons, List.not_mem_nil, or_false] at this
    rcases this with h | h | h | h | h | h | h | h | h | h <;> subst h <;> decide

/-- every character is a digit, and there is one -/
def Digits (d : List Char) : Prop := d ≠ [] ∧ ∀ c ∈ d, c ∈ digitChars

/-- the text does not begin with a digit -/
def NoDigitAhead (s : List Char) : Prop := ∀ c, s.head? = some c → c ∉ digitChars

/-- the text does not end with a digit -/
def NoDigitBehind (s : List Char) : Prop := ∀ c, s.getLast? = some c → c ∉ digitChars

theorem digits_iff (d : List Char) : Digits d ↔ d ≠ [] ∧ ∀ c ∈ d, isDigitChar c = true := by
  unfold Digits
  simp only [mem_digitChars]

theorem noDigitAhead_iff (s : List Char) : NoDigitAhead s ↔ ∀ c, s.head? = some c → isDigitChar c = false := by
  unfold NoDigitAhead
  simp only [mem_digitChars, Bool.not_eq_true]

theorem noDigitBehind_iff (s : List Char) : NoDigitBehind s ↔ ∀ c, s.getLast? = some c → isDigitChar c = false := by
  unfold NoDigitBehind
  simp only [mem_digitChars, Bool.not_eq_true]

/-- at position `i` of the line stands `M:<m>/F/S:<s>|<tag>=<v>`, `<v>` taken to its last digit -/
def AssignmentAt (tag line : List Char) (i m s v : Nat) : Prop :=
  ∃ dm ds dv post, line.drop i = 'M' :: ':' :: (dm ++ ('/' :: 'F' :: '/' :: 'S' :: ':' :: (ds ++ ('|' :: (tag ++ ('=' :: (dv ++ post))))))) ∧
    Digits dm ∧ Digits ds ∧ Digits dv ∧ NoDigitAhead post ∧ m = parseDec dm ∧ s = parseDec ds ∧ v = parseDec dv

/-- the first assignment with the given tag on the line -/
def Assigns (tag line : List Char) (m s v : Nat) : Prop :=
  ∃ i, AssignmentAt tag line i m s v ∧ ∀ j < i, ∀ m' s' v', ¬ AssignmentAt tag line j m' s' v'

/-- lines mentioning `HVOn` belong to the on/off table, all others to the voltage table -/
def SetsHv (on : Bool) (line : List Char) (m s v : Nat) : Prop :=
  if on then ['H', 'V', 'O', 'n'] <:+: line ∧ Assigns ['H', 'V', 'O', 'n'] line m s v
  else ¬ ['H', 'V', 'O', 'n'] <:+: line ∧ Assigns ['H', 'V'] line m s v

/-- calendar order -/
def Clock.Before (a b : Clock) : Prop :=
  a.year < b.year ∨ (a.year = b.year ∧ (a.month < b.month ∨ (a.month = b.month ∧ (a.day < b.day ∨ (a.day = b.day ∧
    (a.hour < b.hour ∨ (a.hour = b.hour ∧ a.minute < b.minute)))))))

/-- fields of a point in time -/
def Clock.Valid (t : Clock) : Prop := 1 ≤ t.month ∧ t.month ≤ 12 ∧ 1 ≤ t.day ∧ t.day ≤ 31 ∧ t.hour < 24 ∧ t.minute < 60

/-- masks of a full camera -/
def Masks.Full (m : Masks) : Prop := m.dead.length = 2048 ∧ m.low.length = 2048 ∧ m.badHv.length = 512

end Verif.Spec
