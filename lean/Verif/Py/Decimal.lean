import Mathlib.Data.List.Basic
import Mathlib.Tactic.Ring

/-! # Decimal notation: `str(n)`, `f"{n:02}"`, `int(s)` on ASCII digits -/

namespace Verif.Py

/-- the digit character of `d < 10` -/
def digitChar (d : Nat) : Char := Char.ofNat (48 + d)

/-- `fuel` bounds the number of digits -/
def decimalAux : Nat → Nat → List Char
  | 0, _ => []
  | fuel + 1, n => if n < 10 then [digitChar n] else decimalAux fuel (n / 10) ++ [digitChar (n % 10)]

/-- `str(n)` for a natural number -/
def decimal (n : Nat) : List Char := decimalAux (n + 1) n

/-- value of a digit character -/
def digitVal (c : Char) : Nat := c.toNat - 48

/-- `'0' <= c <= '9'` -/
def isDigitChar (c : Char) : Bool := 48 ≤ c.toNat && c.toNat ≤ 57

/-- `int(s)` for a string of digits -/
def parseDec (cs : List Char) : Nat := cs.foldl (fun a c => 10 * a + digitVal c) 0

/-- `f"{n:0w}"`: padded with zeros to at least `w` characters -/
def decimalPad (w n : Nat) : List Char := List.replicate (w - (decimal n).length) '0' ++ decimal n

theorem digitChar_toNat (d : Nat) (h : d < 10) : (digitChar d).toNat = 48 + d := by
  have : d = 0 ∨ d = 1 ∨ d = 2 ∨ d = 3 ∨ d = 4 ∨ d = 5 ∨ d = 6 ∨ d = 7 ∨ d = 8 ∨ d = 9 := by omega
  rcases this with h|h|h|h|h|h|h|h|h|h <;> subst h <;> decide

theorem digitVal_digitChar (d : Nat) (h : d < 10) : digitVal (digitChar d) = d := by
  unfold digitVal; rw [digitChar_toNat d h]; omega

theorem isDigitChar_digitChar (d : Nat) (h : d < 10) : isDigitChar (digitChar d) = true := by
  unfold isDigitChar; rw [digitChar_toNat d h]; simp; omega

theorem parseDec_append (a b : List Char) : parseDec (a ++ b) = parseDec a * 10 ^ b.length + parseDec b := by
  have key : ∀ (b : List Char) (x : Nat), b.foldl (fun a c => 10 * a + digitVal c) x = x * 10 ^ b.length + parseDec b := by
    intro b
    induction b with
    | nil => intro x; simp [parseDec]
    | cons c b ih =>
      intro x
      simp only [List.foldl_cons, List.length_cons, parseDec]
      rw [ih, ih]
      rw [pow_succ]
      ring
  unfold parseDec
  rw [List.foldl_append, key]
  rfl

theorem decimalAux_spec (fuel n : Nat) (h : n < fuel) :
    parseDec (decimalAux fuel n) = n ∧ decimalAux fuel n ≠ [] ∧ ∀ c ∈ decimalAux fuel n, isDigitChar c = true := by
  induction fuel generalizing n with
  | zero => omega
  | succ fuel ih =>
    unfold decimalAux
    by_cases hn : n < 10
    · simp only [hn, if_true]
      refine ⟨?_, by simp, ?_⟩
      · simp [parseDec, digitVal_digitChar n hn]
      · intro c hc; simp at hc; subst hc; exact isDigitChar_digitChar n hn
    · simp only [hn, if_false]
      obtain ⟨h1, h2, h3⟩ := ih (n / 10) (by omega)
      refine ⟨?_, by simp, ?_⟩
      · rw [parseDec_append, h1]
        simp [parseDec, digitVal_digitChar (n % 10) (by omega)]
        omega
      · intro c hc
        rcases List.mem_append.1 hc with hc | hc
        · exact h3 c hc
        · simp at hc; subst hc; exact isDigitChar_digitChar _ (by omega)

@[simp] theorem parseDec_decimal (n : Nat) : parseDec (decimal n) = n := (decimalAux_spec (n + 1) n (by omega)).1

theorem decimal_ne_nil (n : Nat) : decimal n ≠ [] := (decimalAux_spec (n + 1) n (by omega)).2.1

theorem decimal_digits (n : Nat) : ∀ c ∈ decimal n, isDigitChar c = true := (decimalAux_spec (n + 1) n (by omega)).2.2

theorem parseDec_replicate (w : Nat) (cs : List Char) : parseDec (List.replicate w '0' ++ cs) = parseDec cs := by
  rw [parseDec_append]
  have : parseDec (List.replicate w '0') = 0 := by
    induction w with
    | zero => rfl
    | succ w ih =>
      rw [List.replicate_succ, ← List.singleton_append, parseDec_append, ih]
      simp [parseDec, digitVal]
  simp [this]

@[simp] theorem parseDec_decimalPad (w n : Nat) : parseDec (decimalPad w n) = n := by
  unfold decimalPad; rw [parseDec_replicate, parseDec_decimal]

theorem decimalPad_ne_nil (w n : Nat) : decimalPad w n ≠ [] := by
  unfold decimalPad; simp [decimal_ne_nil]

theorem decimalPad_digits (w n : Nat) : ∀ c ∈ decimalPad w n, isDigitChar c = true := by
  intro c hc
  unfold decimalPad at hc
  rcases List.mem_append.1 hc with hc | hc
  · rw [List.mem_replicate] at hc; rw [hc.2]; decide
  · exact decimal_digits n c hc

theorem decimal_injective {a b : Nat} (h : decimal a = decimal b) : a = b := by
  have := congrArg parseDec h; simpa using this

theorem decimalPad_injective {w a b : Nat} (h : decimalPad w a = decimalPad w b) : a = b := by
  have := congrArg parseDec h; simpa using this

end Verif.Py
