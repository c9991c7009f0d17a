import Verif.Py.Basic

/-!
# Which indices a Python slice selects

Written from the Python reference ("the slice of s from i to j with step k is the sequence of items with index
x = i + n*k ..., i and j are reduced to the bounds of the sequence").
-/

namespace Verif.Spec

open Verif.Py

/-- a possibly negative position counted from the end -/
def resolve (n : Nat) (v : Int) : Int := if v < 0 then n + v else v

/-- limit a value to `[lo, hi]` -/
def limit (lo hi v : Int) : Int := max lo (min hi v)

/-- first position of a forward slice -/
def fwdStart (n : Nat) (s : Slice) : Int := match s.start with
  | none => 0
  | some v => limit 0 n (resolve n v)

/-- first excluded position of a forward slice -/
def fwdStop (n : Nat) (s : Slice) : Int := match s.stop with
  | none => n
  | some v => limit 0 n (resolve n v)

/-- first position of a backward slice -/
def bwdStart (n : Nat) (s : Slice) : Int := match s.start with
  | none => n - 1
  | some v => limit (-1) (n - 1) (resolve n v)

/-- first excluded position of a backward slice -/
def bwdStop (n : Nat) (s : Slice) : Int := match s.stop with
  | none => -1
  | some v => limit (-1) (n - 1) (resolve n v)

/-- the indices selected by slice `s` with step `k` from a sequence of length `n` -/
def Selects (n : Nat) (s : Slice) (k : Int) (x : Int) : Prop :=
  if 0 < k then fwdStart n s ≤ x ∧ x < fwdStop n s ∧ k ∣ x - fwdStart n s
  else bwdStop n s < x ∧ x ≤ bwdStart n s ∧ k ∣ x - bwdStart n s

end Verif.Spec
