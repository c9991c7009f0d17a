import Verif.Model.SpectrumFitter
import Mathlib.Algebra.BigOperators.Ring.Finset
import Mathlib.Algebra.BigOperators.Intervals

/-! # Bookkeeping of fit parameters -/

namespace Verif.Spec

open Verif.Py Verif.Model

/-- the name under which illumination `i` finds a parameter among the fit parameters -/
def fitName (p : SpecParam) (i : Nat) : String := if p.multi then p.name ++ String.ofList (decimal i) else p.name

/-- the fit parameters a parameter stands for -/
def fitNamesOf (n : Nat) (p : SpecParam) : List String := if p.multi then (List.range n).map (fitName p) else [p.name]

/-- all fit parameters, in order -/
def fitNames (n : Nat) (params : List SpecParam) : List String := params.flatMap (fitNamesOf n)

/-- no two parameters have the same name, and no two keyword arguments of the minimiser do -/
def Distinct (n : Nat) (params : List SpecParam) : Prop :=
  (params.map (·.name)).Nodup ∧ ((fitNames n params).flatMap fun x => [x, "limit_" ++ x, "fix_" ++ x]).Nodup

/-- the books are in order -/
structure Books (n : Nat) (params : List SpecParam) (s : Prepared) : Prop where
  /-- there is one slot for each fit parameter -/
  names : s.names = fitNames n params
  slots : s.names.Nodup
  /-- each illumination looks up each parameter at the slot of the right fit parameter, and knows no others -/
  tables : s.lookup.length = n
  lookup : ∀ p ∈ params, ∀ i < n, ∃ d slot, s.lookup[i]? = some d ∧ d.get? p.name = some slot ∧ s.names[slot]? = some (fitName p i)
  only : ∀ (i : Nat) d, s.lookup[i]? = some d → ∀ name, (∃ slot, d.get? name = some slot) ↔ name ∈ params.map (·.name)
  /-- the minimiser is given the initial value, limits and flag of the parameter for each of its fit parameters -/
  starts : ∀ p ∈ params, ∀ x ∈ fitNamesOf n p, s.kwargs.get? x = some (.start p.initial) ∧
    s.kwargs.get? ("limit_" ++ x) = some (.limits p.limits) ∧ s.kwargs.get? ("fix_" ++ x) = some (.fixed p.fixed)

/-! ## Configuration -/

/-- the entry of a section for a name, or the old value -/
def entryOr {α : Type} (s : Option (Option (Dict String α))) (name : String) (old : α) : α :=
  match s with
  | some (some d) => match d.get? name with
    | some v => v
    | none => old
  | _ => old

/-- the parameter a configuration asks for -/
def configured (c : SpecConfig) (p : SpecParam) : SpecParam :=
  ⟨p.name, entryOr c.initial p.name p.initial, entryOr c.limits p.name p.limits, entryOr c.fixed p.name p.fixed, p.multi⟩

/-- a section names something that is no parameter -/
def Foreign {α : Type} (s : Option (Option (Dict String α))) (names : List String) : Prop :=
  ∃ d, s = some (some d) ∧ ∃ name ∈ Dict.keys d, name ∉ names

/-- the sections are dictionaries, as they come out of a YAML file: missing, or with each name once -/
def Section {α : Type} (s : Option (Option (Dict String α))) : Prop :=
  ∀ t, s = some t → ∃ d, t = some d ∧ (Dict.keys d).Nodup

/-- the area under the polygon through the points `(x, y)`: trapezium by trapezium -/
def polygonArea {K : Type} [Field K] (ys xs : List K) : K :=
  ∑ i ∈ Finset.range (min ys.length xs.length - 1), (xs.getD (i + 1) 0 - xs.getD i 0) * ((ys.getD i 0 + ys.getD (i + 1) 0) / 2)

end Verif.Spec
