import Verif.Model.Subclasses

/-! # Inheritance, stated without the discovery algorithm -/

namespace Verif.Spec

open Verif.Model

/-- `s` inherits, directly or indirectly, from `c` -/
inductive Descends (h : Hierarchy) : Nat → Nat → Prop
  | direct {c s} : s ∈ h.subs c → Descends h c s
  | step {c s g} : s ∈ h.subs c → Descends h s g → Descends h c g

/-- naive enumeration of all descendants, with repetitions: the direct subclasses in creation order, then the
enumeration of each of them in turn -/
def enumerate (h : Hierarchy) (c : Nat) : List Nat :=
  h.subs c ++ (h.subs c).attach.flatMap fun ⟨s, _⟩ => enumerate h s
termination_by h.n - c
decreasing_by
  rename_i hs
  have := h.created_after c s hs
  omega

end Verif.Spec
