import Verif.Model.Chain

/-! # Specification vocabulary for the reducer chain -/

namespace Verif.Spec

open Verif.Py Verif.Model

variable {V σ ω β : Type}

/-- the configuration value of `c` is truthy -/
def Enabled (truthy : V → Bool) (config : Config V) (c : String) : Prop :=
  ∃ v, Dict.get? config c = some v ∧ truthy v = true

/-- column `c` of one reducer evaluated for each event of a sequence, the reducer being the only one in the program and
no other column of it being read -/
def soloColumn (cls : ReducerClass V σ ω β) (config : Config V) (c : String) : σ → List ω → List (Except Err β)
  | _, [] => []
  | s, w :: ws =>
    match cls.prepare config s w with
    | .error e => [.error e]
    | .ok s' => cls.value config s' c :: soloColumn cls config c (cls.post config s') ws

/-- no column name is defined by two of the reducers, nor twice by one -/
def DistinctColumns (reducers : List (ReducerClass V σ ω β)) : Prop :=
  (reducers.flatMap ReducerClass.columns).Nodup

end Verif.Spec
