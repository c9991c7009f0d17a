import Verif.Model.Dl1

/-! # Specification vocabulary for DL1 production and reading -/

namespace Verif.Spec

open Verif.Py Verif.Model

variable {τ ε β ν S : Type}

/-- the events that are neither stale nor have missing packets, in order -/
def goodEvents (events : List (Event τ ε)) : List (Event τ ε) :=
  events.filter fun e => e.stale = false ∧ e.missingPackets = false

/-- the extractor applied to a sequence of events, one after the other: the values per pixel of each -/
def extractAll (x : Extractor S τ ε β ν) : S → List (Event τ ε) → Except Err (List (List β))
  | _, [] => .ok []
  | s, e :: es =>
    match x.extract s e with
    | .error err => .error err
    | .ok (s', vals) => match extractAll x s' es with
      | .error err => .error err
      | .ok rest => .ok (vals :: rest)

/-- the rows an event should have in the file: one per pixel in pixel order, with the extracted values after the type
conversion of the file -/
def eventRows (castVals : β → β) (iev : Nat) (vals : List β) : List (DRow β) :=
  vals.mapIdx fun p v => { iev := iev, pixel := some p, vals := castVals v }

/-- the rows are made of the events `blocks`, each of `n` rows with one event id -/
def IsBlocks (n : Nat) (blocks : List (List (DRow β))) (rows : List (DRow β)) : Prop :=
  rows = blocks.flatten ∧ ∀ b ∈ blocks, b.length = n ∧ ∃ id, ∀ r ∈ b, r.iev = id

end Verif.Spec
