import Verif.Model.Hdf5

/-!
# What a history of writer calls means, read off the list of calls only
-/

namespace Verif.Spec

open Verif.Py Verif.Model

variable {ρ ν : Type}

/-- the frames appended to `key`, in order -/
def framesAppended (ops : List (Op ρ ν)) (key : String) : List (List ρ) :=
  ops.filterMap fun op => match op with
    | .append df k => if k = key then some df else none
    | _ => none

/-- the rows appended to `key`, in order -/
def rowsAppended (ops : List (Op ρ ν)) (key : String) : List ρ := (framesAppended ops key).flatten

/-- `key` was the target of an `append` -/
def IsAppended (ops : List (Op ρ ν)) (key : String) : Prop := ∃ df, Op.append df key ∈ ops

/-- `key` was replaced as a whole: by `write`, or it is `mapping` and `add_mapping` was called -/
def IsWritten (ops : List (Op ρ ν)) (key : String) : Prop :=
  (∃ df, Op.write key df ∈ ops) ∨ (key = "mapping" ∧ ∃ m md, Op.addMapping m md ∈ ops)

/-- no key is used with `append` and with `write`/`add_mapping` in the same session -/
def Unmixed (ops : List (Op ρ ν)) : Prop := ∀ key, ¬ (IsAppended ops key ∧ IsWritten ops key)

/-- `key` was the target of `append` or `write` -/
def IsData (ops : List (Op ρ ν)) (key : String) : Prop :=
  IsAppended ops key ∨ ∃ df, Op.write key df ∈ ops

/-- the last frame written to `key` with `write` -/
def lastWrite (ops : List (Op ρ ν)) (key : String) : Option (List ρ) :=
  ops.foldl (fun acc op => match op with
    | .write k df => if k = key then some df else acc
    | _ => acc) none

/-- the mapping given last to `add_mapping` -/
def lastMapping (ops : List (Op ρ ν)) : Option (List ρ × MetaDict ν) :=
  ops.foldl (fun acc op => match op with
    | .addMapping m md => some (m, md)
    | _ => acc) none

/-- the value of one metadata field after the accepted `add_metadata` calls (the last one wins) -/
def lastField (ops : List (Op ρ ν)) (key name field : String) : Option (MetaVal ν) :=
  ops.foldl (fun acc op => match op with
    | .addMetadata k n kv =>
      if k = key ∧ n = name ∧ n ≠ "info" ∧ n ≠ "mapping" then (Dict.get? kv.reverse field).or acc else acc
    | _ => acc) none

/-- the rows found under `key` in a file (empty when absent) -/
def fileRows (s : Store ρ ν) (key : String) : List ρ :=
  match Dict.get? s key with
  | none => []
  | some nd => nd.rows

/-- the dictionary attached under `name` to `key` in a file -/
def fileAttr (s : Store ρ ν) (key name : String) : Option (MetaDict ν) :=
  (Dict.get? s key).bind fun nd => Dict.get? nd.attrs name

/-- a field of such a dictionary -/
def fileField (s : Store ρ ν) (key name field : String) : Option (MetaVal ν) :=
  (fileAttr s key name).bind fun d => Dict.get? d field

/-- `pieces` cuts the list `l` into consecutive non-empty pieces -/
def Cuts {α : Type} (pieces : List (List α)) (l : List α) : Prop := pieces.flatten = l ∧ ∀ p ∈ pieces, p ≠ []

/-- an order in which the tables touched by the calls can be visited when closing -/
def IsOrder (ops : List (Op ρ ν)) (order : List String) : Prop :=
  order.Nodup ∧ ∀ k, k ∈ order ↔ IsData ops k

/-- the accepted metadata calls for (key, name) -/
def HasMeta (ops : List (Op ρ ν)) (key name : String) : Prop :=
  name ≠ "info" ∧ name ≠ "mapping" ∧ ∃ kv, Op.addMetadata key name kv ∈ ops

/-- names the reader lists -/
def Listable (name : String) : Prop := name.toList.head? ≠ some '_' ∧ name ≠ "info"

instance (name : String) : Decidable (Listable name) := inferInstanceAs (Decidable (_ ∧ _))

end Verif.Spec
