import Verif.Model.Hdf5

/-!
# `core/io/hdf5_reader.py:159-267`, `core/io/dl1_reader.py:57-65,188-210`: reading parts of a table

pandas' semantics by storage format. `cells` gives the named cells of a row; all rows of a table have the same columns. The column named `index` is not
modelled. A key which is not in the file is a `KeyError`.
-/

namespace Verif.Model

open Verif.Py

variable {ρ ν α : Type}

/-- `get_n_rows` (`core/io/hdf5_reader.py:159-172`, `DL1Reader.n_rows` at `core/io/dl1_reader.py:62-64`): `None` in fixed format -/
def getNRows (r : HReader ρ ν) (key : String) : Except Err (Option Nat) :=
  match Dict.get? r.store key with
  | none => .error .keyError
  | some nd => match nd.fmt with
    | .fixed => .ok none
    | .table => .ok (some nd.rows.length)

/-- `get_column_names` (`core/io/hdf5_reader.py:189-202`, `DL1Reader.columns` at `core/io/dl1_reader.py:58-60`): the attribute `non_index_axes` exists in
table format only -/
def getColumnNames (cells : ρ → Dict String α) (r : HReader ρ ν) (key : String) : Except Err (List String) :=
  match Dict.get? r.store key with
  | none => .error .keyError
  | some nd => match nd.fmt with
    | .fixed => .error .attributeError
    | .table => .ok (match nd.rows with
      | [] => []
      | row :: _ => Dict.keys (cells row))

/-- `select(key, start=.., stop=..)` (`core/io/hdf5_reader.py:204-220`, `core/io/dl1_reader.py:188-189`) -/
def selectRange (r : HReader ρ ν) (key : String) (start stop : Option Nat) : Except Err (List ρ) :=
  match Dict.get? r.store key with
  | none => .error .keyError
  | some nd => .ok ((nd.rows.take (stop.getD nd.rows.length)).drop (start.getD 0))

/-- `select_column(key, column, start=.., stop=..)` (`core/io/hdf5_reader.py:223-242`, `core/io/dl1_reader.py:191-192`): tables in table format only; the
file was written with `data_columns=True` -/
def selectColumnOf (cells : ρ → Dict String α) (r : HReader ρ ν) (key column : String) (start stop : Option Nat) : Except Err (List α) :=
  match Dict.get? r.store key with
  | none => .error .keyError
  | some nd => match nd.fmt with
    | .fixed => .error .typeError
    | .table => ((nd.rows.take (stop.getD nd.rows.length)).drop (start.getD 0)).mapM fun row => Dict.getItem (cells row) column

/-- `select_columns(key, columns)` (`core/io/hdf5_reader.py:244-267`, `core/io/dl1_reader.py:194-198`) -/
def selectColumnsOf (cells : ρ → Dict String α) (r : HReader ρ ν) (key : String) (columns : List String) (start stop : Option Nat) :
    Except Err (List (List α)) :=
  columns.mapM fun c => selectColumnOf cells r key c start stop

/-- `iterate_over_rows` (`core/io/dl1_reader.py:200-210`) -/
def iterateOverRows (r : HReader ρ ν) (key : String) (fuel : Nat) : Except Err (Option (List (List ρ))) := iterateOverChunks r key (some 1) fuel

end Verif.Model
