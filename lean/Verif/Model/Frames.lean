import Verif.Model.Timing
import Mathlib.Data.Int.Log

/-!
# Columns and types of appended frames: `core/io/hdf5_writer.py:38-105`, `scripts/extract_dl1.py:15-32`

`Model/Hdf5` takes the rows of a table as they are. Here the frames have columns with types, as pandas joins them (`pd.concat`), converts them
(`pd.to_numeric`) and compares them with the table they are appended to (`HDFStore.append`). Types other than integers and floating point numbers, the order of the
columns, and the conversions of `iev`, `pixel`, `first_cell_id`, `t_tack` and `mc_true` with the sorting (`Model/Dl1`) are left out.
-/

namespace Verif.Model

open Verif.Py

/-- types of columns -/
inductive ColType | int | float32 | float64
  deriving DecidableEq

/-- a column: its type and values; `none` is NaN -/
structure Column where
  type : ColType
  values : List (Option ℚ)
  deriving DecidableEq

/-- a frame -/
structure TypedFrame where
  rows : Nat
  cols : Dict String Column

/-- the type both types are converted to -/
def joinType (a b : ColType) : ColType := if a = b then a else .float64

/-- the type of a column that gets missing values -/
def fillType : ColType → ColType
  | .int => .float64
  | t => t

/-- the names of all columns of the frames -/
def frameNames (fs : List TypedFrame) : List String := fs.flatMap fun f => Dict.keys f.cols

/-- the type of a column of joined frames: the common type of those that have it, with missing values if there are others -/
def joinedType (fs : List TypedFrame) (name : String) : ColType :=
  let types := fs.filterMap fun f => (Dict.get? f.cols name).map Column.type
  let t := types.foldl joinType (types.headD .float64)
  if fs.all fun f => (Dict.get? f.cols name).isSome then t else fillType t

/-- the values of a column of joined frames: NaN for the rows of frames without it -/
def joinedValues (fs : List TypedFrame) (name : String) : List (Option ℚ) :=
  fs.flatMap fun f => match Dict.get? f.cols name with
    | some c => c.values
    | none => List.replicate f.rows none

/-- `pd.concat(frames, ignore_index=True)` (`core/io/hdf5_writer.py:68`) -/
def joinFrames (fs : List TypedFrame) : Dict String Column := (frameNames fs).map fun k => (k, ⟨joinedType fs k, joinedValues fs k⟩)

/-- distance of neighbouring single precision numbers at `v` -/
def singleStep (v : ℚ) : ℚ := 2 ^ (max (Int.log 2 |v|) (-126) - 23)

/-- the single precision number next to `v`, halves to even. Simplification: numbers above the largest single precision number (2^128) do not become infinite. -/
def roundSingle (v : ℚ) : ℚ := roundEven (v / singleStep v) * singleStep v

/-- `HDF5Writer._prepare_before_append` (`core/io/hdf5_writer.py:38-52`) -/
def plainColumn (c : Column) : Column := c

/-- whether pandas accepts the conversion of these numbers: always without `tol` (pandas before 1.4), else if none changes by more than a tolerance -/
def closeEnough (tol : Option ℚ) (values : List (Option ℚ)) : Bool :=
  match tol with
  | none => true
  | some t => values.all fun v => match v with
    | none => true
    | some v => decide (|roundSingle v - v| ≤ t)

/-- `pd.to_numeric(column, downcast='float')` for the columns that `select_dtypes(include=['float'])` finds (`scripts/extract_dl1.py:18-21`) -/
def dl1Column (tol : Option ℚ) (c : Column) : Column :=
  if c.type = .float64 ∧ closeEnough tol c.values = true then ⟨.float32, c.values.map (Option.map roundSingle)⟩ else c

/-- whether two sets of columns agree in names and types -/
def sameColumns (a b : Dict String Column) : Bool :=
  (Dict.keys a ++ Dict.keys b).all fun k => (Dict.get? a k).map Column.type = (Dict.get? b k).map Column.type

/-- the rows of a frame after those of the table -/
def extendTable (t new : Dict String Column) : Dict String Column :=
  t.map fun kc => (kc.1, ⟨kc.2.type, kc.2.values ++ ((Dict.get? new kc.1).map Column.values).getD []⟩)

/-- one table of a writer: what is in the file, the frames in memory -/
structure FrameState where
  table : Option (Dict String Column)
  buffer : List TypedFrame

/-- `_append_to_store` (`core/io/hdf5_writer.py:54-77`) with `_prepare_before_append` by columns. `store.append` raises `ValueError` before it writes anything if
the columns or their types differ from those of the table. The frames in memory are forgotten only after it succeeded. -/
def flushFrames (prep : Column → Column) (st : FrameState) : Except Err FrameState :=
  if st.buffer = [] then .ok st else
    let new := (joinFrames st.buffer).map fun kc => (kc.1, prep kc.2)
    match st.table with
    | none => .ok ⟨some new, []⟩
    | some t => if sameColumns t new then .ok ⟨some (extendTable t new), []⟩ else .error .valueError

/-- the appends of a `with` block, each with whether the memory is full after it (`core/io/hdf5_writer.py:79-105`), and `finish` at its end or after an exception
(lines 35-36, 189-205): what is left, and the exception -/
def frameSession (prep : Column → Column) : List (TypedFrame × Bool) → FrameState → FrameState × Option Err
  | [], st => match flushFrames prep st with
    | .ok st => (st, none)
    | .error e => (st, some e)
  | (f, full) :: rest, st =>
    let st : FrameState := ⟨st.table, st.buffer ++ [f]⟩
    if full then match flushFrames prep st with
      | .ok st => frameSession prep rest st
      | .error e => match flushFrames prep st with
        | .ok st => (st, some e)
        | .error e => (st, some e)
    else frameSession prep rest st

end Verif.Model
