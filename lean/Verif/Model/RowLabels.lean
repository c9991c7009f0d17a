import Verif.Model.Dl1

/-!
# Row labels (the index) of tables: `core/io/hdf5_writer.py:54-129`, `scripts/extract_dl1.py:16-32`, `examples/pandas_cookbook.py:115-126`

The writer is that of `Model/Hdf5`, for rows that carry their label. `store.append` and `store[key] = df` store the labels (`index=False` only leaves out the search
index of the column), `store.select` and `store[key]` return them.
-/

namespace Verif.Model

open Verif.Py

variable {ρ α β : Type}

/-- a row of a frame with its label -/
structure LRow (ρ : Type) where
  label : Nat
  row : ρ
  deriving DecidableEq, Repr

/-- the labels given by `pd.concat(…, ignore_index=True)` (`core/io/hdf5_writer.py:68`) to the joined rows -/
def relabel (df : List (LRow ρ)) : List (LRow ρ) := df.zipIdx.map fun p => ⟨p.2, p.1.row⟩

/-- `HDF5Writer` (`core/io/hdf5_writer.py:38-52, 68-69`): the joined rows as they are; `mem` is the memory of a frame with its labels -/
def labelWriter (mem : List (LRow ρ) → Nat) : WCfg (LRow ρ) where
  mem := mem
  prep := relabel

/-- `DL1Writer` (`scripts/extract_dl1.py:16-32`) after the join: the casts, and rows with `pixel` sorted. `sort_values` moves the rows with their labels. -/
def labelDl1Writer (castVals : β → β) (mem : List (LRow (DRow β)) → Nat) : WCfg (LRow (DRow β)) where
  mem := mem
  prep df :=
    let df := (relabel df).map fun r => ⟨r.label, castRow castVals r.row⟩
    if df.all fun r => r.row.pixel.isSome then df.mergeSort (fun a b => rowLe a.row b.row) else df

/-- `df.loc[labels]`: for each label all rows that carry it, `KeyError` if there is none -/
def locRows (df : List (LRow ρ)) (labels : List Nat) : Except Err (List (LRow ρ)) :=
  if labels.all fun l => df.any fun r => r.label = l then .ok (labels.flatMap fun l => df.filter fun r => r.label = l)
  else .error .keyError

/-- `select_column` (`core/io/hdf5_reader.py:223-242`): pandas returns the values with new labels from 0 -/
def columnSeries (f : ρ → α) (df : List (LRow ρ)) : List (LRow α) := df.zipIdx.map fun p => ⟨p.2, f p.1.row⟩

/-- `df[name] = series`: the values of the new column. The series is brought into the order of the labels of the frame, with NaN (`none`) for labels it does not
have, unless its labels are the same already. `ValueError` if labels of the series repeat. -/
def assignSeries (df : List (LRow ρ)) (s : List (LRow α)) : Except Err (List (Option α)) :=
  if s.map LRow.label = df.map LRow.label then .ok (s.map fun v => some v.row)
  else if (s.map LRow.label).Nodup then .ok (df.map fun r => (s.find? fun v => v.label = r.label).map LRow.row)
  else .error .valueError

/-- `df['tm'] = df['pixel'] // 64` (`examples/pandas_cookbook.py:121`) -/
def tmOf (r : DRow β) : Nat := r.pixel.getD 0 / 64

/-- the column `camera_first_half` of `apply_custom_function_agg` (`examples/pandas_cookbook.py:115-125`) for the group of module `tm`:
`df.loc[g.index].iloc[0]['tm'] < 32/2` -/
def cookbookFirstHalf (df : List (LRow (DRow β))) (tm : Nat) : Except Err Bool :=
  match locRows df ((df.filter fun r => tmOf r.row = tm).map LRow.label) with
  | .error e => .error e
  | .ok [] => .error .indexError
  | .ok (r :: _) => .ok (decide (tmOf r.row < 16))

end Verif.Model
