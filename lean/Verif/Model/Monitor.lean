import Verif.Model.Hdf5
import Verif.Model.Dl1
import Verif.Model.Camera
import Verif.Py.Unique
import Verif.Model.VersionText

/-!
# Monitor tables inside a DL1 file (`core/io/dl1_reader.py:96-112, 263-531`) and the version of a file
(`core/io/hdf5_reader.py:28-39, 74-80`)
-/

namespace Verif.Model

open Verif.Py

/-- a table as its columns -/
abbrev ColumnTable (ν : Type) := Dict String (List ν)

/-- `DeprecatedMonitorReader` (`core/io/dl1_reader.py:294-327`): the tables `monitor_camera`, `monitor_tm`, `monitor_pixel` and the metadata. All three
tables exist and their columns can be selected one by one; otherwise pandas raises. -/
structure Monitor (ν : Type) where
  camera : ColumnTable ν
  tm : ColumnTable ν
  pixel : ColumnTable ν
  nEvents : Nat
  nBytes : Nat

/-- the keys of the three tables -/
inductive MonitorKey | camera | tm | pixel
  deriving DecidableEq, Repr

/-- `self.store[key]` -/
def Monitor.table (m : Monitor ν) : MonitorKey → ColumnTable ν
  | .camera => m.camera
  | .tm => m.tm
  | .pixel => m.pixel

/-- `get_key_for_column` (`core/io/dl1_reader.py:404-427`) -/
def Monitor.keyForColumn (m : Monitor ν) (column : String) : Except Err MonitorKey :=
  if column ∈ Dict.keys m.camera then .ok .camera
  else if column ∈ Dict.keys m.tm then .ok .tm
  else if column ∈ Dict.keys m.pixel then .ok .pixel
  else .error .keyError

/-- `if not key: key = self.get_key_for_column(column)` (`core/io/dl1_reader.py:448-449`) -/
def Monitor.resolveKey (m : Monitor ν) (column : String) : Option MonitorKey → Except Err MonitorKey
  | some k => .ok k
  | none => m.keyForColumn column

/-- `select_column(column, key, start=, stop=)` (`core/io/dl1_reader.py:429-450`): a `pandas.Series`, as labels and values; the labels count
from 0 (pandas makes the series from the selected values only). Other keyword arguments are not modelled. -/
def Monitor.selectColumn (m : Monitor ν) (column : String) (key : Option MonitorKey) (start stop : Option Int) : Except Err (List (Nat × ν)) :=
  match m.resolveKey column key with
  | .error e => .error e
  | .ok k => match Dict.getItem (m.table k) column with
    | .error e => .error e
    | .ok xs =>
      let ys := sliceList xs start stop
      .ok ((List.range ys.length).zip ys)

/-- `series[labels]` (`core/io/dl1_reader.py:289`): `KeyError` for a label that does not exist; the result has the labels asked for. The labels of a column
selected from a table are distinct. -/
def seriesTake (s : List (Nat × ν)) (labels : List Int) : Except Err (List (Int × ν)) :=
  labels.mapM fun l => match s.find? (fun e => (e.1 : Int) = l) with
    | none => .error .keyError
    | some e => .ok (l, e.2)

/-- `DL1Reader.get_matched_monitor_column` (`core/io/dl1_reader.py:263-291`). `data` are the integer columns of the data table. -/
def matchedMonitorColumn (data : Dict String (List Int)) (m : Monitor ν) (column : String) : Except Err (List (Int × ν)) :=
  match m.keyForColumn column with
  | .error e => .error e
  | .ok key =>
    let eventKey := match key with
      | .camera => "monitor_camera_index"
      | .tm => "monitor_tm_index"
      | .pixel => "monitor_pixel_index"
    match Dict.getItem data eventKey with
    | .error e => .error e
    | .ok imonitor => match m.selectColumn column (some key) none none with
      | .error e => .error e
      | .ok col => seriesTake col imonitor

/-- `select_column_as_array` (`core/io/dl1_reader.py:477-497`) -/
def Monitor.columnAsArray (m : Monitor ν) (column : String) (key : Option MonitorKey) (start stop : Option Int) : Except Err (List (List ν)) :=
  match m.selectColumn column key start stop with
  | .error e => .error e
  | .ok s => if m.nEvents = 0 then .error .zeroDivision else reshape m.nEvents (s.length / m.nEvents) (s.map Prod.snd)

/-- mean of the values that are not NaN (`none`); NaN if there is none -/
def nanMean (xs : List (Option ℚ)) : Option ℚ :=
  let ys := xs.filterMap id
  if ys = [] then none else some (ys.sum / ys.length)

/-- `DeprecatedMonitorReader.get_average` (`core/io/dl1_reader.py:499-516`). The column `idevice` holds whole numbers, in `devices`, row by row of the table of
the column. If the column asked for is `idevice` itself the frame has one column, which becomes the index: `KeyError`. `groupby(...).mean()` leaves NaN out. -/
def Monitor.average (m : Monitor (Option ℚ)) (devices : MonitorKey → List Int) (column : String) : Except Err (List (Option ℚ)) :=
  match m.keyForColumn column with
  | .error e => .error e
  | .ok key => match m.selectColumn column (some key) none none with
    | .error e => .error e
    | .ok s =>
      if column = "idevice" then .error .keyError
      else if (devices key).length ≠ s.length then .error .valueError
      else .ok ((unique (devices key)).map fun d => nanMean ((((devices key).zip (s.map Prod.snd)).filter fun e => e.1 = d).map Prod.snd))

/-- `DeprecatedMonitorReader._load_entire_table` (`core/io/dl1_reader.py:329-351`) -/
def Monitor.loadEntireTable (m : Monitor ν) (key : MonitorKey) (force : Bool) : Except Err (ColumnTable ν) :=
  if m.nBytes > 8000000000 ∧ force = false then .error .memoryError else .ok (m.table key)

/-! ## version of a file -/

/-- the property `version` (`core/io/hdf5_reader.py:74-80`); a value that is not a string makes `parse` raise `TypeError` -/
def fileVersion (r : HReader ρ ν) : Except Err String :=
  match getMetadata r "data" "metadata" with
  | .error .keyError => .ok "1.0.0"
  | .error e => .error e
  | .ok d => match Dict.get? d "version" with
    | none => .ok "1.0.0"
    | some (.str v) => .ok v
    | some _ => .error .typeError

/-- the warnings of the constructor -/
inductive VersionWarning | none | older | newer
  deriving DecidableEq, Repr

/-- the version check when a file is opened (`core/io/hdf5_reader.py:30-39`) -/
def versionWarning (r : HReader ρ ν) : Except Err VersionWarning :=
  match fileVersion r with
  | .error e => .error e
  | .ok v => match releaseMajor v with
    | .error e => .error e
    | .ok a => match releaseMajor version with
      | .error e => .error e
      | .ok b => if a < b then .ok .older else if b < a then .ok .newer else .ok .none

end Verif.Model
