import Verif.Model.Hdf5
import Verif.Py.Decimal

/-!
# DL1 files: `scripts/extract_dl1.py` and `core/io/dl1_reader.py`
-/

namespace Verif.Model

open Verif.Py

variable {τ ε β ν S : Type}

/-- The event attributes used by the production loop (`core/io/waveform.py:8-41`); `payload` is everything else. -/
structure Event (τ ε : Type) where
  iev : Nat
  stale : Bool
  missingPackets : Bool
  tCpu : τ
  payload : ε

/-- A row of a table of the file: the columns `iev` and `pixel` (absent in the per-event tables) and the other columns. -/
structure DRow (β : Type) where
  iev : Nat
  pixel : Option Nat
  vals : β
  deriving DecidableEq, Repr

/-- `astype(np.uint32)` of a natural number. -/
def toUint32 (n : Nat) : Nat := n % 4294967296

/-- The casts of `_prepare_before_append` (`scripts/extract_dl1.py:18-30`) on one row.  `castVals` is the conversion of the
other columns (float downcast, `first_cell_id`, `t_tack`, `mc_true`), a function of the row alone. Simplification: newer
versions of pandas decide for a whole column of the frame whether it becomes `float32`; here the decision is the same for
every frame of a table (pandas refuses to append frames for which it differs, see `Model/Frames`). -/
def castRow (castVals : β → β) (r : DRow β) : DRow β where
  iev := toUint32 r.iev
  pixel := r.pixel.map toUint32
  vals := castVals r.vals

/-- order used by `sort_values(["iev", "pixel"])` -/
def rowLe (a b : DRow β) : Bool :=
  a.iev < b.iev || (a.iev == b.iev && decide (a.pixel.getD 0 ≤ b.pixel.getD 0))

/-- `DL1Writer._prepare_before_append` (`scripts/extract_dl1.py:16-32`): casts; frames with a `pixel` column are sorted by
`iev` then `pixel` (pandas sorts several columns with a stable sort). -/
def dl1Prep (castVals : β → β) (df : List (DRow β)) : List (DRow β) :=
  let df := df.map (castRow castVals)
  if df.all fun r => r.pixel.isSome then df.mergeSort rowLe else df

/-- What the production loop asks of the raw reader. `otherMeta` are the entries of `DL1Extractor.metadata` that nothing
below reads (`scripts/extract_dl1.py:137-149`). -/
structure RawReader (τ ε β ν : Type) where
  path : String
  events : List (Event τ ε)
  isMc : Bool
  nPixels : Nat
  nModules : Nat
  nSuperpixels : Nat
  getSn : Nat → MetaVal ν
  getSipmTemp : Nat → MetaVal ν
  getPrimaryTemp : Nat → MetaVal ν
  getSpDac : Nat → Nat → MetaVal ν
  getSpHvon : Nat → Nat → MetaVal ν
  mcRow : Event τ ε → β
  pointingRow : Event τ ε → β
  mcheader : Option (MetaDict ν)
  mapping : List (DRow β)
  mappingMeta : MetaDict ν
  otherMeta : MetaDict ν

/-- `DL1Extractor.__call__` (`scripts/extract_dl1.py:151-174`) as a state machine: the attributes `S` (baseline buffer,
reducers), the values of the columns other than `iev` and `pixel`, one per pixel. -/
structure Extractor (S τ ε β ν : Type) where
  init : S
  extract : S → Event τ ε → Except Err (S × List β)
  config : MetaDict ν

/-- `skip_event` (`scripts/extract_dl1.py:131-133`). -/
def skipEvent (e : Event τ ε) : Bool := e.stale || e.missingPackets

/-- `pd.DataFrame(dl1)` (`scripts/extract_dl1.py:59, 162-169`): the scalars are repeated, `pixel` is `arange(n_pixels)`. -/
def eventFrame (iev : Nat) (vals : List β) : List (DRow β) :=
  vals.zipIdx.map fun vp => { iev := iev, pixel := some vp.2, vals := vp.1 }

/-- local variables of the loop in `write_dl1_file`, with the calls made on the writer so far -/
structure LoopState (S τ β ν : Type) where
  processed : Nat
  skipped : Nat
  startTime : Option τ
  endTime : Option τ
  ext : S
  ops : List (Op (DRow β) ν)

/-- One pass of the loop (`scripts/extract_dl1.py:48-72`).  Columns of unequal length raise `ValueError`. -/
def dl1Step (rd : RawReader τ ε β ν) (x : Extractor S τ ε β ν) (st : LoopState S τ β ν) (e : Event τ ε) :
    LoopState S τ β ν × Option Err :=
  if skipEvent e then ({ st with skipped := st.skipped + 1 }, none)
  else
    let st := { st with
      endTime := some e.tCpu
      startTime := match st.startTime with
        | none => some e.tCpu
        | some t => some t }
    match x.extract st.ext e with
    | .error err => (st, some err)
    | .ok (s, vals) =>
      if vals.length ≠ rd.nPixels then ({ st with ext := s }, some .valueError)
      else
        let ops := [Op.append (eventFrame e.iev vals) "data"]
        let ops := if rd.isMc then
            ops ++ [Op.append [{ iev := e.iev, pixel := none, vals := rd.mcRow e }] "mc",
                    Op.append [{ iev := e.iev, pixel := none, vals := rd.pointingRow e }] "pointing"]
          else ops
        ({ st with ext := s, ops := st.ops ++ ops, processed := st.processed + 1 }, none)

/-- the loop; an exception leaves it -/
def dl1Loop (rd : RawReader τ ε β ν) (x : Extractor S τ ε β ν) :
    LoopState S τ β ν → List (Event τ ε) → LoopState S τ β ν × Option Err
  | st, [] => (st, none)
  | st, e :: es =>
    match dl1Step rd x st e with
    | (st', some err) => (st', some err)
    | (st', none) => dl1Loop rd x st' es

/-- `f"{n:02}"` for a natural number -/
def pad2 (n : Nat) : String := String.ofList (decimalPad 2 n)

/-- `f'TM{tm:02}'` (`scripts/extract_dl1.py:122`, `core/io/dl1_reader.py:145`) -/
def tmKey (tm : Nat) : String := "TM" ++ pad2 tm

/-- `f'TM{tm:02}_SP{sp:02}'` (`scripts/extract_dl1.py:127`, `core/io/dl1_reader.py:162`) -/
def tmSpKey (tm sp : Nat) : String := "TM" ++ pad2 tm ++ "_SP" ++ pad2 sp

/-- dictionary filled by the loop over modules (`scripts/extract_dl1.py:121-125`) -/
def tmDict (nModules : Nat) (get : Nat → MetaVal ν) : MetaDict ν :=
  (List.range nModules).foldl (fun d tm => Dict.set d (tmKey tm) (get tm)) []

/-- dictionary filled by the nested loop (`scripts/extract_dl1.py:121-129`) -/
def tmSpDict (nModules nSp : Nat) (get : Nat → Nat → MetaVal ν) : MetaDict ν :=
  (List.range nModules).foldl (fun d tm =>
    (List.range nSp).foldl (fun d sp => Dict.set d (tmSpKey tm sp) (get tm sp)) d) []

/-- `meta` (`scripts/extract_dl1.py:74-78, 135-149`); `encTime` stores a time or `None`. -/
def dl1Meta (rd : RawReader τ ε β ν) (encTime : Option τ → ν) (st : LoopState S τ β ν) : MetaDict ν :=
  let m := Dict.update rd.otherMeta
    [("n_modules", .int rd.nModules), ("n_pixels", .int rd.nPixels),
     ("n_superpixels_per_module", .int rd.nSuperpixels)]
  let m := Dict.set m "n_events" (.int st.processed)
  let m := Dict.set m "n_skipped" (.int st.skipped)
  let m := Dict.set m "start_time" (.obj (encTime st.startTime))
  Dict.set m "end_time" (.obj (encTime st.endTime))

/-- the calls after the loop (`scripts/extract_dl1.py:80-90`); `**None` for a missing header is a `TypeError` -/
def dl1Closing (rd : RawReader τ ε β ν) (x : Extractor S τ ε β ν) (encTime : Option τ → ν) (st : LoopState S τ β ν) :
    List (Op (DRow β) ν) × Option Err :=
  let ops : List (Op (DRow β) ν) :=
    [.addMapping rd.mapping rd.mappingMeta,
     .addMetadata "data" "metadata" (dl1Meta rd encTime st),
     .addMetadata "data" "config" x.config,
     .addMetadata "data" "sn" (tmDict rd.nModules rd.getSn),
     .addMetadata "data" "sipm_temp" (tmDict rd.nModules rd.getSipmTemp),
     .addMetadata "data" "primary_temp" (tmDict rd.nModules rd.getPrimaryTemp),
     .addMetadata "data" "dac" (tmSpDict rd.nModules rd.nSuperpixels rd.getSpDac),
     .addMetadata "data" "hvon" (tmSpDict rd.nModules rd.nSuperpixels rd.getSpHvon)]
  if rd.isMc then
    match rd.mcheader with
    | some h => (ops ++ [.addMetadata "mc" "mcheader" h], none)
    | none => (ops, some .typeError)
  else (ops, none)

/-- All calls made on the writer by `write_dl1_file` and the exception it ends with, if any. -/
def dl1Calls (rd : RawReader τ ε β ν) (x : Extractor S τ ε β ν) (encTime : Option τ → ν) :
    List (Op (DRow β) ν) × Option Err :=
  match dl1Loop rd x { processed := 0, skipped := 0, startTime := none, endTime := none, ext := x.init, ops := [] }
      rd.events with
  | (st, some err) => (st.ops, some err)
  | (st, none) =>
    let (ops, err) := dl1Closing rd x encTime st
    (st.ops ++ ops, err)

/-- `DL1Writer.write_dl1_file` (`scripts/extract_dl1.py:34-90`): the file left behind and the exception, if any.  The
writer is a context manager, so the file is closed also when the loop raises (`core/io/hdf5_writer.py:32-36`).  `mem` is
the memory size of a frame, `order` the iteration order of the set of tables at closing. -/
def writeDl1File (mem : List (DRow β) → Nat) (castVals : β → β) (rd : RawReader τ ε β ν) (x : Extractor S τ ε β ν)
    (encTime : Option τ → ν) (order : List String) : Except Err (Store (DRow β) ν) × Option Err :=
  let (ops, err) := dl1Calls rd x encTime
  (writeSession { mem := mem, prep := dl1Prep castVals } ops order, err)

/-! ## Reader -/

/-- `self.metadata[field]` used as an integer (`core/io/dl1_reader.py:75-79, 113-123`). -/
def metaInt (r : HReader (DRow β) ν) (field : String) : Except Err Int :=
  match getMetadata r "data" "metadata" with
  | .error e => .error e
  | .ok d => match Dict.get? d field with
    | none => .error .keyError
    | some (.int n) => .ok n
    | some _ => .error .typeError

/-- `store.select('data', start=.., stop=..)` -/
def selectRows (r : HReader (DRow β) ν) (start stop : Nat) : Except Err (List (DRow β)) :=
  match Dict.get? r.store "data" with
  | none => .error .keyError
  | some nd => .ok ((nd.rows.drop start).take (stop - start))

/-- `select_event_index` (`core/io/dl1_reader.py:36-39`) for an index of an event of the file -/
def selectEventIndex (r : HReader (DRow β) ν) (index : Nat) : Except Err (List (DRow β)) :=
  match metaInt r "n_pixels" with
  | .error e => .error e
  | .ok n => selectRows r (index * n.toNat) ((index + 1) * n.toNat)

/-- `arr.reshape((a, b))` of a list: `ValueError` unless the sizes agree -/
def reshape {α : Type} (a b : Nat) (xs : List α) : Except Err (List (List α)) :=
  if xs.length = a * b then .ok ((List.range a).map fun i => (xs.drop (i * b)).take b) else .error .valueError

/-- `[:, 0]` of a two-dimensional array with rows of length `b` -/
def firstColumn {α : Type} (rows : List (List α)) : Except Err (List α) :=
  rows.mapM fun r => match r with
    | [] => .error .indexError
    | x :: _ => .ok x

/-- `event_lookup` (`core/io/dl1_reader.py:41-48`).  `select_column` on a table that is not in table format raises
`TypeError`; a negative or non-integer `n_events`/`n_pixels` does not occur. -/
def eventLookup (r : HReader (DRow β) ν) : Except Err (List Nat) :=
  match Dict.get? r.store "data" with
  | none => .error .keyError
  | some nd => match nd.fmt with
    | .fixed => .error .typeError
    | .table => match metaInt r "n_events" with
      | .error e => .error e
      | .ok ne => match metaInt r "n_pixels" with
        | .error e => .error e
        | .ok np => match reshape ne.toNat np.toNat (nd.rows.map DRow.iev) with
          | .error e => .error e
          | .ok rows => if np.toNat = 0 then .error .indexError else firstColumn rows

/-- `__getitem__` (`core/io/dl1_reader.py:29-34`): index of the first match, `IndexError` without a match; other
exceptions of the lookup pass through (an `IndexError` inside the lookup would look the same). -/
def dl1GetItem (r : HReader (DRow β) ν) (iev : Int) : Except Err (List (DRow β)) :=
  match eventLookup r with
  | .error e => .error e
  | .ok lookup => match lookup.findIdx? fun (i : Nat) => (i : Int) == iev with
    | none => .error .indexError
    | some index => selectEventIndex r index

/-- `iterate_over_events` (`core/io/dl1_reader.py:212-222`) -/
def iterateOverEvents (r : HReader (DRow β) ν) : Except Err (List (List (DRow β))) :=
  match metaInt r "n_events" with
  | .error e => .error e
  | .ok n => (List.range n.toNat).mapM (selectEventIndex r)

/-- `iterate_over_selected_events` (`core/io/dl1_reader.py:224-240`) -/
def iterateOverSelected (r : HReader (DRow β) ν) (ids : List Int) : Except Err (List (List (DRow β))) :=
  match eventLookup r with
  | .error e => .error e
  | .ok lookup =>
    ((lookup.zipIdx.filter fun p => decide ((p.1 : Int) ∈ ids)).map Prod.snd).mapM (selectEventIndex r)

/-- Python's `f"{i:02}"` on integers -/
def pad2Int (i : Int) : String :=
  match i with
  | .ofNat n => pad2 n
  | .negSucc n => "-" ++ String.ofList (decimal (n + 1))

/-- `get_sn`, `get_sipm_temp`, `get_primary_temp` (`core/io/dl1_reader.py:129-155`) for the dictionary `name` -/
def getModuleValue (r : HReader (DRow β) ν) (name : String) (tm : Int) : Except Err (MetaVal ν) :=
  match metaInt r "n_modules" with
  | .error e => .error e
  | .ok n =>
    if tm ≥ n then .error .indexError
    else match getMetadata r "data" name with
      | .error e => .error e
      | .ok d => Dict.getItem d ("TM" ++ pad2Int tm)

/-- `get_sp_dac`, `get_sp_hvon` (`core/io/dl1_reader.py:157-169`) -/
def getSuperpixelValue (r : HReader (DRow β) ν) (name : String) (tm sp : Int) : Except Err (MetaVal ν) :=
  match metaInt r "n_modules" with
  | .error e => .error e
  | .ok n =>
    if tm ≥ n then .error .indexError
    else match metaInt r "n_superpixels_per_module" with
      | .error e => .error e
      | .ok m =>
        if sp ≥ m then .error .indexError
        else match getMetadata r "data" name with
          | .error e => .error e
          | .ok d => Dict.getItem d ("TM" ++ pad2Int tm ++ "_SP" ++ pad2Int sp)

/-! ## Output path -/

/-- Python's `str.replace(old, new)` for a non-empty `old`: leftmost, non-overlapping. `fuel` is the length of the
string. -/
def replaceChars (old new : List Char) : Nat → List Char → List Char
  | 0, s => s
  | fuel + 1, s =>
    match s with
    | [] => []
    | c :: rest =>
      if old.isPrefixOf s then new ++ replaceChars old new fuel (s.drop old.length)
      else c :: replaceChars old new fuel rest

/-- `s.replace(old, new)` -/
def pyReplace (s old new : String) : String :=
  String.ofList (replaceChars old.toList new.toList s.toList.length s.toList)

/-- the automatic output path (`scripts/extract_dl1.py:36-40`) -/
def outputPath (path : String) (isMc : Bool) (given : Option String) : String :=
  let useGiven : Bool := match given with
    | some p => p ≠ ""
    | none => false
  if useGiven then given.getD ""
  else if isMc then pyReplace path ".simtel.gz" "_dl1.h5"
  else pyReplace (pyReplace path "_r1" "_dl1") ".tio" ".h5"

end Verif.Model
