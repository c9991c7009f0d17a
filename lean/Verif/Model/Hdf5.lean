import Verif.Py.Basic

/-!
# `core/io/hdf5_writer.py`, `core/io/hdf5_reader.py`, `core/io/hdf5_appender.py`

The HDF5 file is an abstract pandas `HDFStore`: a finite map from keys to nodes.  A data frame is the list of its rows
(type `ρ`); column names and dtypes (`Model/Frames`), row labels (`Model/RowLabels`) and compression are left out.
Keys do not contain `/`.
-/

namespace Verif.Model

open Verif.Py

/-- A metadata value; `int` and `str` are the values the library itself writes (`n_bytes`, `total_bytes`, `version`),
`obj` is any other Python object. -/
inductive MetaVal (ν : Type)
  | int (n : Int)
  | str (s : String)
  | obj (x : ν)
  deriving DecidableEq, Repr

/-- pandas storage formats: `store[key] = df` writes `fixed`, `store.append` writes `table`. -/
inductive Fmt | fixed | table
  deriving DecidableEq, Repr

/-- A metadata dictionary attached to a node. -/
abbrev MetaDict (ν : Type) := Dict String (MetaVal ν)

/-- One node of the store: format, rows, and the dict-valued attributes set by CHECLabPy (pandas' own attributes, among
them the dict `info`, are not represented). -/
structure Node (ρ ν : Type) where
  fmt : Fmt
  rows : List ρ
  attrs : Dict String (MetaDict ν)
  deriving DecidableEq

/-- The content of an HDF5 file. -/
abbrev Store (ρ ν : Type) := Dict String (Node ρ ν)

variable {ρ ν : Type}

namespace Store

/-- `store[key] = df` (pandas `put`, fixed format): replaces the node including its attributes. -/
def put (s : Store ρ ν) (key : String) (df : List ρ) : Store ρ ν :=
  Dict.set s key { fmt := .fixed, rows := df, attrs := [] }

/-- `store.append(key, df, ...)` (table format): an empty frame is ignored by pandas; a fixed-format node cannot be
appended to (`ValueError: Can only append to Tables`). -/
def append (s : Store ρ ν) (key : String) (df : List ρ) : Except Err (Store ρ ν) :=
  if df.isEmpty then .ok s
  else match Dict.get? s key with
    | none => .ok (Dict.set s key { fmt := .table, rows := df, attrs := [] })
    | some nd => match nd.fmt with
      | .table => .ok (Dict.set s key { nd with rows := nd.rows ++ df })
      | .fixed => .error .valueError

/-- `setattr(store.get_storer(key).attrs, name, d)` on an existing node. -/
def setAttr (s : Store ρ ν) (key name : String) (d : MetaDict ν) : Store ρ ν :=
  match Dict.get? s key with
  | none => s
  | some nd => Dict.set s key { nd with attrs := Dict.set nd.attrs name d }

end Store

/-- What a writer is parametrised by: `mem` is `df.memory_usage(index=True, deep=True).sum()` (any function of the
frame), `prep` is the overridable static method `_prepare_before_append`
(`core/io/hdf5_writer.py:38-52`: identity; `scripts/extract_dl1.py:16-32`: cast and sort). -/
structure WCfg (ρ : Type) where
  mem : List ρ → Nat
  prep : List ρ → List ρ

/-- State of an `HDF5Writer` (`core/io/hdf5_writer.py:22-30`).  `keys` is a Python set, represented by the list of its
elements without repetition.  The `defaultdict`s with list and int values are total functions. -/
structure WState (ρ ν : Type) where
  keys : List String
  metadata : Dict String (Dict String (MetaDict ν))
  dfList : String → List (List ρ)
  dfListNBytes : String → Nat
  nBytes : String → Nat
  store : Store ρ ν

/-- point update of a `defaultdict` -/
def fset {β : Type} (f : String → β) (k : String) (v : β) : String → β := fun k' => if k' = k then v else f k'

/-- `self.keys.add(key)` -/
def addKey (ks : List String) (k : String) : List String := if k ∈ ks then ks else ks ++ [k]

/-- `HDF5Writer.__init__` (`core/io/hdf5_writer.py:10-30`) with the store the file is opened on: empty for `HDF5Writer`
(mode `'w'`), the existing content for `HDF5Appender` (`core/io/hdf5_appender.py:27-35`, mode `'r+'`). -/
def WState.init (s : Store ρ ν) : WState ρ ν where
  keys := []
  metadata := []
  dfList _ := []
  dfListNBytes _ := 0
  nBytes _ := 0
  store := s

/-- Result of a call: the state afterwards and the exception, if any. -/
abbrev Res' (ρ ν : Type) := WState ρ ν × Option Err

/-- The flush threshold `0.5E9` (`core/io/hdf5_writer.py:104`). -/
def flushThreshold : Nat := 500000000

/-- `_append_to_store` (`core/io/hdf5_writer.py:54-77`); `expectedrows` only affects performance. -/
def flush (c : WCfg ρ) (st : WState ρ ν) (key : String) : Res' ρ ν :=
  if (st.dfList key).isEmpty then (st, none)
  else
    let df := c.prep (st.dfList key).flatten
    match Store.append st.store key df with
    | .error e => (st, some e)
    | .ok s' =>
      ({ st with
          store := s'
          nBytes := fset st.nBytes key (st.nBytes key + c.mem df)
          dfList := fset st.dfList key []
          dfListNBytes := fset st.dfListNBytes key 0 }, none)

/-- `append` (`core/io/hdf5_writer.py:79-105`). -/
def append (c : WCfg ρ) (st : WState ρ ν) (df : List ρ) (key : String) : Res' ρ ν :=
  let st := { st with
    keys := addKey st.keys key
    dfList := fset st.dfList key (st.dfList key ++ [df])
    dfListNBytes := fset st.dfListNBytes key (st.dfListNBytes key + c.mem df) }
  if st.dfListNBytes key ≥ flushThreshold then flush c st key else (st, none)

/-- `write` for one keyword argument (`core/io/hdf5_writer.py:107-129`); several keyword arguments are several such
calls in order. -/
def write (c : WCfg ρ) (st : WState ρ ν) (key : String) (df : List ρ) : Res' ρ ν :=
  ({ st with
      keys := addKey st.keys key
      store := Store.put st.store key df
      nBytes := fset st.nBytes key (c.mem df) }, none)

/-- `add_mapping` (`core/io/hdf5_writer.py:131-140`): the mapping table and its `metadata` dictionary. -/
def addMapping (st : WState ρ ν) (mapping : List ρ) (md : MetaDict ν) : Res' ρ ν :=
  ({ st with store := Store.setAttr (Store.put st.store "mapping" mapping) "mapping" "metadata" md }, none)

/-- `self.metadata[key][name].update(kwargs)` on the nested defaultdict -/
def metaUpdate (m : Dict String (Dict String (MetaDict ν))) (key name : String) (kv : MetaDict ν) :
    Dict String (Dict String (MetaDict ν)) :=
  let sub := (Dict.get? m key).getD []
  let d := (Dict.get? sub name).getD []
  Dict.set m key (Dict.set sub name (Dict.update d kv))

/-- `add_metadata` (`core/io/hdf5_writer.py:142-178`). -/
def addMetadata (st : WState ρ ν) (key name : String) (kv : MetaDict ν) : Res' ρ ν :=
  if name = "info" ∨ name = "mapping" then (st, some .valueError)
  else ({ st with metadata := metaUpdate st.metadata key name kv }, none)

/-- The calls a user can make between opening and closing. Metadata are given as keyword arguments, so no entry is named
`self`, `key` or `name` (Python refuses them). -/
inductive Op (ρ ν : Type)
  | append (df : List ρ) (key : String)
  | write (key : String) (df : List ρ)
  | addMapping (mapping : List ρ) (md : MetaDict ν)
  | addMetadata (key name : String) (kv : MetaDict ν)

/-- one call -/
def step (c : WCfg ρ) (st : WState ρ ν) : Op ρ ν → Res' ρ ν
  | .append df key => append c st df key
  | .write key df => write c st key df
  | .addMapping m md => addMapping st m md
  | .addMetadata key name kv => addMetadata st key name kv

/-- A history of calls in which the caller survives the exceptions (each call's exception is caught by the caller). -/
def run (c : WCfg ρ) (st : WState ρ ν) (ops : List (Op ρ ν)) : WState ρ ν :=
  ops.foldl (fun st op => (step c st op).1) st

/-- `_save_metadata` of the writer (`core/io/hdf5_writer.py:180-187`): create an empty table for keys that have none,
then set the attributes. -/
def saveMetadata (s : Store ρ ν) (m : Dict String (Dict String (MetaDict ν))) : Store ρ ν :=
  m.foldl (fun s (kv : String × Dict String (MetaDict ν)) =>
    let s := if (Dict.get? s kv.1).isSome then s else Store.put s kv.1 []
    kv.2.foldl (fun s (nd : String × MetaDict ν) => Store.setAttr s kv.1 nd.1 nd.2) s) s

/-- the loop over `self.keys` in `finish` (`core/io/hdf5_writer.py:195-199`) in the given iteration order -/
def finishLoop (c : WCfg ρ) : List String → WState ρ ν → Int → Except Err (WState ρ ν × Int)
  | [], st, total => .ok (st, total)
  | key :: ks, st, total =>
    match flush c st key with
    | (_, some e) => .error e
    | (st, none) =>
      let st' := (addMetadata st key "metadata" [("n_bytes", .int (st.nBytes key))]).1
      finishLoop c ks st' (total + st.nBytes key)

/-- `CHECLabPy.__version__` (`version.py:1`). -/
def version : String := "3.1.0"

/-- `HDF5Writer.finish` (`core/io/hdf5_writer.py:189-205`): the content of the closed file.  `order` is the order in
which Python iterates over the set `self.keys`. -/
def finish (c : WCfg ρ) (st : WState ρ ν) (order : List String) : Except Err (Store ρ ν) := do
  let (st, total) ← finishLoop c order st 0
  let st := (addMetadata st "data" "metadata" [("total_bytes", .int total), ("version", .str version)]).1
  return saveMetadata st.store st.metadata

/-! ## Reader -/

/-- An opened `HDF5Reader`: the lists built by `_generate_contents_list` and the store. -/
structure HReader (ρ ν : Type) where
  store : Store ρ ν
  dataframeKeys : List String
  metadataKeys : Dict String (List String)

/-- `attrs.metadata['n_bytes']` with `KeyError` mapped to 0 (`core/io/hdf5_reader.py:49-52`); a node without the
attribute `metadata` raises `AttributeError`, which is not caught. -/
def nodeNBytes (nd : Node ρ ν) : Except Err (MetaVal ν) :=
  match Dict.get? nd.attrs "metadata" with
  | none => .error .attributeError
  | some d => match Dict.get? d "n_bytes" with
    | none => .ok (.int 0)
    | some v => .ok v

/-- names of the metadata dictionaries listed for a node (`core/io/hdf5_reader.py:57-64`): names starting with an
underscore and `info` are skipped.  All stored attributes here are dictionaries. -/
def listedNames (nd : Node ρ ν) : List String :=
  (Dict.keys nd.attrs).filter fun n => !(n.toList.head? = some '_') && !(n = "info")

/-- the loop of `_generate_contents_list` (`core/io/hdf5_reader.py:45-65`) -/
def contentsLoop [DecidableEq ν] : List (String × Node ρ ν) → List String → Dict String (List String) →
    Except Err (List String × Dict String (List String))
  | [], dks, mks => .ok (dks, mks)
  | (key, nd) :: rest, dks, mks =>
    match nodeNBytes nd with
    | .error e => .error e
    | .ok nb =>
      if key = "mapping" then contentsLoop rest dks mks
      else
        let dks := if nb = .int 0 then dks else dks ++ [key]
        let mks := if (listedNames nd).isEmpty then mks else Dict.set mks key (listedNames nd)
        contentsLoop rest dks mks

/-- Opening a file (`core/io/hdf5_reader.py:10-39`), without the version warnings. Simplification: keys in the order of the
store; pandas lists them alphabetically. -/
def openReader [DecidableEq ν] (s : Store ρ ν) : Except Err (HReader ρ ν) :=
  match contentsLoop s [] [] with
  | .error e => .error e
  | .ok (dks, mks) => .ok { store := s, dataframeKeys := dks, metadataKeys := mks }

/-- `get_metadata` (`core/io/hdf5_reader.py:132-157`).  The attribute was listed at opening; if the node was replaced
since (possible in an appender) the lookup raises `AttributeError`, a vanished node gives `KeyError`. -/
def getMetadata (r : HReader ρ ν) (key name : String) : Except Err (MetaDict ν) :=
  match Dict.get? r.metadataKeys key with
  | none => .error .keyError
  | some names =>
    if name ∈ names then
      match Dict.get? r.store key with
      | none => .error .keyError
      | some nd => match Dict.get? nd.attrs name with
        | none => .error .attributeError
        | some d => .ok d
    else .error .keyError

/-- `get_n_bytes` (`core/io/hdf5_reader.py:174-187`) -/
def getNBytes (r : HReader ρ ν) (key : String) : Except Err (MetaVal ν) := do
  let d ← getMetadata r key "metadata"
  Dict.getItem d "n_bytes"

/-- the limit `8E9` of `read` (`core/io/hdf5_reader.py:106`) -/
def readLimit : Int := 8000000000

/-- `read` (`core/io/hdf5_reader.py:81-114`).  Comparing a non-number with `8E9` raises `TypeError`; a value
under `n_bytes` that is not an integer (a float, say, added by the caller) is taken for a non-number. -/
def readTable (r : HReader ρ ν) (key : String) (force : Bool) : Except Err (List ρ) :=
  if key ∈ r.dataframeKeys then do
    let nb ← getNBytes r key
    match nb with
    | .int n =>
      if n > readLimit ∧ force = false then .error .memoryError
      else match Dict.get? r.store key with
        | none => .error .keyError
        | some nd => .ok nd.rows
    | _ => .error .typeError
  else .error .keyError

/-- `get_mapping` (`core/io/hdf5_reader.py:116-130`): rows and metadata of the mapping. -/
def getMapping (r : HReader ρ ν) : Except Err (List ρ × MetaDict ν) :=
  match Dict.get? r.store "mapping" with
  | none => .error .keyError
  | some nd => match Dict.get? nd.attrs "metadata" with
    | none => .error .attributeError
    | some d => .ok (nd.rows, d)

/-! ## Iteration in chunks -/

/-- pandas' `TableIterator.__iter__` as used by `HDFStore.select(key, chunksize=...)`: from `current` on, read
`rows[current:stop]` with `stop = min(current + chunk, n)`, skip empty pieces.  `fuel` bounds the number of loop passes;
`none` means the loop is still running after that many passes. -/
def chunkLoop (rows : List ρ) (chunk : Nat) : Nat → Nat → Option (List (List ρ))
  | 0, current => if current < rows.length then none else some []
  | fuel + 1, current =>
    if current < rows.length then
      let stop := min (current + chunk) rows.length
      let value := (rows.drop current).take (stop - current)
      match chunkLoop rows chunk fuel stop with
      | none => none
      | some rest => some (if value.isEmpty then rest else value :: rest)
    else some []

/-- the default chunk size `int(n_rows / n_bytes * 2E9)` of `iterate_over_chunks` (`core/io/hdf5_reader.py:290-291`,
the truncation is pandas'); exact rational arithmetic. -/
def defaultChunk (nRows nBytes : Nat) : Nat := nRows * 2000000000 / nBytes

/-- `iterate_over_chunks` (`core/io/hdf5_reader.py:269-293`): `chunksize` `none` or `0` means the default; a fixed-format
table cannot be iterated (`TypeError` from pandas); a default for a recorded size of 0 is an error
(division by zero; with numpy integers it surfaces as an overflow in pandas – no session records 0 for a table that has
rows, so the kind of error is never used). `fuel` as
in `chunkLoop`; the inner `none` is a loop that has not ended. Keyword arguments of `select` are not modelled. -/
def iterateOverChunks (r : HReader ρ ν) (key : String) (chunksize : Option Nat) (fuel : Nat) :
    Except Err (Option (List (List ρ))) :=
  match Dict.get? r.store key with
  | none => .error .keyError
  | some nd =>
    let chunk : Except Err Nat := match chunksize with
      | some (c + 1) => .ok (c + 1)
      | _ => match getNBytes r key with
        | .error e => .error e
        | .ok (.int n) => if n = 0 then .error .zeroDivision else .ok (defaultChunk nd.rows.length n.toNat)
        | .ok _ => .error .typeError
    match chunk with
    | .error e => .error e
    | .ok c => match nd.fmt with
      | .fixed => .error .typeError
      | .table => .ok (chunkLoop nd.rows c fuel 0)

/-! ## Appender -/

/-- `HDF5Appender._save_metadata` (`core/io/hdf5_appender.py:56-67`): an existing dictionary is merged with the new one,
new fields winning. -/
def saveMetadataMerge (s : Store ρ ν) (m : Dict String (Dict String (MetaDict ν))) : Store ρ ν :=
  m.foldl (fun s (kv : String × Dict String (MetaDict ν)) =>
    let s := if (Dict.get? s kv.1).isSome then s else Store.put s kv.1 []
    kv.2.foldl (fun s (nd : String × MetaDict ν) =>
      let old := match Dict.get? s kv.1 with
        | none => []
        | some node => (Dict.get? node.attrs nd.1).getD []
      Store.setAttr s kv.1 nd.1 (Dict.update old nd.2)) s) s

/-- `HDF5Appender.finish` (`core/io/hdf5_appender.py:69-85`).  `mks` are the metadata keys listed when the file was
opened; the lookup of `total_bytes` happens in the current store.  A value there that is not an integer is taken for a
non-number (`TypeError` of the addition). -/
def finishAppender (c : WCfg ρ) (mks : Dict String (List String)) (st : WState ρ ν) (order : List String) :
    Except Err (Store ρ ν) := do
  let md ← getMetadata { store := st.store, dataframeKeys := [], metadataKeys := mks } "data" "metadata"
  let tb ← Dict.getItem md "total_bytes"
  match tb with
  | .int t0 =>
    let (st, total) ← finishLoop c order st t0
    let st := (addMetadata st "data" "metadata" [("total_bytes", .int total), ("version", .str version)]).1
    return saveMetadataMerge st.store st.metadata
  | _ => .error .typeError

/-- A complete appender session on an existing file: open (the contents list is built), calls, close. -/
def appendSession [DecidableEq ν] (c : WCfg ρ) (s : Store ρ ν) (ops : List (Op ρ ν)) (order : List String) :
    Except Err (Store ρ ν) :=
  match openReader s with
  | .error e => .error e
  | .ok r => finishAppender c r.metadataKeys (run c (WState.init s) ops) order

/-- A complete writer session: open for writing, calls, close. -/
def writeSession (c : WCfg ρ) (ops : List (Op ρ ν)) (order : List String) : Except Err (Store ρ ν) :=
  finish c (run c (WState.init []) ops) order

end Verif.Model
