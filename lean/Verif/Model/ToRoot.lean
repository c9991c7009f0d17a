import Verif.Py.Basic
import Mathlib.Data.Rat.Defs

/-!
# `scripts/convert_hd52root.py`: conversion of a DL1 file to ROOT trees

ROOT, root_numpy and reading the file are not modelled: a tree is the data given to it. Messages are not modelled. Texts have at most 255 characters (the size of
the holder).
-/

namespace Verif.Model

open Verif.Py

/-- a value of the metadata -/
inductive RVal
  | num (q : ℚ)
  | str (s : String)
  | none
  | time (ns : Int)
  deriving DecidableEq

/-- a column of the data: numbers or times in ns -/
inductive RColumn
  | nums (l : List ℚ)
  | times (l : List Int)
  deriving DecidableEq

/-- what the script uses of a DL1 file; `hasMonitor` says that the file holds the old monitor tables (`core/io/dl1_reader.py:97-111`),
`nBytes` is the recorded size of the data -/
structure RInput where
  data : List (String × RColumn)
  metadata : Dict String RVal
  mapping : List (String × RColumn)
  hasMonitor : Bool
  nBytes : Nat

/-- the trees of the ROOT file: the branches of text and the record of the other values in `tMeta`, `tData` and `tMapping` -/
structure RootFile where
  texts : List (String × String)
  record : Dict String RVal
  data : List (String × RColumn)
  mapping : List (String × RColumn)

/-- the part of a path behind the last `/`, as characters, and the part up to it -/
def splitDir (p : List Char) : List Char × List Char :=
  let base := (p.reverse.takeWhile (· ≠ '/')).reverse
  (p.take (p.length - base.length), base)

/-- `os.path.splitext(p)[0]`: without the last extension; leading dots of the name do not count -/
def splitextRoot (p : List Char) : List Char :=
  let (dir, base) := splitDir p
  let dots := base.takeWhile (· = '.')
  let name := base.dropWhile (· = '.')
  if '.' ∈ name then dir ++ dots ++ ((name.reverse.dropWhile (· ≠ '.')).drop 1).reverse else p

/-- the path of the output (`scripts/convert_hd52root.py:58-59`) -/
def rootPath (input : List Char) (out : Option (List Char)) : List Char := match out with
  | some p => p
  | none => splitextRoot input ++ ".root".toList

/-- the loop over the metadata (`scripts/convert_hd52root.py:78-82`): times become numbers of ns -/
def metaTimes (m : Dict String RVal) : Dict String RVal := m.map fun kv => match kv.2 with
  | .time ns => (kv.1, .num ns)
  | _ => kv

/-- the loop over the columns (`scripts/convert_hd52root.py:85-89`) -/
def dataTimes (d : List (String × RColumn)) : List (String × RColumn) := d.map fun c => if c.1 = "t_cpu" then match c.2 with
  | .times l => (c.1, .nums (l.map fun (n : Int) => (n : ℚ)))
  | .nums _ => c else c

/-- the loop which separates the texts (`scripts/convert_hd52root.py:96-105`): `None` becomes the text "None" -/
def splitMeta : Dict String RVal → List (String × String) × Dict String RVal
  | [] => ([], [])
  | (k, v) :: rest =>
    let (texts, record) := splitMeta rest
    match v with
    | .none => ((k, "None") :: texts, record)
    | .str s => ((k, s) :: texts, record)
    | v => (texts, (k, v) :: record)

/-- the file system: the content of each ROOT file -/
abbrev RootFs := Dict (List Char) RootFile

/-- the script (`scripts/convert_hd52root.py:58-116`) for an input that exists: the file system afterwards and the error. Data of more than
8e9 bytes are not loaded (`core/io/hdf5_reader.py:105-109`); the monitor reader has no method `load_entire_table` (`core/io/dl1_reader.py:294-531`). -/
def convertToRoot (fs : RootFs) (path : List Char) (d : RInput) (out : Option (List Char)) : RootFs × Option Err :=
  if d.nBytes > 8000000000 then (fs, some .memoryError)
  else if d.hasMonitor then (fs, some .attributeError)
  else
    let (texts, record) := splitMeta (metaTimes d.metadata)
    (Dict.set fs (rootPath path out) ⟨texts, record, dataTimes d.data, d.mapping⟩, none)

end Verif.Model
