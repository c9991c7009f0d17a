import Verif.Model.Subclasses
import Verif.Model.Detect
import Verif.Model.Runlist

/-!
# Opening a waveform file by its path (`core/io/waveform.py:123-142`), with recognition that may raise
-/

namespace Verif.Model

open Verif.Py

/-- the loop of `WaveformReader.from_path` (`core/io/waveform.py:140-142`) -/
def fromPathLoop (compatible : Nat → Except Err Bool) : List Nat → Except Err (Option Nat)
  | [] => .ok none
  | c :: cs => match compatible c with
    | .error e => .error e
    | .ok true => .ok (some c)
    | .ok false => fromPathLoop compatible cs

/-- `WaveformReader.from_path` (`core/io/waveform.py:123-142`) up to the constructor call; `compatible c` is `c.is_compatible(path)`, which may raise. -/
def fromPathRaising (h : Hierarchy) (cls : Nat) (compatible : Nat → Except Err Bool) : Except Err (Option Nat) :=
  fromPathLoop compatible (childSubclasses h cls)

/-- `is_compatible` of the reader classes of CHECLabPy (`core/io/tio.py:95-114`, `core/io/simtel.py:105-118`); `ReaderR1` and `ReaderR0` inherit the one of
`TIOReader`. Both open the file first; `none` is a path without a file. -/
def readerCompatible (gunzip : Nat → List UInt8 → Except Err (List UInt8)) (header : List UInt8 → Option (List String)) (file : Option (List UInt8)) (c : Nat) :
    Except Err Bool :=
  match file with
  | none => .error .fileNotFound
  | some bytes => if c = 2 then simtelCompatible gunzip bytes else tioCompatible gunzip header bytes

/-- `WaveformReader.from_path(path)` for the readers of CHECLabPy: the name of the class that is instantiated -/
def openByPath (gunzip : Nat → List UInt8 → Except Err (List UInt8)) (header : List UInt8 → Option (List String)) (file : Option (List UInt8)) :
    Except Err (Option String) :=
  match fromPathRaising readerHierarchy 0 (readerCompatible gunzip header file) with
  | .error e => .error e
  | .ok c => .ok (c.map readerHierarchy.name)

/-- one input of `extract_dl1` (`scripts/extract_dl1.py:207-209`): without a reader the construction of the extractor fails at `reader.n_pixels` (`:96`).
`process` is the rest of the work with a reader of the given class. -/
def openAndExtract (gunzip : Nat → List UInt8 → Except Err (List UInt8)) (header : List UInt8 → Option (List String))
    (process : String → List UInt8 → Except Err (List UInt8 × Option Err)) (file : List UInt8) : Except Err (List UInt8 × Option Err) :=
  match openByPath gunzip header (some file) with
  | .error e => .error e
  | .ok none => .error .attributeError
  | .ok (some cls) => process cls file

end Verif.Model
