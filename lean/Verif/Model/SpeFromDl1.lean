import Verif.Model.SpeFile
import Verif.Model.PartialRead
import Verif.Model.Extraction

/-!
# `scripts/extract_spe.py:107-117`: the charges of the DL1 files

`Verif.Model.SpeFile` starts from the columns of a file; here they are read from the store.
-/

namespace Verif.Model

open Verif.Py

variable {τ ν : Type}

/-- the columns of a row of the table `data` (`scripts/extract_dl1.py:162-169`) -/
def dl1Cells (row : DRow (Dict String (Cell τ))) : Dict String (Cell τ) :=
  ("iev", .num row.iev) :: ((match row.pixel with
    | some p => [("pixel", .num p)]
    | none => []) ++ row.vals)

/-- a number of an array of charges. NaN, which `np.histogram` leaves out when it is given a range, and times are not modelled: they are a `TypeError` here. -/
def Cell.number : Cell τ → Except Err ℚ
  | .num q => .ok q
  | _ => .error .typeError

/-- the values of the metadata of a DL1 file in that of the file of the fits -/
def speMeta : MetaVal ν → MetaVal (SpeObj ν)
  | .int n => .int n
  | .str s => .str s
  | .obj x => .obj (.other x)

/-- `reader.mapping` (`core/io/dl1_reader.py:82-84`) -/
def speMapping {ρ : Type} (r : HReader ρ ν) : Except Err (List ρ × MetaDict (SpeObj ν)) :=
  match getMapping r with
  | .error e => .error e
  | .ok m => .ok (m.1, m.2.map fun kv => (kv.1, speMeta kv.2))

/-- what the script reads from an opened file: the column, the two numbers of the metadata and the mapping (`scripts/extract_spe.py:110-116`) -/
def speInput (r : HReader (DRow (Dict String (Cell τ))) ν) (col : String) : Except Err (SpeInput (DRow (Dict String (Cell τ))) ν) :=
  match selectColumnOf dl1Cells r "data" col none none with
  | .error e => .error e
  | .ok cells => match cells.mapM Cell.number with
    | .error e => .error e
    | .ok v => match metaInt r "n_events" with
      | .error e => .error e
      | .ok nEvents => match metaInt r "n_pixels" with
        | .error e => .error e
        | .ok nPixels => .ok ⟨[(col, v)], nEvents.toNat, nPixels.toNat, speMapping r⟩

/-- the files of the command line, opened one after the other (`scripts/extract_spe.py:109-110`) -/
def speInputs [DecidableEq ν] (col : String) : List (String × Store (DRow (Dict String (Cell τ))) ν) → Except Err (List (String × SpeInput (DRow (Dict String (Cell τ))) ν))
  | [] => .ok []
  | (path, s) :: files => match openReader s with
    | .error e => .error e
    | .ok r => match speInput r col with
      | .error e => .error e
      | .ok d => match speInputs col files with
        | .error e => .error e
        | .ok ds => .ok ((path, d) :: ds)

/-- `main` of `extract_spe` on the files themselves (`scripts/extract_spe.py:99-175`). Simplification: all files are read before the sizes of their columns and
the mapping of the first are looked at, so that with several faults another of their exceptions may be the one reported. -/
def extractSpeFiles [DecidableEq ν] (process : Fitter → List ChargeArray → Nat → Except Err SpeStore) (mem : List (SpeRow (DRow (Dict String (Cell τ)))) → Nat) (order : List String)
    (name : String) (make : Nat → Fitter) (col : String) (files : List (String × Store (DRow (Dict String (Cell τ))) ν)) :
    Except Err (Store (SpeRow (DRow (Dict String (Cell τ)))) (SpeObj ν)) :=
  match speInputs col files with
  | .error e => .error e
  | .ok inputs => extractSpe process mem order name make col inputs

end Verif.Model
