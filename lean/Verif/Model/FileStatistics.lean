import Verif.Model.Dl1
import Verif.Model.RunningStats

/-!
# Module statistics of a DL1 file (`examples/pandas_cookbook.py:129-192`, with the reader)

The example reads a DL1 file twice: event by event into the running statistics, and as a whole for pandas. `charge` is the column `charge` of a row,
`none` for NaN; a file without this column is not modelled (`KeyError` at the first event). The running statistics themselves are
`Verif.Model.RunningStats`.
-/

namespace Verif.Model

open Verif.Py

variable {β ν : Type}

/-- the columns `pixel` and `charge` of a frame (`examples/pandas_cookbook.py:148-150`, `187-188`): a frame without the column `pixel` is a `KeyError` -/
def frameColumns (charge : β → Option ℚ) (rows : List (DRow β)) : Except Err (List PixelCharge) :=
  rows.mapM fun row => match row.pixel with
    | none => .error .keyError
    | some p => .ok ⟨p, charge row.vals⟩

/-- `df = r.load_entire_table()` (`core/io/dl1_reader.py:171-186`) and its two columns -/
def tableOfFile (charge : β → Option ℚ) (r : HReader (DRow β) ν) : Except Err (List PixelCharge) :=
  match readTable r "data" false with
  | .error e => .error e
  | .ok rows => frameColumns charge rows

/-- `get_running_mean` (`examples/pandas_cookbook.py:180-192`): what is printed at the end, or the exception instead. Simplification: all events are
selected before the first is added; an exception of either kind leaves nothing printed. -/
def runningMeanOfFile (mem : List ModuleSums → Nat) (charge : β → Option ℚ) (r : HReader (DRow β) ν) :
    Except Err (List (RunningRow × Option ℚ × Option ℚ)) :=
  match iterateOverEvents r with
  | .error e => .error e
  | .ok events => match events.mapM (frameColumns charge) with
    | .error e => .error e
    | .ok tables => match runningTable mem tables with
      | .error e => .error e
      | .ok rows => match tableOfFile charge r with
        | .error e => .error e
        | .ok table => .ok (comparison table rows)

end Verif.Model
