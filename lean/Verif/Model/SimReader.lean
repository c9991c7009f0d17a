import Verif.Model.Camera

/-!
# Files of simulated arrays (`core/io/simtel.py:17-103`)

ctapipe's `EventSeeker` is the list of the events of the file, at most `max_events`. In an event each telescope has containers, which are empty (`None`) when the telescope
did not record the event.
-/

namespace Verif.Model

open Verif.Py

variable {α β : Type}

/-- an event: the telescopes with data in the order of `list(tels_with_data)`, and for every telescope the shape of the raw waveforms (pixels, samples), the calibrated waveform
and the true charges of the pixels -/
structure ArrayEvent (α β : Type) where
  withData : List Nat
  shape : Nat → Option (Nat × Nat)
  waveform : Nat → Option (List α)
  image : Nat → Option (List β)

/-- the attributes set by the constructor -/
structure SimReader (α β : Type) where
  tel : Nat
  nPixels : Nat
  nSamples : Nat
  nModules : Nat
  order : List Int
  events : List (ArrayEvent α β)

/-- `SimtelReader.__init__` (`core/io/simtel.py:45-75`); `position tel` are rows and columns of the telescope's pixels (`get_row_column`, see `RowColumn`),
`mapRow`, `mapCol` those of the CHEC-S mapping. The assignment of `np.arange(n_pixels)` needs a position for each pixel. -/
def openSim (nRows nCols : Nat) (mapRow mapCol : List Int) (position : Nat → Except Err (List Int × List Int)) (events : List (ArrayEvent α β)) :
    Except Err (SimReader α β) :=
  match events with
  | [] => .error .indexError
  | first :: _ => match first.withData with
    | [] => .error .indexError
    | tel :: _ => match first.shape tel with
      | none => .error .attributeError
      | some (nPixels, nSamples) => match position tel with
        | .error e => .error e
        | .ok (row, col) =>
          if row.length ≠ nPixels then .error .valueError
          else match pixelOrder nRows nCols row col mapRow mapCol with
            | .error e => .error e
            | .ok order => .ok { tel, nPixels, nSamples, nModules := nPixels / 64, order, events }

/-- `_build_waveform` (`core/io/simtel.py:84-95`): `None[...]` raises `TypeError` -/
def simWaveform (r : SimReader α β) (e : ArrayEvent α β) : Except Err (List α × List β) :=
  match e.waveform r.tel with
  | none => .error .typeError
  | some w => match takeAll w r.order with
    | .error e => .error e
    | .ok samples => match e.image r.tel with
      | none => .error .typeError
      | some image => match takeAll image r.order with
        | .error e => .error e
        | .ok mcTrue => .ok (samples, mcTrue)

/-- a loop `for wf in reader` (`core/io/simtel.py:101-103`): the waveforms handed out, and the exception that ends the loop -/
def simIterate (r : SimReader α β) : List (ArrayEvent α β) → List (List α × List β) × Option Err
  | [] => ([], none)
  | e :: es => match simWaveform r e with
    | .error x => ([], some x)
    | .ok w => let rest := simIterate r es; (w :: rest.1, rest.2)

/-- `len(reader)` (`core/io/simtel.py:192-194`) -/
def simLength (r : SimReader α β) : Nat := r.events.length

end Verif.Model
