import Mathlib.Algebra.Field.Rat
import Verif.Model.WaveformReader

/-!
# `examples/simple_r0r1_loop.py`

The two readers are given by their events, a row of samples for each pixel, and by the names they have. What is printed with `%d` is kept as the number before it is cut to an integer.
`np.max` of a single number is that number.
-/

namespace Verif.Model

open Verif.Py

/-- the names a `TIOReader` has: set in the constructors (`core/io/waveform.py:49-62`, `core/io/tio.py:49-77`) and defined in the classes (`core/io/waveform.py:64-142`,
`core/io/tio.py:79-168`); there is no `__getattr__`; names with leading underscores are left out, the program asks for none -/
def tioReaderNames : List String :=
  ["path", "max_events", "run_id", "n_modules", "n_pixels", "n_superpixels_per_module", "n_samples", "n_cells", "camera_version", "reference_pulse_path",
   "is_r1", "n_tmpix", "tc_mapping", "dtype", "get_tio_event",
   "is_compatible", "is_mc", "n_events", "get_sn", "get_sipm_temp", "get_primary_temp", "get_sp_dac", "get_sp_hvon", "from_path", "mapping"]

/-- `reader.name` for a reader with these names (`simple_r0r1_loop.py:24`, `:33`); the value of a name it has is `get name`, a number -/
def readerAttr (names : List String) (get : String → ℚ) (name : String) : Except Err ℚ :=
  if name ∈ names then .ok (get name) else .error .attributeError

/-- a reader of the program with its names (`simple_r0r1_loop.py:9-10`); `get i` is the access after the event with the index `i` was handed out -/
structure LoopReader where
  reader : WfReader (List (List ℚ))
  names : List String
  get : Int → String → ℚ

/-- what is printed (`simple_r0r1_loop.py:14`, `:17`, `:26`, `:34`, `:38`, `:45`, `:53-55`) -/
inductive LoopLine
  /-- `Number of events in file` -/
  | count (n : Int)
  /-- `ERROR` -/
  | mismatch
  /-- a line with the index, the numbers of pixels and samples, the time in ms and the "peak" -/
  | event (index : ℚ) (pixels samples : Nat) (dt peak : ℚ)
  /-- the index alone -/
  | number (index : ℚ)
  deriving DecidableEq

/-- `np.mean(wf)` (`simple_r0r1_loop.py:22`): of all samples; of none it is `nan`, here 0 -/
def meanOfAll (wf : List (List ℚ)) : ℚ := wf.flatten.sum / wf.flatten.length

/-- `len(wf[0])` (`simple_r0r1_loop.py:26`) -/
def samplesOf (wf : List (List ℚ)) : Except Err Nat := match wf with
  | [] => .error .indexError
  | w :: _ => .ok w.length

/-- the body of a loop for one reader (`simple_r0r1_loop.py:22-26`, `:30-34`): `shown` is the expression printed as the index, `first` the condition and `start` the value of `tack0` so far. Gives the line and the time of the first event. -/
def loopBody (r : LoopReader) (i : Int) (shown : Except Err ℚ) (first : Except Err Bool) (start : ℚ) (wf : List (List ℚ)) : Except Err (LoopLine × ℚ) := do
  let tack ← readerAttr r.names (r.get i) "current_tack"
  let isFirst ← first
  let start := if isFirst then tack else start
  let index ← shown
  let samples ← samplesOf wf
  return (.event index wf.length samples ((tack - start) / 1000000) (meanOfAll wf), start)

/-- the loop over indices (`simple_r0r1_loop.py:20-26`) -/
def indexLoop (r : LoopReader) : ℚ → List Int → List LoopLine × Option Err
  | _, [] => ([], none)
  | start, i :: is => match r.reader.getInt i with
    | .error e => ([], some e)
    | .ok wf => match loopBody r i (.ok i) (.ok (i == 0)) start wf with
      | .error e => ([], some e)
      | .ok (line, start) => (line :: (indexLoop r start is).1, (indexLoop r start is).2)

/-- the loop over the reader (`simple_r0r1_loop.py:29-34`): the index is asked of the reader -/
def iterLoop (r : LoopReader) : ℚ → List Int → List LoopLine × Option Err
  | _, [] => ([], none)
  | start, i :: is => match loopBody r i (readerAttr r.names (r.get i) "index") ((readerAttr r.names (r.get i) "index").map (· == 0)) start (r.reader.getEvent i) with
    | .error e => ([], some e)
    | .ok (line, start) => (line :: (iterLoop r start is).1, (iterLoop r start is).2)

/-- the start of the program (`simple_r0r1_loop.py:12-17`) -/
def loopHeader (r0 r1 : LoopReader) : List LoopLine :=
  .count r0.reader.nEvents :: ([r0, r1].filter fun r => !(r0.reader.nEvents == r.reader.nEvents)).map fun _ => .mismatch

/-- the program up to the end of the second loop (`simple_r0r1_loop.py:9-34`); an exception leaves what was printed until then. `tack0` in the
second loop is what the first loop left. In the first loop it is not bound before index 0, which comes first. -/
def simpleLoops (r0 r1 : LoopReader) : List LoopLine × Option Err :=
  let header := loopHeader r0 r1
  let events := range 0 r0.reader.nEvents 1
  match indexLoop r0 0 events with
  | (lines, some e) => (header ++ lines, some e)
  | (lines, none) =>
    let (more, e) := iterLoop r0 (r0.get 0 "current_tack") events
    (header ++ lines ++ more, e)

/-- one event of all readers (`simple_r0r1_loop.py:39-45`): the lines, and the time `tack0` or the exception. The label `R` is the index the reader has. -/
def readersLoop (i : Int) : ℚ → List LoopReader → List LoopLine × Except Err ℚ
  | start, [] => ([], .ok start)
  | start, r :: rs => match r.reader.getInt i with
    | .error e => ([], .error e)
    | .ok wf => match loopBody r i (readerAttr r.names (r.get i) "index") (.ok (i == 0)) start wf with
      | .error e => ([], .error e)
      | .ok (line, start) => (line :: (readersLoop i start rs).1, (readersLoop i start rs).2)

/-- the loop over the indices of both files (`simple_r0r1_loop.py:37-45`) -/
def bothLoop (rs : List LoopReader) : ℚ → List Int → List LoopLine × Except Err ℚ
  | start, [] => ([], .ok start)
  | start, i :: is => match readersLoop i start rs with
    | (lines, .error e) => (.number i :: lines, .error e)
    | (lines, .ok start) => (.number i :: lines ++ (bothLoop rs start is).1, (bothLoop rs start is).2)

/-- the loop over both readers together (`simple_r0r1_loop.py:48-55`): time and index are those of the first reader. The label `R0` or `R1` of a line is kept as a number. -/
def zipLoop (r0 r1 : LoopReader) : ℚ → List Int → List LoopLine × Option Err
  | _, [] => ([], none)
  | start, i :: is =>
    match readerAttr r0.names (r0.get i) "current_tack", readerAttr r0.names (r0.get i) "index" with
    | .ok tack, .ok index =>
      let start := if index = 0 then tack else start
      let dt := (tack - start) / 1000000
      match samplesOf (r0.reader.getEvent i) with
      | .error e => ([.number index], some e)
      | .ok n0 =>
        let line0 := .event 0 (r0.reader.getEvent i).length n0 dt (meanOfAll (r0.reader.getEvent i))
        match samplesOf (r1.reader.getEvent i) with
        | .error e => ([.number index, line0], some e)
        | .ok n1 =>
          let line1 := .event 1 (r1.reader.getEvent i).length n1 dt (meanOfAll (r1.reader.getEvent i))
          (.number index :: line0 :: line1 :: (zipLoop r0 r1 start is).1, (zipLoop r0 r1 start is).2)
    | .error e, _ => ([], some e)
    | _, .error e => ([], some e)

/-- the whole program (`simple_r0r1_loop.py:9-55`); `zip` ends with the shorter file -/
def simpleProgram (r0 r1 : LoopReader) : List LoopLine × Option Err :=
  match simpleLoops r0 r1 with
  | (lines, some e) => (lines, some e)
  | (lines, none) => match bothLoop [r0, r1] (r0.get 0 "current_tack") (range 0 r0.reader.nEvents 1) with
    | (more, .error e) => (lines ++ more, some e)
    | (more, .ok start) =>
      let (last, e) := zipLoop r0 r1 start (range 0 (min r0.reader.nEvents r1.reader.nEvents) 1)
      (lines ++ more ++ last, e)

end Verif.Model
