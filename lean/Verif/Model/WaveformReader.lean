import Verif.Py.Basic

/-!
# `core/io/waveform.py`, `core/io/tio.py`: event access

Events are an arbitrary type `α`.  The TargetIO file object is a parameter.
-/

namespace Verif.Model

open Verif.Py

/-- What `__getitem__` can be given (`core/io/waveform.py:68-84`): a Python `int`, a `slice`, a `list` of further
arguments, or anything else (including `numpy.int64`, which is not an `int`). -/
inductive Idx
  | int (i : Int)
  | slice (s : Slice)
  | list (l : List Idx)
  | other

/-- What `__getitem__` returns: one event or a (nested) array of events.  `np.array(ev_list)` is modelled as the list
of its rows; the loss of the per-event attributes by `np.array` is not modelled. -/
inductive Res (α : Type)
  | event (a : α)
  | array (l : List (Res α))

/-- The part of a waveform reader used for event access: `n_events` (abstract property,
`core/io/waveform.py:103-106`; it can be negative, see `tioNEvents`) and `_get_event` (`:89-91`), which accepts any
integer. -/
structure WfReader (α : Type) where
  nEvents : Int
  getEvent : Int → α

variable {α : Type}

/-- `__len__` (`core/io/waveform.py:86-87`); Python's `len` raises `ValueError` on a negative result. -/
def WfReader.len (r : WfReader α) : Except Err Int :=
  if r.nEvents < 0 then .error .valueError else .ok r.nEvents

/-- The `isinstance(iev, int)` branch of `__getitem__` (`core/io/waveform.py:69-76`).  `or` is short-circuit, so
`len(self)` is only evaluated for a non-negative index. -/
def WfReader.getInt (r : WfReader α) (iev : Int) : Except Err α :=
  let iev := if iev < 0 then iev + r.nEvents else iev
  if iev < 0 then .error .indexError
  else do
    let n ← r.len
    if iev ≥ n then .error .indexError
    else .ok (r.getEvent iev)

mutual
/-- `WaveformReader.__getitem__` (`core/io/waveform.py:68-84`). -/
def WfReader.getItem (r : WfReader α) : Idx → Except Err (Res α)
  | .int i => (r.getInt i).map .event
  | .slice s => do
      let (a, b, c) ← s.indices r.nEvents
      let l ← (range a b c).mapM r.getInt
      return .array (l.map .event)
  | .list l => (r.getItems l).map .array
  | .other => .error .typeError
/-- the comprehension `[self[ii] for ii in iev]` (`core/io/waveform.py:81`) -/
def WfReader.getItems (r : WfReader α) : List Idx → Except Err (List (Res α))
  | [] => .ok []
  | i :: is => do
      let x ← r.getItem i
      let xs ← r.getItems is
      return x :: xs
end

/-- `__iter__` (`core/io/waveform.py:64-66`): the sequence of yielded events; `range` of a negative number is empty. -/
def WfReader.iter (r : WfReader α) : List α := (range 0 r.nEvents 1).map r.getEvent

/-- `TIOReader.__init__`, number of events (`core/io/tio.py:54,76-77`): `max_events` is applied when it is truthy
(neither `None` nor 0) and smaller than the number of events in the file. -/
def tioNEvents (fNEvents : Nat) (maxEvents : Option Int) : Int :=
  match maxEvents with
  | none => fNEvents
  | some m => if m ≠ 0 ∧ m < fNEvents then m else fNEvents

/-- A TIO waveform: event index and the payload read from the file. -/
structure TioEvent (ρ : Type) where
  iev : Int
  raw : ρ
  deriving DecidableEq, Repr

/-- `TIOReader` as a `WaveformReader` (`core/io/tio.py:54,76-93,120-122`); `raw` is TargetIO's event access.  The
waveform is tagged with the requested index (`:85`). -/
def tioReader {ρ : Type} (fNEvents : Nat) (maxEvents : Option Int) (raw : Int → ρ) : WfReader (TioEvent ρ) where
  nEvents := tioNEvents fNEvents maxEvents
  getEvent i := { iev := i, raw := raw i }

end Verif.Model
