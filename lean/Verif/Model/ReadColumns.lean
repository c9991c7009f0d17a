import Verif.Model.Reducers

/-!
# Reducer objects used on their own: `core/reducer.py:27-35,132-189`

The columns of an object can be read as attributes at any time. The object is its stored waveforms and the attributes made by `_prepare`.
-/

namespace Verif.Model

open Verif.Py

variable {ω σ β : Type}

/-- a class: its own columns (`columns`), all names that are columns (inherited ones too), what its `_prepare` does after `WaveformReducer._prepare`, which stored the waveforms
(all the shipped classes call it first), and the functions of the columns. An exception leaves the attributes as they were before. -/
structure ColumnClass (ω σ β : Type) where
  own : List String
  every : List String
  prepare : σ → ω → Except Err σ
  value : σ → ω → String → Except Err β

/-- an object -/
structure ColumnObj (ω σ : Type) where
  waveforms : Option ω
  attrs : σ

/-- `column.__get__` (`core/reducer.py:27-35`) -/
def readColumn (c : ColumnClass ω σ β) (o : ColumnObj ω σ) (name : String) : Except Err β :=
  if name ∉ c.every then .error .attributeError
  else match o.waveforms with
    | none => .error .valueError
    | some w => c.value o.attrs w name

/-- `_get_dict` (`core/reducer.py:154-163`) for active columns -/
def readColumns (c : ColumnClass ω σ β) (o : ColumnObj ω σ) : List String → Except Err (Dict String β)
  | [] => .ok []
  | n :: ns => match readColumn c o n with
    | .error e => .error e
    | .ok v => match readColumns c o ns with
      | .error e => .error e
      | .ok d => .ok ((n, v) :: d)

/-- `process` (`core/reducer.py:171-189`): the object afterwards, and the dictionary or the exception. A class without columns of its own uses `_process_null`
(`core/reducer.py:107-108`). `_post` changes nothing in the shipped classes. -/
def processObj (c : ColumnClass ω σ β) (active : List String) (o : ColumnObj ω σ) (w : ω) : ColumnObj ω σ × Except Err (Dict String β) :=
  if c.own = [] then (o, .ok [])
  else match c.prepare o.attrs w with
    | .error e => ({ o with waveforms := some w }, .error e)
    | .ok s => (⟨some w, s⟩, readColumns c ⟨some w, s⟩ active)

/-- events one after the other, exceptions being survived by the caller -/
def processEvents (c : ColumnClass ω σ β) (active : List String) (o : ColumnObj ω σ) (ws : List ω) : ColumnObj ω σ :=
  ws.foldl (fun o w => (processObj c active o w).1) o

/-- `WaveformReducer.__init__` (`core/reducer.py:97-108`): nothing stored yet -/
def newObj (s : σ) : ColumnObj ω σ := ⟨none, s⟩

/-- `SPAmplitude` (`waveform_reducers/superpixel.py:5-32`) as such a class; its attribute are the summed waveforms -/
def spClass (nPixels n : Nat) : ColumnClass (List (List ℚ)) (List (List ℚ)) (List ℚ) where
  own := ["sp_argmax", "sp_max"]
  every := ["sp_argmax", "sp_max"]
  prepare := fun _ ws => spWaveforms nPixels n ws
  value := fun s _ name => match perPixel (if name = "sp_max" then rowMax else rowArgmax) s with
    | .error e => .error e
    | .ok xs => .ok (repeatEach 4 xs)

end Verif.Model
