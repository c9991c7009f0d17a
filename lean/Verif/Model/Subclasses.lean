import Verif.Py.Basic

/-!
# `core/__init__.py` (`child_subclasses`), `core/factory.py`, `WaveformReader.from_path`
-/

namespace Verif.Model

open Verif.Py

/-- A snapshot of the classes known to the interpreter: `subs c` is `c.__subclasses__()`, `name` is `__name__`,
`isAbstract` is `inspect.isabstract`.  Classes are numbered in creation order; a class exists before its subclasses. -/
structure Hierarchy where
  n : Nat
  name : Nat → String
  isAbstract : Nat → Bool
  subs : Nat → List Nat
  created_after : ∀ c s, s ∈ subs c → c < s ∧ s < n

/-- The de-duplication loop by `__name__` (`core/__init__.py:26-31`); `unique` is the accumulator, `unique_names` are
its names. -/
def uniqueLoop (name : Nat → String) : List Nat → List Nat → List Nat
  | [], unique => unique
  | c :: cs, unique =>
    if name c ∈ unique.map name then uniqueLoop name cs unique
    else uniqueLoop name cs (unique ++ [c])

/-- `child_subclasses` (`core/__init__.py:4-33`). -/
def childSubclasses (h : Hierarchy) (base : Nat) : List Nat :=
  let family := h.subs base ++ (h.subs base).attach.flatMap fun ⟨s, _⟩ => childSubclasses h s
  let children := family.filter fun g => !h.isAbstract g
  uniqueLoop h.name children []
termination_by h.n - base
decreasing_by
  rename_i hs
  have := h.created_after base s hs
  omega

/-- `Factory.produce` up to the constructor call (`core/factory.py:14-26`): `dict(zip(names, classes))[name]`. -/
def produce (h : Hierarchy) (base : Nat) (productName : String) : Except Err Nat :=
  let subclasses := childSubclasses h base
  let names := subclasses.map h.name
  let d : Dict String Nat := Dict.update [] (names.zip subclasses)
  Dict.getItem d productName

/-- The reader classes of CHECLabPy: 0 `WaveformReader` (abstract), 1 `TIOReader`, 2 `SimtelReader`, 3 `ReaderR1`,
4 `ReaderR0` (`core/io/waveform.py:44`, `core/io/tio.py:8,171,181`, `core/io/simtel.py:16`,
`core/io/__init__.py`). -/
def readerHierarchy : Hierarchy where
  n := 5
  name c := match c with
    | 0 => "WaveformReader" | 1 => "TIOReader" | 2 => "SimtelReader" | 3 => "ReaderR1" | _ => "ReaderR0"
  isAbstract c := c == 0
  subs c := match c with
    | 0 => [1, 2] | 1 => [3, 4] | _ => []
  created_after := by
    intro c s hs
    match c with
    | 0 => simp at hs; omega
    | 1 => simp at hs; omega
    | (c + 2) => simp at hs

/-- `WaveformReader.from_path` (`core/io/waveform.py:123-142`): the chosen class, `none` when the loop falls through and
the method returns `None`.  `compatible c` is `c.is_compatible(path)` (for tests that raise see `OpenFile`). -/
def fromPath (h : Hierarchy) (cls : Nat) (compatible : Nat → Bool) : Option Nat :=
  (childSubclasses h cls).find? compatible

end Verif.Model
