import Verif.Py.Basic
import Mathlib.Data.Rat.Defs

/-!
# Axes of the module plots (`CameraTMWaveformPlotter`, `plotting/waveform.py:54-189`)

What matplotlib draws is represented by the properties given to the axes; its own choice of ticks (`get_yticks`) is a parameter.
-/

namespace Verif.Model

open Verif.Py

/-- a module of the mapping -/
structure TmCell where
  slot : Nat
  row : Nat
  col : Nat
  deriving DecidableEq, Repr

/-- place in the grid of plots, label (`plotting/waveform.py:90-112`): one entry for each module, later ones replace earlier ones of the same number.
Rows are inside the camera. -/
def tmPlaces (nRows : Nat) (cells : List TmCell) : Dict Nat (Nat × Nat) :=
  cells.foldl (fun d c => Dict.set d c.slot (nRows - 1 - c.row, c.col)) []

/-- decorations of the plot of a module; `none`: the axis is hidden, lines are positions -/
structure TmDecor where
  yticks : Option (List ℚ)
  xticks : Option (List Nat)
  vlines : List ℚ
  hlines : List ℚ
  xlim : Nat
  deriving DecidableEq, Repr

/-- `np.arange(0, n_samples + 32, 32)` (`plotting/waveform.py:161`) -/
def tmTicks (nSamples : Nat) : List Nat := (List.range ((nSamples + 63) / 32)).map (32 * ·)

/-- the smallest number of a list -/
def leastNat : List Nat → Option Nat
  | [] => none
  | x :: xs => some (xs.foldl min x)

/-- the decorations of the plot of module `tm` (`plotting/waveform.py:157-189`); a module which is not in the mapping raises `IndexError` -/
def decorateTm (cells : List TmCell) (nCols nSamples : Nat) (yticks : List ℚ) (tm : Nat) : Except Err TmDecor :=
  match cells.find? (·.slot = tm) with
  | none => .error .indexError
  | some c =>
    let ticks := tmTicks nSamples
    let y := if some c.col = leastNat ((cells.filter (·.row = c.row)).map (·.col)) then
        some (if c.row = 0 then yticks.take (yticks.length - 2) else yticks)
      else none
    let x := if some c.row = leastNat ((cells.filter (·.col = c.col)).map (·.row)) then
        some (if (c.col : Int) = (nCols : Int) - 1 then ticks.drop 1 else if (c.col : Int) < (nCols : Int) - 2 then ticks.dropLast else ticks)
      else none
    .ok { yticks := y, xticks := x, vlines := ticks.map fun (t : Nat) => (t : ℚ), hlines := ticks.map fun (t : Nat) => (t : ℚ), xlim := nSamples }

end Verif.Model
