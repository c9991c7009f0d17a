import Verif.Model.Camera
import Verif.Py.Decimal

/-!
# `plotting/camera.py:139-267,433-513`: texts and marks on camera images

Drawing is not modelled: a text is its position and characters, an arrow its start and its extent. Both classes are made by `from_mapping`
(`plotting/camera.py:270-298,516-545`), so a mapping is attached. `m.ix` selects by label; the labels of a mapping are distinct.
-/

namespace Verif.Model

open Verif.Py

/-- a text at a position of the axes -/
structure Label where
  x : ℚ
  y : ℚ
  text : List Char
  deriving DecidableEq

/-- what the labels use of a row of a mapping -/
structure EdgeRow where
  slot : Nat
  row : Int
  col : Int
  xpix : ℚ
  ypix : ℚ
  deriving DecidableEq

/-- the first of the rows with the largest (`top`) or smallest row number: `idxmax`, `idxmin` -/
def extremeRow (top : Bool) (g : List EdgeRow) : Option EdgeRow :=
  g.find? fun r => g.all fun r' => if top then decide (r'.row ≤ r.row) else decide (r.row ≤ r'.row)

/-- `tm_top`, `tm_bottom` (`plotting/camera.py:230-233`, `496-499`) -/
def edgeSlots (top : Bool) (m : List EdgeRow) : List Nat :=
  unique ((unique (m.map (·.col))).filterMap fun c => (extremeRow top (m.filter fun r => r.col = c)).map (·.slot))

/-- largest entry, 0 for an empty list -/
def maxQ : List ℚ → ℚ
  | [] => 0
  | x :: xs => xs.foldl max x

/-- smallest entry, 0 for an empty list -/
def minQ : List ℚ → ℚ
  | [] => 0
  | x :: xs => xs.foldl min x

/-- `"TM{:02d}".format(tm)` -/
def tmText (tm : Nat) : List Char := "TM".toList ++ decimalPad 2 tm

/-- the labels of `CameraImage.annotate_tm_edge_label` (`plotting/camera.py:222-247`), those at the top first -/
def patchEdgeLabels (size : ℚ) (m : List EdgeRow) : List Label × List Label :=
  let of (tm : Nat) := m.filter fun r => r.slot = tm
  ((edgeSlots true m).map fun tm => ⟨mean ((of tm).map (·.xpix)), maxQ ((of tm).map (·.ypix)) + size * (7 / 10), tmText tm⟩,
   (edgeSlots false m).map fun tm => ⟨mean ((of tm).map (·.xpix)), minQ ((of tm).map (·.ypix)) - size * (7 / 10), tmText tm⟩)

/-- the labels of `CameraImageImshow.annotate_tm_edge_label` (`plotting/camera.py:488-513`) -/
def imshowEdgeLabels (nRows : ℚ) (m : List EdgeRow) : List Label × List Label :=
  let of (tm : Nat) := m.filter fun r => r.slot = tm
  ((edgeSlots true m).map fun tm => ⟨mean ((of tm).map fun r => (r.col : ℚ)), maxQ ((of tm).map fun r => (r.row : ℚ)) + nRows / 48 + 4 / 10, tmText tm⟩,
   (edgeSlots false m).map fun tm => ⟨mean ((of tm).map fun r => (r.col : ℚ)), minQ ((of tm).map fun r => (r.row : ℚ)) - nRows / 48 - 4 / 10, tmText tm⟩)

/-- `add_pixel_text` (`plotting/camera.py:176-192`, `470-486`) with `add_text_to_pixel` (lines 156-174, 450-468): `xs`, `ys` are the positions of the pixels -/
def pixelTexts (xs ys : List ℚ) (values : List (List Char)) : Except Err (List Label) :=
  if values.length = xs.length then (List.range xs.length).mapM fun i => match xs[i]?, ys[i]?, values[i]? with
    | some x, some y, some t => .ok ⟨x, y, t⟩
    | _, _, _ => .error .indexError
  else .error .assertionError

/-- an arrow: start and extent -/
structure Arrow where
  x : ℚ
  y : ℚ
  dx : ℚ
  dy : ℚ
  deriving DecidableEq

/-- a number of the metadata; `num` reads the text by which `MapMeta.others` represents it -/
def metaNum (num : String → ℚ) (md : MapMeta) (key : String) : Except Err ℚ :=
  match md.others.find? fun e => e.1 == key with
  | none => .error .keyError
  | some e => .ok (num e.2)

/-- `annotate_on_telescope_up` (`plotting/camera.py:139-154` with `X`, `Y`, `433-448` with `Col`, `Row`) -/
def upArrow (num : String → ℚ) (md : MapMeta) (h v : String) : Except Err Arrow :=
  match metaNum num md ("fOTUp" ++ h ++ "_l") with
  | .error e => .error e
  | .ok x => match metaNum num md ("fOTUp" ++ v ++ "_l") with
    | .error e => .error e
    | .ok y => match metaNum num md ("fOTUp" ++ h ++ "_u") with
      | .error e => .error e
      | .ok xu => match metaNum num md ("fOTUp" ++ v ++ "_u") with
        | .error e => .error e
        | .ok yu => .ok ⟨x, y, xu - x, yu - y⟩

/-- `annotate_led_flasher` (`plotting/camera.py:249-267`): the circles with their numbers -/
def ledFlashers (num : String → ℚ) (md : MapMeta) : Except Err (List Label) :=
  match metaNum num md "fOTUpX_l" with
  | .error e => .error e
  | .ok x => match metaNum num md "fOTUpY_l" with
    | .error e => .error e
    | .ok y0 =>
      let y := y0 + 2 * md.size
      .ok [⟨x, y, "0".toList⟩, ⟨-x, y, "1".toList⟩, ⟨x, -y, "2".toList⟩, ⟨-x, -y, "3".toList⟩]

end Verif.Model
