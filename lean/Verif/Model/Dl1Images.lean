import Verif.Model.Camera
import Verif.Model.Dl1

/-!
# Camera images of a DL1 file

`examples/camera_image.py:24-37` and `95-106`: the mapping of the file makes the image, then each event of the file is shown. What is shown is
the list of the states of the image, one after each pause. A table of values is read through `charge`, the mapping through `x`, `y`, `row`,
`col`; the columns exist. Metadata are made numbers by `num`, `count`; the colour bar and the pauses are not modelled.
-/

namespace Verif.Model

open Verif.Py

variable {β ν σ : Type}

/-- the loop over the events (`examples/camera_image.py:32-37`, `103-106`): an event is read, then the loop may end, then the values are set.
`limit` is the `10` of `i > 10`. An exception leaves the images shown until then. -/
def showEvents (set : σ → List ℚ → σ × Option Err) (charge : β → ℚ) (limit : Option Nat) (r : HReader (DRow β) ν) :
    σ → List Nat → List σ × Option Err
  | _, [] => ([], none)
  | s, i :: is =>
    match selectEventIndex r i with
    | .error e => ([], some e)
    | .ok df =>
      if limit.any (fun l => decide (i > l)) then ([], none)
      else match set s (df.map fun w => charge w.vals) with
        | (_, some e) => ([], some e)
        | (s', none) => (s' :: (showEvents set charge limit r s' is).1, (showEvents set charge limit r s' is).2)

/-- `iterate_over_events` feeding the loop (`core/io/dl1_reader.py:212-222`): the number of events is read first -/
def showFile (set : σ → List ℚ → σ × Option Err) (charge : β → ℚ) (limit : Option Nat) (r : HReader (DRow β) ν) (s : σ) : List σ × Option Err :=
  match metaInt r "n_events" with
  | .error e => ([], some e)
  | .ok n => showEvents set charge limit r s (List.range n.toNat)

/-- `plot_from_dl1` (`examples/camera_image.py:24-37`) with `CameraImage.from_mapping` (`plotting/camera.py:292-297`) -/
def plotFromDl1 (num : MetaVal ν → Except Err ℚ) (x y charge : β → ℚ) (r : HReader (DRow β) ν) : List PatchImage × Option Err :=
  match getMapping r with
  | .error e => ([], some e)
  | .ok (rows, md) => match Dict.getItem md "size" with
    | .error e => ([], some e)
    | .ok v => match num v with
      | .error e => ([], some e)
      | .ok size => match PatchImage.init (rows.map fun w => x w.vals) (rows.map fun w => y w.vals) size with
        | .error e => ([], some e)
        | .ok im => showFile PatchImage.setImage charge (some 10) r im

/-- `plot_imshow` (`examples/camera_image.py:95-106`) with `CameraImageImshow.from_mapping` (`plotting/camera.py:539-544`). The items of the
metadata are looked up first, `n_rows` then `n_columns`; `count` is what `np.ma.zeros` makes of them. -/
def plotImshow (count : MetaVal ν → Except Err Nat) (row col : β → Int) (charge : β → ℚ) (r : HReader (DRow β) ν) : List Imshow × Option Err :=
  match getMapping r with
  | .error e => ([], some e)
  | .ok (rows, md) => match Dict.getItem md "n_rows" with
    | .error e => ([], some e)
    | .ok a => match Dict.getItem md "n_columns" with
      | .error e => ([], some e)
      | .ok b => match count a with
        | .error e => ([], some e)
        | .ok nRows => match count b with
          | .error e => ([], some e)
          | .ok nCols => match Imshow.init (rows.map fun w => row w.vals) (rows.map fun w => col w.vals) nRows nCols with
            | .error e => ([], some e)
            | .ok im => showFile Imshow.setImage charge none r im

end Verif.Model
