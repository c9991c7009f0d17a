import Verif.Model.Camera

/-!
# Images of superpixels and of modules

`examples/camera_image.py:103-135`: `from_mapping` of both image classes, given the mapping of the superpixels or of the modules. Keywords
given to the plotter are not modelled. Mappings here have the columns that are read.
-/

namespace Verif.Model

open Verif.Py

/-- `CameraImage.from_mapping` (`plotting/camera.py:270-298`): positions of the rows, side from the metadata -/
def patchFromMapping {ρ : Type} (x y : ρ → ℚ) (heap : List MapMeta) (m : Mapping ρ) : Except Err PatchImage :=
  match heap[m.metaRef]? with
  | none => .error .attributeError
  | some md => PatchImage.init (m.rows.map x) (m.rows.map y) md.size

/-- `CameraImageImshow.from_mapping` (`plotting/camera.py:516-545`). The assertion on the lengths comes before the array is made
(`plotting/camera.py:374-376`), both columns are of one table. A number of rows that is NaN is refused by `np.ma.zeros` (`TypeError`), a
negative one too (`ValueError`). -/
def gridFromMapping {ρ : Type} (row col : ρ → Int) (heap : List MapMeta) (m : Mapping ρ) : Except Err Imshow :=
  match heap[m.metaRef]? with
  | none => .error .attributeError
  | some md => match md.nRows, md.nColumns with
    | some a, some b => if a < 0 ∨ b < 0 then .error .valueError else Imshow.init (m.rows.map row) (m.rows.map col) a.toNat b.toNat
    | _, _ => .error .typeError

/-- `plot_superpixel` up to the image (`examples/camera_image.py:103-112`) -/
def superpixelImage (heap : List MapMeta) (m : Mapping MapRow) : Except Err PatchImage :=
  match getSuperpixelMapping heap m with
  | .error e => .error e
  | .ok (heap', out) => patchFromMapping (·.xpix) (·.ypix) heap' out

/-- `plot_tm` up to the image (`examples/camera_image.py:119-128`) -/
def tmImage (heap : List MapMeta) (m : Mapping MapRow) : Except Err PatchImage :=
  match getTmMapping heap m with
  | .error e => .error e
  | .ok (heap', out) => patchFromMapping (·.xpix) (·.ypix) heap' out

/-- the same superpixel mapping given to the other image class (`plotting/camera.py:516-545`) -/
def superpixelGrid (heap : List MapMeta) (m : Mapping MapRow) : Except Err Imshow :=
  match getSuperpixelMapping heap m with
  | .error e => .error e
  | .ok (heap', out) => gridFromMapping (·.row) (·.col) heap' out

/-- the same module mapping given to the other image class (`plotting/camera.py:516-545`) -/
def tmGrid (heap : List MapMeta) (m : Mapping MapRow) : Except Err Imshow :=
  match getTmMapping heap m with
  | .error e => .error e
  | .ok (heap', out) => gridFromMapping (·.row) (·.col) heap' out

end Verif.Model
