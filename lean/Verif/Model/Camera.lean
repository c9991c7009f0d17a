import Verif.Py.Grid
import Verif.Py.Unique
import Verif.Py.Array

/-!
# Camera geometry: simulated pixel order, coarse mappings, camera images
-/

namespace Verif.Model

open Verif.Py

variable {α : Type}

/-! ## `core/io/simtel.py` -/

/-- `SimtelReader.__init__`, the pixel order (`core/io/simtel.py:71-73`): `row`, `col` are the positions computed by
`get_row_column`, `mapRow`, `mapCol` the columns of the camera mapping. `np.arange(n_pixels)` has to have the length of the
index arrays (one position per simulated pixel). -/
def pixelOrder (nRows nCols : Nat) (row col mapRow mapCol : List Int) : Except Err (List Int) :=
  match fancySet nRows nCols (fun _ _ => (0 : Int)) row col ((List.range row.length).map fun (i : Nat) => (i : Int)) with
  | .error e => .error e
  | .ok camera2d => fancyGet nRows nCols camera2d mapRow mapCol

/-- `_build_waveform` (`core/io/simtel.py:84-95`): samples and true charges, both indexed by the pixel order. -/
def buildWaveform {β : Type} (order : List Int) (waveform : List α) (image : List β) : Except Err (List α × List β) :=
  match takeAll waveform order with
  | .error e => .error e
  | .ok samples => match takeAll image order with
    | .error e => .error e
    | .ok mcTrue => .ok (samples, mcTrue)

/-! ## `utils/mapping.py` -/

/-- one row of a pixel mapping; other columns are not used -/
structure MapRow where
  superpixel : Int
  slot : Int
  asic : Int
  row : Int
  col : Int
  xpix : ℚ
  ypix : ℚ
  deriving DecidableEq

/-- the metadata entries that are changed, and all the others; `none` is NaN (maximum of an empty column) -/
structure MapMeta where
  nRows : Option Int
  nColumns : Option Int
  size : ℚ
  others : List (String × String)

/-- a mapping: its rows and a reference to its metadata dictionary on the heap -/
structure Mapping (ρ : Type) where
  rows : List ρ
  metaRef : Nat

/-- a row of the superpixel mapping -/
structure SuperpixelRow where
  superpixel : Int
  slot : Int
  asic : Int
  row : Int
  col : Int
  xpix : ℚ
  ypix : ℚ
  deriving DecidableEq

/-- a row of the module mapping -/
structure TmRow where
  slot : Int
  row : Int
  col : Int
  xpix : ℚ
  ypix : ℚ
  deriving DecidableEq

/-- `get_superpixel_mapping` (`utils/mapping.py:78-104`). The heap holds the metadata dictionaries; `.copy()` allocates a new
one. Values are non-null, so `first` is the first value of the group; a group is never empty. -/
def getSuperpixelMapping (heap : List MapMeta) (m : Mapping MapRow) :
    Except Err (List MapMeta × Mapping SuperpixelRow) :=
  let rows := (unique (m.rows.map (·.superpixel))).filterMap fun s =>
    let g := m.rows.filter fun r => r.superpixel = s
    g.head?.map fun first => {
      superpixel := s, slot := first.slot, asic := first.asic, row := first.row / 2, col := first.col / 2,
      xpix := mean (g.map (·.xpix)), ypix := mean (g.map (·.ypix)) : SuperpixelRow }
  match heap[m.metaRef]? with
  | none => .error .attributeError
  | some md =>
    let md' := { md with
      nRows := (maximum? (rows.map (·.row))).map (· + 1), nColumns := (maximum? (rows.map (·.col))).map (· + 1),
      size := md.size * 2 }
    .ok (heap ++ [md'], ⟨rows, heap.length⟩)

/-- `get_tm_mapping` (`utils/mapping.py:107-132`); the keyword `as_index=False` given to `agg` has no effect. -/
def getTmMapping (heap : List MapMeta) (m : Mapping MapRow) : Except Err (List MapMeta × Mapping TmRow) :=
  let rows := (unique (m.rows.map (·.slot))).filterMap fun s =>
    let g := m.rows.filter fun r => r.slot = s
    g.head?.map fun first => {
      slot := s, row := first.row / 8, col := first.col / 8,
      xpix := mean (g.map (·.xpix)), ypix := mean (g.map (·.ypix)) : TmRow }
  match heap[m.metaRef]? with
  | none => .error .attributeError
  | some md =>
    let md' := { md with
      nRows := (maximum? (rows.map (·.row))).map (· + 1), nColumns := (maximum? (rows.map (·.col))).map (· + 1),
      size := md.size * 8 }
    .ok (heap ++ [md'], ⟨rows, heap.length⟩)

/-! ## `plotting/camera.py` -/

/-- `data[a:b, c:d] = np.ma.masked` (`plotting/camera.py:416-431`); a masked cell is `none` -/
def maskBlock (g : Nat → Nat → Option α) (a b c d : Nat) : Nat → Nat → Option α :=
  fun i j => if a ≤ i ∧ i < b ∧ c ≤ j ∧ j < d then none else g i j

/-- `CameraImageImshow.mask` (`plotting/camera.py:416-431`) -/
def maskCorners (nRows nCols : Nat) (g : Nat → Nat → Option α) : Nat → Nat → Option α :=
  if nRows = 48 ∧ nCols = 48 then
    maskBlock (maskBlock (maskBlock (maskBlock g 0 8 40 48) 0 8 0 8) 40 48 0 8) 40 48 40 48
  else if nRows = 24 ∧ nCols = 24 then
    maskBlock (maskBlock (maskBlock (maskBlock g 0 4 20 24) 0 4 0 4) 20 24 0 4) 20 24 20 24
  else if nRows = 6 ∧ nCols = 6 then
    maskBlock (maskBlock (maskBlock (maskBlock g 0 1 5 6) 0 1 0 1) 5 6 0 1) 5 6 5 6
  else g

/-- state of a `CameraImageImshow` (`plotting/camera.py:343-380`): `data` is what the image object shows -/
structure Imshow where
  row : List Int
  col : List Int
  nRows : Nat
  nCols : Nat
  image : Option (List ℚ)
  data : Nat → Nat → Option ℚ

/-- `CameraImageImshow.__init__` (`plotting/camera.py:362-380`) -/
def Imshow.init (row col : List Int) (nRows nCols : Nat) : Except Err Imshow :=
  if row.length ≠ col.length then .error .assertionError
  else .ok ⟨row, col, nRows, nCols, none, maskCorners nRows nCols fun _ _ => some 0⟩

/-- the `image` setter (`plotting/camera.py:386-396`): new state and the exception, if any. Assigning to a masked cell
unmasks it (soft mask). -/
def Imshow.setImage (s : Imshow) (val : List ℚ) : Imshow × Option Err :=
  if val.length ≠ s.row.length then (s, some .assertionError)
  else
    let s := { s with image := some val }
    match fancySet s.nRows s.nCols (maskCorners s.nRows s.nCols fun _ _ => some (0 : ℚ)) s.row s.col (val.map some) with
    | .error e => (s, some e)
    | .ok data => ({ s with data := data }, none)

/-- state of a `CameraImage` (`plotting/camera.py:12-66`): the lower left corner and width of each patch, the values shown -/
structure PatchImage where
  xpix : List ℚ
  ypix : List ℚ
  patches : List ((ℚ × ℚ) × ℚ)
  image : Option (List ℚ)
  shown : List ℚ

/-- `CameraImage.__init__` (`plotting/camera.py:28-66`) -/
def PatchImage.init (xpix ypix : List ℚ) (size : ℚ) : Except Err PatchImage :=
  if xpix.length ≠ ypix.length then .error .assertionError
  else
    let rr := size + 1 / 10000
    .ok ⟨xpix, ypix, (xpix.zip ypix).map fun p => ((p.1 - rr / 2, p.2 - rr / 2), rr), none, List.replicate xpix.length 0⟩

/-- the `image` setter (`plotting/camera.py:72-82`); values are finite -/
def PatchImage.setImage (s : PatchImage) (val : List ℚ) : PatchImage × Option Err :=
  if val.length ≠ s.xpix.length then (s, some .assertionError)
  else ({ s with image := some val, shown := val }, none)

end Verif.Model
