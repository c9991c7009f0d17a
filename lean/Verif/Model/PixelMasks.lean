import Verif.Model.Files

/-!
# `calib/pixel_masks.py`

The boolean arrays are lists. A mask file is the table of its four columns: that `read_csv` gives back the columns
`to_csv` wrote (boolean columns as booleans) is trusted.
-/

namespace Verif.Model

open Verif.Py

/-- a mask file (`calib/pixel_masks.py:58-63`) -/
structure MaskFile where
  pixel : List Nat
  dead : List Bool
  low : List Bool
  badHv : List Bool
  deriving DecidableEq

/-- the attributes of `PixelMasks`: two masks per pixel, one per superpixel -/
structure Masks where
  dead : List Bool
  low : List Bool
  badHv : List Bool
  deriving DecidableEq

/-- `np.repeat(a, n)` -/
def repeatEach {α : Type} (n : Nat) (a : List α) : List α := a.flatMap fun x => List.replicate n x

/-- `a.reshape((512, 4)).any(1)` (`calib/pixel_masks.py:44`) -/
def anyOfFour (a : List Bool) : Except Err (List Bool) :=
  if a.length ≠ 2048 then .error .valueError
  else .ok ((List.range 512).map fun s => ((a.drop (4 * s)).take 4).any id)

/-- `np.logical_or(a, b)` on two arrays: a single element is compared with each of the others, otherwise arrays of different sizes raise -/
def logicalOr (a b : List Bool) : Except Err (List Bool) :=
  if a.length = b.length then .ok (List.zipWith (· || ·) a b)
  else match a, b with
    | [x], b => .ok (b.map (x || ·))
    | a, [y] => .ok (a.map (· || y))
    | _, _ => .error .valueError

/-- the three assignments of a merge (`calib/pixel_masks.py:45-48`): the attributes afterwards and the exception, if any -/
def mergeMasks (m : Masks) (dead low badHv : List Bool) : Masks × Option Err :=
  match logicalOr m.dead dead with
  | .error e => (m, some e)
  | .ok d => match logicalOr m.low low with
    | .error e => ({ m with dead := d }, some e)
    | .ok l => match logicalOr m.badHv badHv with
      | .error e => ({ m with dead := d, low := l }, some e)
      | .ok b => (⟨d, l, b⟩, none)

/-- `PixelMasks._load_file` (`calib/pixel_masks.py:41-52`) once the file is read: the attributes afterwards and the exception, if any -/
def loadState (m : Masks) (f : MaskFile) (merge : Bool) : Masks × Option Err :=
  match anyOfFour f.badHv with
  | .error e => (m, some e)
  | .ok badHv => if merge then mergeMasks m f.dead f.low badHv else (⟨f.dead, f.low, badHv⟩, none)

/-- `loadState` without the attributes left by an exception -/
def loadFrame (m : Masks) (f : MaskFile) (merge : Bool) : Except Err Masks :=
  match loadState m f merge with
  | (m, none) => .ok m
  | (_, some e) => .error e

/-- the file loaded by default (`calib/pixel_masks.py:37-39`): `paths` is what `glob` returns, in whatever order -/
def defaultPath (paths : List (List Char)) : Except Err (List Char) :=
  match sortFileList paths with
  | .error e => .error e
  | .ok sorted => match sorted.getLast? with
    | none => .error .indexError
    | some p => .ok p

/-- `PixelMasks._load_file` (`calib/pixel_masks.py:36-52`); `files` are the existing mask files, `paths` what `glob` finds -/
def loadFile (files : List Char → Option MaskFile) (paths : List (List Char)) (m : Masks) (path : Option (List Char)) (merge : Bool) :
    Except Err Masks :=
  match (match path with | none => defaultPath paths | some p => Except.ok p) with
  | .error e => .error e
  | .ok p => match files p with
    | none => .error .fileNotFound
    | some f => loadFrame m f merge

/-- `PixelMasks.__init__` (`calib/pixel_masks.py:31-34`) -/
def newMasks (files : List Char → Option MaskFile) (paths : List (List Char)) (path : Option (List Char)) : Except Err Masks :=
  loadFile files paths ⟨List.replicate 2048 false, List.replicate 2048 false, List.replicate 512 false⟩ path false

/-- the table written by `PixelMasks._save_to_file` (`calib/pixel_masks.py:57-63`); a data frame needs columns of one length -/
def saveFrame (m : Masks) : Except Err MaskFile :=
  let badHv := repeatEach 4 m.badHv
  if m.low.length = m.dead.length ∧ badHv.length = m.dead.length then .ok ⟨List.range m.dead.length, m.dead, m.low, badHv⟩
  else .error .valueError

/-- `PixelMasks._save_to_file` (`calib/pixel_masks.py:54-64`) -/
def saveFile (files : List Char → Option MaskFile) (m : Masks) (path : List Char) : Except Err (List Char → Option MaskFile) :=
  match saveFrame m with
  | .error e => .error e
  | .ok f => .ok fun p => if p = path then some f else files p

/-- the fields of `datetime.now()` that enter the name -/
structure Clock where
  year : Nat
  month : Nat
  day : Nat
  hour : Nat
  minute : Nat
  deriving DecidableEq

/-- the path of `PixelMasks.commit` (`calib/pixel_masks.py:70-71`); `dir` is `.../calib/data/pixel_masks/` -/
def commitPath (dir : List Char) (t : Clock) : List Char :=
  dir ++ ['d'] ++ decimalPad 2 (t.year % 100) ++ decimalPad 2 t.month ++ decimalPad 2 t.day ++ ['T'] ++
    decimalPad 2 t.hour ++ decimalPad 2 t.minute ++ ['.', 'd', 'a', 't']

/-- `PixelMasks.commit` (`calib/pixel_masks.py:66-72`) -/
def commitMasks (files : List Char → Option MaskFile) (m : Masks) (dir : List Char) (t : Clock) :
    Except Err (List Char → Option MaskFile) := saveFile files m (commitPath dir t)

/-- `PixelMasks.all_mask` (`calib/pixel_masks.py:74-78`); `reduce` needs arrays of one size -/
def allMask (m : Masks) : Except Err (List Bool) :=
  let hv := repeatEach 4 m.badHv
  if m.low.length = m.dead.length ∧ hv.length = m.dead.length then .ok (List.zipWith (· || ·) (List.zipWith (· || ·) m.dead m.low) hv)
  else .error .valueError

/-- `repeat(list, n) * n + arange(size) % n` -/
def expandIndices (n : Nat) (list : List Int) : List Int :=
  (repeatEach n list).zipIdx.map fun (x : Int × Nat) => x.1 * n + ((x.2 % n : Nat) : Int)

/-- `PixelMasks.convert_superpixels_to_pixels` (`calib/pixel_masks.py:80-84`) -/
def superpixelsToPixels (list : List Int) : List Int := expandIndices 4 list

/-- `PixelMasks.convert_module_to_pixels` (`calib/pixel_masks.py:86-90`) -/
def modulesToPixels (list : List Int) : List Int := expandIndices 64 list

end Verif.Model
