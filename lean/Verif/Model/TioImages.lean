import Verif.Model.Camera
import Verif.Model.TcMapping
import Verif.Model.WaveformReader

/-!
# Camera images of a raw file and of a camera version

`examples/camera_image.py:9-21`, `:57-92`, `plotting/camera.py:139-154`, `:267-341`, `:433-448`, `:514-587`. `target_calib.CameraConfiguration` is a function from
the version of a camera and whether a single module is meant to a mapping (an unknown version raises). A row of a mapping is read through `x`, `y`, `row`, `col`; the columns exist.
What is shown is the list of the states of the image, one after each pause. The colour bar and the pauses are not modelled.
-/

namespace Verif.Model

open Verif.Py

variable {ρ : Type}

/-- a number among metadata: what arithmetic makes of a value -/
def numberOfMeta : MetaVal ℚ → Except Err ℚ
  | .obj q => .ok q
  | .int i => .ok i
  | .str _ => .error .typeError

/-- a size among metadata: what `np.ma.zeros` makes of it -/
def sizeOfMeta : MetaVal ℚ → Except Err Nat
  | .int i => if i < 0 then .error .valueError else .ok i.toNat
  | _ => .error .typeError

/-- `CameraImage.from_mapping` (`plotting/camera.py:267-297`) -/
def squaresOfMapping (x y : ρ → ℚ) (m : ClpMapping ρ ℚ) : Except Err PatchImage := do
  let v ← Dict.getItem m.2 "size"
  let size ← numberOfMeta v
  PatchImage.init (m.1.map x) (m.1.map y) size

/-- `CameraImage.from_tc_mapping` (`plotting/camera.py:301-316`) -/
def squaresFromTc (x y : ρ → ℚ) (t : TcMapping ρ ℚ) : Except Err PatchImage := squaresOfMapping x y (clpMapping t)

/-- `CameraImage.from_camera_version` (`plotting/camera.py:319-341`) -/
def squaresFromVersion (config : String → Bool → Except Err (TcMapping ρ ℚ)) (x y : ρ → ℚ) (version : String) (single : Bool) : Except Err PatchImage := do
  let t ← config version single
  squaresFromTc x y t

/-- `CameraImageImshow.from_mapping` (`plotting/camera.py:514-544`) -/
def gridOfMapping (row col : ρ → Int) (m : ClpMapping ρ ℚ) : Except Err Imshow := do
  let a ← Dict.getItem m.2 "n_rows"
  let b ← Dict.getItem m.2 "n_columns"
  let nRows ← sizeOfMeta a
  let nCols ← sizeOfMeta b
  Imshow.init (m.1.map row) (m.1.map col) nRows nCols

/-- `CameraImageImshow.from_tc_mapping` and `from_camera_version` (`plotting/camera.py:547-587`) -/
def gridFromVersion (config : String → Bool → Except Err (TcMapping ρ ℚ)) (row col : ρ → Int) (version : String) (single : Bool) : Except Err Imshow := do
  let t ← config version single
  gridOfMapping row col (clpMapping t)

/-- the arrow of `annotate_on_telescope_up`: where it starts and how far it goes; the names of the metadata are those of `CameraImage` (`plotting/camera.py:139-154`) or of
`CameraImageImshow` (`:433-448`) -/
def telescopeArrow (xl yl xu yu : String) (m : ClpMapping ρ ℚ) : Except Err ((ℚ × ℚ) × (ℚ × ℚ)) := do
  let axl ← Dict.getItem m.2 xl >>= numberOfMeta
  let ayl ← Dict.getItem m.2 yl >>= numberOfMeta
  let axu ← Dict.getItem m.2 xu >>= numberOfMeta
  let ayu ← Dict.getItem m.2 yu >>= numberOfMeta
  return ((axl, ayl), (axu - axl, ayu - ayl))

/-- `CameraImage.annotate_on_telescope_up` -/
def squaresArrow (m : ClpMapping ρ ℚ) : Except Err ((ℚ × ℚ) × (ℚ × ℚ)) := telescopeArrow "fOTUpX_l" "fOTUpY_l" "fOTUpX_u" "fOTUpY_u" m

/-- `CameraImageImshow.annotate_on_telescope_up` -/
def gridArrow (m : ClpMapping ρ ℚ) : Except Err ((ℚ × ℚ) × (ℚ × ℚ)) := telescopeArrow "fOTUpCol_l" "fOTUpRow_l" "fOTUpCol_u" "fOTUpRow_u" m

/-- what is read from a raw file (`core/io/tio.py:53-64`, `:79-93`): the attributes of TargetIO's reader, and the samples it writes for the event of an index, `fNPixels` rows of
`fNSamples` -/
structure TioRun where
  fNEvents : Nat
  fNPixels : Nat
  fNModules : Nat
  fNSamples : Nat
  fCameraVersion : String
  samples : Int → List (List ℚ)

/-- `wf[:, k]` of an array of `n` columns; the bounds are checked even if there are no rows -/
def sampleColumn (n k : Nat) (wf : List (List ℚ)) : Except Err (List ℚ) :=
  if k < n then wf.mapM fun w => match w[k]? with
    | some v => .ok v
    | none => .error .indexError
  else .error .indexError

/-- the loop over the events (`examples/camera_image.py:18-21`) -/
def showWaveforms (n k : Nat) : PatchImage → List (TioEvent (List (List ℚ))) → List PatchImage × Option Err
  | _, [] => ([], none)
  | s, e :: es => match sampleColumn n k e.raw with
    | .error err => ([], some err)
    | .ok v => match s.setImage v with
      | (_, some err) => ([], some err)
      | (s', none) => (s' :: (showWaveforms n k s' es).1, (showWaveforms n k s' es).2)

/-- what `plot_from_tio` shows: the arrow, once it is drawn, and the images -/
structure TioShow where
  arrow : Option ((ℚ × ℚ) × (ℚ × ℚ))
  images : List PatchImage

/-- `plot_from_tio` (`examples/camera_image.py:9-21`) of any file, with `TIOReader.__init__` (`core/io/tio.py:53-77`; `n_pixels // n_modules` comes before the mapping) and its `mapping`
(`:124-126`); the example has `max_events=10` -/
def plotFromTio (config : String → Bool → Except Err (TcMapping ρ ℚ)) (x y : ρ → ℚ) (f : TioRun) (maxEvents : Option Int) : TioShow × Option Err :=
  if f.fNModules = 0 then (⟨none, []⟩, some .zeroDivision)
  else match config f.fCameraVersion (f.fNModules == 1) with
    | .error e => (⟨none, []⟩, some e)
    | .ok t => match squaresOfMapping x y (clpMapping t) with
      | .error e => (⟨none, []⟩, some e)
      | .ok im => match squaresArrow (clpMapping t) with
        | .error e => (⟨none, []⟩, some e)
        | .ok a =>
          let r := tioReader f.fNEvents maxEvents f.samples
          (⟨some a, (showWaveforms f.fNSamples 60 im r.iter).1⟩, (showWaveforms f.fNSamples 60 im r.iter).2)

/-- `image = np.zeros(n); image[::2] = 1` -/
def everySecond (n : Nat) : List ℚ := (List.range n).map fun i => if i % 2 = 0 then 1 else 0

/-- `plot_from_tc_mapping` (`examples/camera_image.py:57-68`), of any mapping: the image shown -/
def plotFromTcMapping (x y : ρ → ℚ) (t : TcMapping ρ ℚ) : Except Err PatchImage := do
  let s ← squaresFromTc x y t
  match s.setImage (everySecond t.nPixels) with
  | (_, some e) => .error e
  | (s', none) => .ok s'

/-- `plot_from_camera_version` and `plot_from_camera_version_single_module` (`examples/camera_image.py:71-92`), of any version; `n` is 2048 or 64 -/
def plotFromCameraVersion (config : String → Bool → Except Err (TcMapping ρ ℚ)) (x y : ρ → ℚ) (version : String) (single : Bool) (n : Nat) :
    Except Err PatchImage := do
  let s ← squaresFromVersion config x y version single
  match s.setImage (everySecond n) with
  | (_, some e) => .error e
  | (s', none) => .ok s'

end Verif.Model
