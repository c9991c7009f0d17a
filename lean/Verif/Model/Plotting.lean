import Verif.Py.Grid
import Verif.Py.Array
import Verif.Py.Decimal
import Mathlib.Data.Rat.Floor

/-!
# Plots of cameras: outlines and outlier lists of `plotting/waveform.py:54-298`, highlighting and colour limits of `plotting/camera.py:72-137, 194-220`

What matplotlib draws is represented by the properties given to its objects.
-/

namespace Verif.Model

open Verif.Py

/-! ## `CameraPixelWaveformPlotter` -/

/-- the four border lines of an axes: visibility of each, and the common colour and width (`plotting/waveform.py` sets these for all four together) -/
structure Spines where
  left : Bool
  right : Bool
  bottom : Bool
  top : Bool
  color : String
  width : ℚ
  deriving DecidableEq, Repr

/-- the camera mapping as far as it is used: row and column of each pixel (the index is 0, 1, …), the metadata -/
structure PixelGrid where
  pixels : List (Nat × Nat)
  nRows : Nat
  nCols : Nat
  nModules : Nat

/-- outlines of one pixel (`plotting/waveform.py:231-239`, and again `290-298`); the colour and width are those of a new axes, `axes.linewidth` having been set
to 0.1 (`plotting/waveform.py:196`) -/
def outline (nRowsTm nColsTm row col : Nat) : Spines :=
  { left := col % nColsTm = 0, right := col % nColsTm = nColsTm - 1, bottom := row % nRowsTm = 0, top := row % nRowsTm = nRowsTm - 1, color := "black", width := 1 / 10 }

/-- position in the grid of axes, and the lines -/
structure PixelAxes where
  row : Nat
  col : Nat
  spines : Spines
  deriving DecidableEq, Repr

/-- `CameraPixelWaveformPlotter.__init__` (`plotting/waveform.py:193-243`): a plot for each pixel. Rows and columns are inside the camera (`row < n_rows`,
`col < n_columns`). The remainders raise for a camera of fewer than six rows or columns, the label of a pixel (not represented) for one with fewer pixels than
modules. -/
def newPixelPlotter (m : PixelGrid) : Except Err (List PixelAxes) :=
  if m.nModules = 0 then .error .zeroDivision
  else if m.pixels ≠ [] ∧ (m.pixels.length / m.nModules = 0 ∨ m.nRows / 6 = 0 ∨ m.nCols / 6 = 0) then .error .zeroDivision
  else .ok (m.pixels.map fun p => { row := m.nRows - 1 - p.1, col := p.2, spines := outline (m.nRows / 6) (m.nCols / 6) p.1 p.2 })

/-- `highlight_pixels` (`plotting/waveform.py:267-274`): the state afterwards and the exception, if any; pixels are worked through in order -/
def highlightAxes (color : String) : Nat → List Bool → List PixelAxes → List PixelAxes × Option Err
  | _, [], axes => (axes, none)
  | k, b :: mask, axes => match axes[k]? with
    | none => (axes, some .keyError)
    | some ax =>
      highlightAxes color (k + 1) mask (if b then axes.set k { ax with spines := { left := true, right := true, bottom := true, top := true, color := color, width := 1 } } else axes)

/-- `reset_pixel_highlight` (`plotting/waveform.py:276-298`) -/
def resetAxes (m : PixelGrid) (axes : List PixelAxes) : List PixelAxes :=
  (axes.zip m.pixels).map fun e => { e.1 with spines := outline (m.nRows / 6) (m.nCols / 6) e.2.1 e.2.2 }

/-- calls on the plotter -/
inductive PlotOp
  | highlight (mask : List Bool) (color : String)
  | reset

def PlotOp.run (m : PixelGrid) (axes : List PixelAxes) : PlotOp → List PixelAxes
  | .highlight mask color => (highlightAxes color 0 mask axes).1
  | .reset => resetAxes m axes

/-! ## `CameraTMWaveformPlotter` -/

/-- largest element; `ValueError` for none -/
def npMax : List ℚ → Except Err ℚ
  | [] => .error .valueError
  | x :: xs => .ok (xs.foldl max x)

/-- `f'[{tmpix}|{pixel}]\n'` (`plotting/waveform.py:145`) -/
def outlierText (tmpix pixel : Nat) : List Char := '[' :: decimal tmpix ++ '|' :: decimal pixel ++ [']', '\n']

/-- what is drawn for one module (`plotting/waveform.py:134-155`): for each pixel of the module its number, colour and waveform, and the text -/
structure TmPlot where
  lines : List (Nat × String)
  text : List Char
  deriving DecidableEq, Repr

/-- the colours of the ASICs (`plotting/waveform.py:65`) -/
def asicColor : List String := ["firebrick", "dodgerblue", "darkgreen", "orchid"]

/-- the loop over the pixels of one module (`plotting/waveform.py:136-145`) -/
def tmPixelLoop (waveforms : List (List ℚ)) (thresh : ℚ) (tm : Nat) : List Nat → TmPlot → Except Err TmPlot
  | [], acc => .ok acc
  | tmpix :: rest, acc =>
    let pixel := tm * 64 + tmpix
    match asicColor[tmpix / 16]? with
    | none => .error .indexError
    | some color => match waveforms[pixel]? with
      | none => .error .indexError
      | some wf => match npMax wf with
        | .error e => .error e
        | .ok m => tmPixelLoop waveforms thresh tm rest
            { lines := acc.lines ++ [(pixel, color)], text := if m < thresh then acc.text ++ outlierText tmpix pixel else acc.text }

/-- `plot_waveforms` (`plotting/waveform.py:116-155`) for the modules `slots` of the camera, in the order of the plots; `waveforms` has rows of `nSamples`
samples. The number of pixels has to be a multiple of 64. The axis decorations that follow are not modelled. -/
def plotTmWaveforms (slots : List Nat) (nSamples : Nat) (waveforms : List (List ℚ)) (fraction : ℚ) : Except Err (List (Nat × TmPlot)) :=
  if waveforms.length % 64 ≠ 0 then .error .valueError
  else match npMax (colMeans nSamples waveforms) with
    | .error e => .error e
    | .ok m => slots.mapM fun tm => match tmPixelLoop waveforms (m * fraction) tm (List.range 64) ⟨[], []⟩ with
      | .error e => .error e
      | .ok p => if tm < waveforms.length / 64 then .ok (tm, p) else .error .indexError

/-! ## `CameraImage.highlight_pixels` -/

/-- type of the elements of an image -/
inductive Dtype | float | int | bool
  deriving DecidableEq, Repr

/-- a number stored in an array of that type -/
def storeAs : Dtype → ℚ → ℚ
  | .float, x => x
  | .int, x => if 0 ≤ x then ((⌊x⌋ : Int) : ℚ) else ((⌈x⌉ : Int) : ℚ)
  | .bool, x => if x = 0 then 0 else 1

/-- the pixels to highlight: numbers or a mask -/
inductive PixelIndex
  | numbers (l : List Int)
  | mask (l : List Bool)

/-- `lw_array[pixels] = linewidth` -/
def assignWidth (lw : List ℚ) (w : ℚ) : PixelIndex → Except Err (List ℚ)
  | .mask l => if l.length ≠ lw.length then .error .indexError else .ok (List.zipWith (fun b x => if b then w else x) l lw)
  | .numbers l => match l.mapM (normIndex lw.length) with
    | .error e => .error e
    | .ok ps => .ok (ps.foldl (fun a p => a.set p w) lw)

/-- `CameraImage.highlight_pixels` (`plotting/camera.py:212-214`): the line widths of the pixels. `image` is the image shown, with the type of its elements;
before the first image it is `None`, of which `np.zeros_like` makes an array without axes, which cannot be indexed. -/
def highlightWidths (image : Option (Dtype × List ℚ)) (pixels : PixelIndex) (linewidth : ℚ) : Except Err (List ℚ) :=
  match image with
  | none => .error .indexError
  | some (t, im) => assignWidth (List.replicate im.length 0) (storeAs t linewidth) pixels

/-! ## colour limits of `CameraImage` -/

/-- the colour scale of a `CameraImage`: `none` in the array is NaN; no limits if there is no value to take them from -/
structure ColorScale where
  autoscale : Bool
  log : Bool
  array : List (Option ℚ)
  clim : Option (ℚ × ℚ)
  deriving DecidableEq, Repr

/-- matplotlib's `autoscale()`: smallest and largest value that is not NaN, and positive for a logarithmic scale -/
def autoLimits (log : Bool) (array : List (Option ℚ)) : Option (ℚ × ℚ) :=
  match (array.filterMap id).filter fun x => !log || decide (0 < x) with
  | [] => none
  | x :: xs => some (xs.foldl min x, xs.foldl max x)

/-- a new `CameraImage` (`plotting/camera.py:38, 59`); limits are found when it is first drawn -/
def ColorScale.init (nPixels : Nat) : ColorScale :=
  let array := List.replicate nPixels (some 0)
  { autoscale := true, log := false, array := array, clim := autoLimits false array }

inductive ColorOp
  | image (val : List (Option ℚ))
  | setLimits (zmin zmax : ℚ)
  | setZLog
  | resetLimits

/-- the `image` setter and `set_limits_minmax`, `set_z_log`, `reset_limits` (`plotting/camera.py:72-82, 121-137`); an image of the wrong size raises
`AssertionError` and changes nothing -/
def ColorScale.step (s : ColorScale) : ColorOp → ColorScale
  | .image val =>
    if val.length ≠ s.array.length then s
    else { s with array := val, clim := if s.autoscale then autoLimits s.log val else s.clim }
  | .setLimits a b => { s with autoscale := false, clim := some (a, b) }
  | .setZLog => { s with log := true, clim := autoLimits true s.array }
  | .resetLimits => { s with autoscale := true, clim := autoLimits s.log s.array }

end Verif.Model
