import Verif.Model.SpectrumFitter

/-!
# `scripts/extract_spe.py`, `scripts/plot_spe.py` and the parameter lists of `spectrum_fitters/`

The minimiser, the Hesse errors and the shape of the spectrum are parameters. The worker processes are modelled by the events they cause: every worker
has its own copy of the fitter and handles its pixels one after the other; the shared dictionaries receive the entries in any order.
-/

namespace Verif.Model

open Verif.Py

/-- parameters of `SiPMGentileFitter` (`spectrum_fitters/gentile.py:17-24`) -/
def gentileParams : List SpecParam :=
  [⟨"eped", 0, (-10, 10), false, false⟩, ⟨"eped_sigma", 9, (0, 20), false, false⟩, ⟨"spe", 25, (0, 40), false, false⟩,
   ⟨"spe_sigma", 2, (0, 20), false, false⟩, ⟨"opct", 2 / 5, (0, 1), false, false⟩, ⟨"lambda_", 7 / 10, (0, 6), false, true⟩]

/-- parameters of `MAPMFitter` (`spectrum_fitters/mapm.py:16-22`) -/
def mapmParams : List SpecParam :=
  [⟨"eped", 0, (-10, 10), false, false⟩, ⟨"eped_sigma", 9, (0, 20), false, false⟩, ⟨"spe", 25, (0, 40), false, false⟩,
   ⟨"spe_sigma", 2, (0, 20), false, false⟩, ⟨"lambda_", 7 / 10, (0, 6), false, true⟩]

/-- `SiPMGentileFitter(n_illuminations)` (`spectrum_fitters/gentile.py:9-26`) -/
def gentileFitter (n : Nat) : Fitter := Fitter.new n gentileParams 100 (-30, 200)

/-- `MAPMFitter(n_illuminations)` (`spectrum_fitters/mapm.py:9-24`) -/
def mapmFitter (n : Nat) : Fitter := Fitter.new n mapmParams 100 (-40, 150)

/-- charges of a run: events by pixels -/
structure ChargeArray where
  nPixels : Nat
  rows : List (List ℚ)

/-- `charges[:, pixel]` -/
def ChargeArray.pixel (a : ChargeArray) (pixel : Nat) : Except Err (List ℚ) :=
  if pixel < a.nPixels then .ok (column a.rows pixel) else .error .indexError

/-- the external parts: minimiser, errors and spectrum -/
structure FitEngine where
  minimise : FitRequest → Except Err (Dict String ℚ)
  hesse : FitRequest → Dict String ℚ
  spectra : List ℚ → List (Dict String Nat) → List ℚ → List (List ℚ)

/-- what is stored for a pixel -/
structure PixelArrays where
  histX : List ℚ
  histY : List (List ℚ)
  edges : List ℚ
  fitX : List ℚ
  fitY : List (Option (List ℚ))
  deriving DecidableEq

/-- the entries of a pixel in the three dictionaries -/
structure PixelFit where
  values : Dict String ℚ
  errors : Dict String ℚ
  arrays : PixelArrays
  deriving DecidableEq

/-- the part of `_apply_pixel` after the fit (`scripts/extract_spe.py:31-47`) -/
def readFit (engine : FitEngine) (f : Fitter) (r : FitRequest) : Except Err PixelFit :=
  match f.curve engine.spectra, f.values, f.histX, f.histY, f.edges with
  | .ok (fitX, fitY), some values, some histX, some histY, some edges => .ok ⟨values, engine.hesse r, ⟨histX, histY, edges, fitX, fitY⟩⟩
  | .error e, _, _, _, _ => .error e
  | _, _, _, _, _ => .error .attributeError

/-- `_apply_pixel(pixel)` (`scripts/extract_spe.py:26-47`): the fitter afterwards and the entries -/
def applyPixel (engine : FitEngine) (f : Fitter) (charges : List ChargeArray) (pixel : Nat) : Fitter × Except Err PixelFit :=
  match charges.mapM (·.pixel pixel) with
  | .error e => (f, .error e)
  | .ok qs => match f.apply engine.minimise qs with
    | (f, .error e) => (f, .error e)
    | (f, .ok r) => (f, readFit engine f r)

/-- one worker: its pixels one after the other with its own fitter; an exception ends it -/
def worker (engine : FitEngine) (charges : List ChargeArray) : Fitter → List Nat → Except Err (List (Nat × PixelFit))
  | _, [] => .ok []
  | f, pixel :: pixels => match applyPixel engine f charges pixel with
    | (_, .error e) => .error e
    | (f, .ok r) => match worker engine charges f pixels with
      | .error e => .error e
      | .ok rest => .ok ((pixel, r) :: rest)

/-- a write to one of the shared dictionaries -/
inductive SpeEvent
  | values (pixel : Nat) (d : Dict String ℚ)
  | errors (pixel : Nat) (d : Dict String ℚ)
  | arrays (pixel : Nat) (a : PixelArrays)
  deriving DecidableEq

/-- the shared dictionaries -/
structure SpeStore where
  values : Dict Nat (Dict String ℚ) := []
  errors : Dict Nat (Dict String ℚ) := []
  arrays : Dict Nat PixelArrays := []

/-- a write reaches the manager -/
def SpeStore.step (s : SpeStore) : SpeEvent → SpeStore
  | .values p d => { s with values := s.values.set p d }
  | .errors p d => { s with errors := s.errors.set p d }
  | .arrays p a => { s with arrays := s.arrays.set p a }

/-- the writes of a pixel, in the order of `_apply_pixel` (`scripts/extract_spe.py:34-47`) -/
def pixelEvents (x : Nat × PixelFit) : List SpeEvent := [.values x.1 x.2.values, .errors x.1 x.2.errors, .arrays x.1 x.2.arrays]

/-- `process` (`scripts/extract_spe.py:56-60`) -/
def processPixels (engine : FitEngine) (f : Fitter) (charges : List ChargeArray) (nPixels : Nat) : Except Err SpeStore :=
  match worker engine charges f (List.range nPixels) with
  | .error e => .error e
  | .ok fits => .ok ((fits.flatMap pixelEvents).foldl SpeStore.step {})

/-- the initial values recorded with the results (`scripts/extract_spe.py:126-129`) -/
def recordedInitial (n : Nat) (params : List SpecParam) : Except Err (Dict String ℚ) :=
  let initial := params.foldl (fun d p => Dict.set d p.name p.initial) ([] : Dict String ℚ)
  match initial.get? "lambda_" with
  | none => .error .keyError
  | some v => .ok ((List.range n).foldl (fun d i => Dict.set d (numbered "lambda_" i) v) (initial.erase "lambda_"))

/-- `pd.DataFrame(list(d.values())).set_index('pixel')` (`scripts/extract_spe.py:153-158`): rows in the order of the dictionary, labelled by pixel -/
def tableOf {α : Type} (d : Dict Nat α) : List (Nat × α) := d

/-- `df.loc[pixel]` -/
def rowOf {α : Type} (t : List (Nat × α)) (pixel : Nat) : Option α := (t.find? fun r => r.1 = pixel).map (·.2)

/-- the camera image of a column (`scripts/plot_spe.py:28-30`, `78`): the values are given to the pixels of the camera in the order of the rows -/
def imageOf (t : List (Nat × Dict String ℚ)) (col : String) : List (Option ℚ) := t.map fun r => r.2.get? col

end Verif.Model
