import Verif.Model.SpeFile

/-!
# `scripts/extract_spe.py:131-145`: the plot mode of `extract_spe`

As for `plot_spe` a plot is the data handed to matplotlib. `exit()` ends the script without an error; the output file is not opened.
-/

namespace Verif.Model

open Verif.Py

/-- `charges[i][:, plot_pixel]` (`scripts/extract_spe.py:132`): numbers below zero count from the last pixel -/
def ChargeArray.pixelAt (a : ChargeArray) (pixel : Int) : Except Err (List ℚ) :=
  let p := if pixel < 0 then pixel + a.nPixels else pixel
  if 0 ≤ p then a.pixel p.toNat else .error .indexError

/-- the fit of one pixel and its plot (`scripts/extract_spe.py:132-138`, `plotting/spe.py:14-34`); `images` stays empty -/
def showPixel (engine : FitEngine) (f : Fitter) (name : String) (initial : Dict String ℚ) (charges : List ChargeArray) (pixel : Int) : Except Err SpePlots :=
  match charges.mapM (·.pixelAt pixel) with
  | .error e => .error e
  | .ok qs => match f.apply engine.minimise qs with
    | (_, .error e) => .error e
    | (f, .ok request) => match readFit engine f request with
      | .error e => .error e
      | .ok fit => match (List.range charges.length).mapM (speCurve fit.values fit.errors fit.arrays) with
        | .error e => .error e
        | .ok curves => match speTable initial fit.values fit.errors (Dict.keys fit.values) with
          | .error e => .error e
          | .ok t => .ok ⟨[], charges.length, name, fit.arrays.histX, fit.arrays.edges, fit.arrays.fitX, curves, t⟩

/-- the title above the spectrum of a pixel (`scripts/extract_spe.py:140`) -/
def speTitle (name : String) (n : Nat) (pixel : Int) : List Char :=
  name.toList ++ [',', ' '] ++ decimal n ++ " Illuminations, Pixel=".toList ++ (if pixel < 0 then '-' :: decimal pixel.natAbs else decimal pixel.natAbs)

/-- how `extract_spe` ends: with a figure on the screen or with a file -/
inductive SpeOutcome (μ ν : Type)
  | shown (title : List Char) (plot : SpePlots)
  | written (store : Store (SpeRow μ) (SpeObj ν))

variable {μ ν : Type}

/-- `main` of `extract_spe` (`scripts/extract_spe.py:99-175`) with the option `--pixel` -/
def extractSpeMain (engine : FitEngine) (process : Fitter → List ChargeArray → Nat → Except Err SpeStore) (mem : List (SpeRow μ) → Nat) (order : List String)
    (name : String) (make : Nat → Fitter) (col : String) (inputs : List (String × SpeInput μ ν)) : Option Int → Except Err (SpeOutcome μ ν)
  | none => match extractSpe process mem order name make col inputs with
    | .error e => .error e
    | .ok store => .ok (.written store)
  | some pixel => match readInputs col (inputs.map (·.2)) none with
    | .error e => .error e
    | .ok (charges, _) => match recordedInitial charges.length (make charges.length).coll.params with
      | .error e => .error e
      | .ok initial => match showPixel engine (make charges.length) name initial (charges.map (·.2)) pixel with
        | .error e => .error e
        | .ok plot => .ok (.shown (speTitle name charges.length pixel) plot)

end Verif.Model
