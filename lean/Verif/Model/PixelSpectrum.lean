import Verif.Model.SpeFromDl1

/-!
# `examples/plot_charge_spectrum.py`: the charges of all pixels and of one pixel

`np.histogram` is external and trusted as in `Verif.Model.SpectrumFitter`; matplotlib draws what it returns. The argument `normed` is that of the versions
of matplotlib which have it; it became `density`.
-/

namespace Verif.Model

open Verif.Py

variable {τ ν : Type}

/-- `pixel_arr == pixel` for one entry (`examples/plot_charge_spectrum.py:30`) -/
def Cell.equals (pixel : Int) : Cell τ → Bool
  | .num q => q = (pixel : ℚ)
  | _ => false

/-- the charges of all pixels and those of one pixel (`examples/plot_charge_spectrum.py:28-30`). As in `speInput`, NaN is not modelled. -/
def spectrumCharges (r : HReader (DRow (Dict String (Cell τ))) ν) (col : String) (pixel : Int) : Except Err (List ℚ × List ℚ) :=
  match selectColumnOf dl1Cells r "data" "pixel" none none with
  | .error e => .error e
  | .ok pixels => match selectColumnOf dl1Cells r "data" col none none with
    | .error e => .error e
    | .ok cells => match cells.mapM Cell.number with
      | .error e => .error e
      | .ok charge => .ok (charge, ((pixels.zip charge).filter fun pc => pc.1.equals pixel).map (·.2))

/-- the range `np.histogram` takes from the data: least and largest value, or the interval from 0 to 1 without data -/
def dataRange : List ℚ → ℚ × ℚ
  | [] => (0, 1)
  | q :: qs => (qs.foldl min q, qs.foldl max q)

/-- the heights of `np.histogram` with `density=True`, `n / db / n.sum()`; `none` is NaN -/
def densities (edges counts : List ℚ) : List (Option ℚ) :=
  if counts.sum = 0 then counts.map fun _ => none
  else List.zipWith (fun bin c => some (c / (bin.2.1 - bin.1) / counts.sum)) (binsOf edges) counts

/-- the two curves of the plot and the edges they share -/
structure ChargeSpectrum where
  edges : List ℚ
  all : List (Option ℚ)
  pixel : List (Option ℚ)

/-- the plot (`examples/plot_charge_spectrum.py:35-38`): 1000 bins over the charges of all pixels, and the same bins for the charges of the pixel -/
def chargeSpectrum (r : HReader (DRow (Dict String (Cell τ))) ν) (col : String) (pixel : Int) : Except Err ChargeSpectrum :=
  match spectrumCharges r col pixel with
  | .error e => .error e
  | .ok (charge, own) =>
    let range := outerEdges (dataRange charge)
    let edges := histEdges 1000 range
    .ok ⟨edges, densities edges (histCounts 1000 range charge), densities edges (histCounts 1000 range own)⟩

end Verif.Model
