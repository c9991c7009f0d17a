import Verif.Model.ExtractSpe
import Verif.Model.Dl1

/-!
# `scripts/extract_spe.py:99-175` and `scripts/plot_spe.py:67-99`: the file of the fit results

Drawing is not modelled: a plot is the data handed to matplotlib.
-/

namespace Verif.Model

open Verif.Py

/-- a row of the tables of the file: a dictionary of fitted numbers or the arrays of a pixel, or a row of the mapping -/
inductive SpeRow (μ : Type)
  | fit (pixel : Nat) (d : Dict String ℚ)
  | arrays (pixel : Nat) (a : PixelArrays)
  | mapping (m : μ)

/-- the values of the metadata which are neither numbers nor text -/
inductive SpeObj (ν : Type)
  | files (paths : List String)
  | shape (nEvents nPixels : Nat)
  | initial (d : Dict String ℚ)
  | other (x : ν)
  deriving DecidableEq

/-- a DL1 file as the script sees it: the columns of its table, the numbers of events and pixels from its metadata, and its mapping -/
structure SpeInput (μ ν : Type) where
  columns : Dict String (List ℚ)
  nEvents : Nat
  nPixels : Nat
  mapping : Except Err (List μ × MetaDict (SpeObj ν))

variable {μ ν : Type}

/-- `reader.select_column(name).values.reshape((n_events, n_pixels))` (`scripts/extract_spe.py:112-114`) -/
def SpeInput.charges (d : SpeInput μ ν) (col : String) : Except Err ChargeArray :=
  match Dict.get? d.columns col with
  | none => .error .keyError
  | some v => match reshape d.nEvents d.nPixels v with
    | .error e => .error e
    | .ok rows => .ok ⟨d.nPixels, rows⟩

/-- the loop over the input files (`scripts/extract_spe.py:107-117`); `mapping` is the one found so far -/
def readInputs (col : String) : List (SpeInput μ ν) → Option (List μ × MetaDict (SpeObj ν)) →
    Except Err (List (Nat × ChargeArray) × Option (List μ × MetaDict (SpeObj ν)))
  | [], mapping => .ok ([], mapping)
  | d :: ds, mapping => match d.charges col with
    | .error e => .error e
    | .ok a =>
      let next : Except Err (Option (List μ × MetaDict (SpeObj ν))) := match mapping with
        | some m => .ok (some m)
        | none => match d.mapping with
          | .error e => .error e
          | .ok m => .ok (some m)
      match next with
      | .error e => .error e
      | .ok m => match readInputs col ds m with
        | .error e => .error e
        | .ok (as, m) => .ok ((d.nEvents, a) :: as, m)

/-- the calls of the writer (`scripts/extract_spe.py:160-175`); `shape` is the shape of the first array of charges -/
def speOps (paths : List String) (fitter : String) (n : Nat) (shape : Nat × Nat) (initial : Dict String ℚ) (mapping : List μ × MetaDict (SpeObj ν))
    (s : SpeStore) : List (Op (SpeRow μ) (SpeObj ν)) :=
  [.write "values" ((tableOf s.values).map fun x => .fit x.1 x.2), .write "errors" ((tableOf s.errors).map fun x => .fit x.1 x.2),
   .write "arrays" ((tableOf s.arrays).map fun x => .arrays x.1 x.2), .addMapping (mapping.1.map .mapping) mapping.2,
   .addMetadata "data" "metadata" [("files", .obj (.files paths)), ("fitter", .str fitter), ("n_illuminations", .int n),
     ("n_pixels", .obj (.shape shape.1 shape.2)), ("initial", .obj (.initial initial))]]

/-- `main` of `extract_spe` (`scripts/extract_spe.py:99-175`): `make n` is the fitter for `n` illuminations with the configuration loaded, `process` one of
`process` and `multiprocess`. `mem` and `order` as for every writer. A table without rows has no column `pixel`. -/
def extractSpe (process : Fitter → List ChargeArray → Nat → Except Err SpeStore) (mem : List (SpeRow μ) → Nat) (order : List String) (name : String)
    (make : Nat → Fitter) (col : String) (inputs : List (String × SpeInput μ ν)) : Except Err (Store (SpeRow μ) (SpeObj ν)) :=
  match readInputs col (inputs.map (·.2)) none with
  | .error e => .error e
  | .ok (charges, mapping) => match recordedInitial charges.length (make charges.length).coll.params with
    | .error e => .error e
    | .ok initial => match charges, mapping with
      | (nEvents, first) :: _, some m => match process (make charges.length) (charges.map (·.2)) first.nPixels with
        | .error e => .error e
        | .ok s =>
          if s.values.isEmpty || s.errors.isEmpty || s.arrays.isEmpty then .error .keyError
          else writeSession { mem := mem, prep := id } (speOps (inputs.map (·.1)) name charges.length (nEvents, first.nPixels) initial m s) order
      | _, _ => .error .indexError

/-- the rows of a table of fitted numbers -/
def fitRows (rows : List (SpeRow μ)) : List (Nat × Dict String ℚ) := rows.filterMap fun r => match r with
  | .fit p d => some (p, d)
  | _ => none

/-- the rows of the table of arrays -/
def arrayRows (rows : List (SpeRow μ)) : List (Nat × PixelArrays) := rows.filterMap fun r => match r with
  | .arrays p a => some (p, a)
  | _ => none

/-- the columns of `pd.DataFrame` made from a list of dictionaries: all keys, in the order of their first appearance -/
def recordColumns (t : List (Nat × Dict String ℚ)) : List String :=
  t.foldl (fun cols r => (Dict.keys r.2).foldl addKey cols) []

/-- a histogram and curve of the spectrum, with the light level and its error in the label -/
structure SpeCurve where
  level : ℚ
  error : ℚ
  hist : List ℚ
  fit : Option (List ℚ)

/-- what `plot_spe` draws: for each column the images of values and errors; for the chosen pixel the histograms and curves on common axes, and for each fitted
parameter its name, initial value, fitted value and error -/
structure SpePlots where
  images : List (String × List (Option ℚ) × List (Option ℚ))
  nIlluminations : Int
  fitter : String
  histX : List ℚ
  edges : List ℚ
  fitX : List ℚ
  curves : List SpeCurve
  table : List (String × ℚ × ℚ × ℚ)

/-- the images of a column (`scripts/plot_spe.py:27-29`, `73-75`): the camera has `n` pixels, other sizes are refused (`plotting/camera.py:74`) -/
def speImage (n : Nat) (values errors : List (Nat × Dict String ℚ)) (col : String) : Except Err (String × List (Option ℚ) × List (Option ℚ)) :=
  if col ∈ recordColumns errors then
    if values.length = n ∧ errors.length = n then .ok (col, imageOf values col, imageOf errors col) else .error .assertionError
  else .error .keyError

/-- the rows of the table of a spectrum (`plotting/spe.py:28-31`) -/
def speTable (initial values errors : Dict String ℚ) : List String → Except Err (List (String × ℚ × ℚ × ℚ))
  | [] => .ok []
  | k :: ks => match Dict.getItem initial k with
    | .error e => .error e
    | .ok i => match Dict.getItem values k with
      | .error e => .error e
      | .ok v => match Dict.getItem errors k with
        | .error e => .error e
        | .ok x => match speTable initial values errors ks with
          | .error e => .error e
          | .ok rest => .ok ((k, i, v, x) :: rest)

/-- one pass of the loop over the illuminations (`plotting/spe.py:15-22`) -/
def speCurve (values errors : Dict String ℚ) (a : PixelArrays) (i : Nat) : Except Err SpeCurve :=
  match Dict.getItem values (numbered "lambda_" i) with
  | .error e => .error e
  | .ok v => match Dict.getItem errors (numbered "lambda_" i) with
    | .error e => .error e
    | .ok x => match a.histY[i]?, a.fitY[i]? with
      | some h, some c => .ok ⟨v, x, h, c⟩
      | _, _ => .error .indexError

/-- the spectrum of a pixel (`scripts/plot_spe.py:82-99`) -/
def speSpectrum (images : List (String × List (Option ℚ) × List (Option ℚ))) (md : MetaDict (SpeObj ν)) (values errors : List (Nat × Dict String ℚ))
    (arrays : List (Nat × PixelArrays)) (pixel : Nat) : Except Err SpePlots :=
  match Dict.get? md "n_illuminations", Dict.get? md "fitter", Dict.get? md "initial" with
  | some (.int n), some (.str fitter), some (.obj (.initial initial)) => match rowOf values pixel, rowOf errors pixel, rowOf arrays pixel with
    | some v, some e, some a => match (List.range n.toNat).mapM (speCurve v e a) with
      | .error err => .error err
      | .ok curves => match speTable initial v e (Dict.keys v) with
        | .error err => .error err
        | .ok t => .ok ⟨images, n, fitter, a.histX, a.edges, a.fitX, curves, t⟩
    | _, _, _ => .error .keyError
  | none, _, _ => .error .keyError
  | _, none, _ => .error .keyError
  | _, _, none => .error .keyError
  | _, _, _ => .error .typeError

/-- `plot_spe` (`scripts/plot_spe.py:62-103`) for the chosen pixel -/
def plotSpe (r : HReader (SpeRow μ) (SpeObj ν)) (pixel : Nat) : Except Err SpePlots :=
  match readTable r "values" false with
  | .error e => .error e
  | .ok values => match readTable r "errors" false with
    | .error e => .error e
    | .ok errors => match readTable r "arrays" false with
      | .error e => .error e
      | .ok arrays => match getMapping r with
        | .error e => .error e
        | .ok m => match getMetadata r "data" "metadata" with
          | .error e => .error e
          | .ok md => match (recordColumns (fitRows values)).mapM (speImage m.1.length (fitRows values) (fitRows errors)) with
            | .error e => .error e
            | .ok images => speSpectrum images md (fitRows values) (fitRows errors) (arrayRows arrays) pixel

end Verif.Model
