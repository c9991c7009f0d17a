import Verif.Model.Calib

namespace Verif.Spec

open Verif.Py Verif.Model

/-- the waveform as a piecewise linear function of the time in samples, extended linearly beyond both edges -/
def linearAt (row : List ℚ) (x : ℚ) : ℚ :=
  let k := (max 0 (min ⌊x⌋ (row.length - 2))).toNat
  row.getD k 0 + (row.getD (k + 1) 0 - row.getD k 0) * (x - k)

/-- the query names exactly one quantity, `key`, with value `v` -/
inductive Asks : SipmQuery → String → ℚ → Prop
  | vover (v : ℚ) : Asks { vover := some v } "vover" v
  | opct (v : ℚ) : Asks { opct := some v } "opct" v
  | pde (v : ℚ) : Asks { pde := some v } "pde" v
  | gain (v : ℚ) : Asks { gain := some v } "gain" v

/-- the column `key` of the table consists of the numbers `xs`, strictly increasing and not empty, and every column has as
many cells -/
structure Increasing (df : SipmTable) (key : String) (xs : List ℚ) : Prop where
  column : df.get? key = some (xs.map some)
  sorted : xs.Pairwise (· < ·)
  nonempty : xs ≠ []
  regular : ∀ c ∈ df, c.2.length = xs.length

/-- `v` lies between the first and the last entry -/
def InRange (xs : List ℚ) (v : ℚ) : Prop := xs.headD 0 ≤ v ∧ v ≤ xs.getLastD 0

end Verif.Spec
