import Verif.Model.ShippedData
import Verif.Props.Calib
import Mathlib.Tactic.Linarith
import Mathlib.Tactic.NormNum
import Mathlib.Data.List.Forall2
import Mathlib.Tactic.FieldSimp
import Mathlib.Tactic.Ring
import Mathlib.Tactic.GCongr

/-!
# C140: the shipped time corrections and illumination profile
-/

namespace Verif.Props

open Verif.Py Verif.Model Verif.Spec

/-- The numbers of the file as a program holds them: each within a millionth of its text (reading rounds to doubles). -/
def ReadFrom (read text : List ℚ) : Prop := List.Forall₂ (fun r t => |r - t| ≤ 1 / 1000000) read text

theorem shippedTCor_length : shippedTCor.length = 2048 := by
  unfold shippedTCor
  rw [List.length_map]
  decide +kernel

/-- what is true of every correction of the file: it lies between -1.7 and 2.21 and is at least 0.0007 away from every whole number -/
theorem tCor_digits : ∀ z ∈ tCorDigits, (-1700000000000000000 ≤ z ∧ z ≤ 2210000000000000000) ∧
    700000000000000 ≤ z % 1000000000000000000 ∧ z % 1000000000000000000 ≤ 999300000000000000 := by decide +kernel

theorem read_tCor (t r : ℚ) (ht : t ∈ shippedTCor) (hr : |r - t| ≤ 1 / 1000000) : -(171 / 100) < r ∧ r < 222 / 100 ∧ ∀ z : ℤ, r ≠ z := by
  obtain ⟨d, hd, rfl⟩ := List.mem_map.1 ht
  obtain ⟨⟨h1, h2⟩, h3, h4⟩ := tCor_digits d hd
  obtain ⟨r1, r2⟩ := abs_le.1 hr
  have h1' : (-1700000000000000000 : ℚ) ≤ d := by exact_mod_cast h1
  have h2' : (d : ℚ) ≤ 2210000000000000000 := by exact_mod_cast h2
  refine ⟨by norm_num at r1 r2 ⊢; linarith, by norm_num at r1 r2 ⊢; linarith, ?_⟩
  rintro z rfl
  have e := Int.emod_add_mul_ediv d 1000000000000000000
  obtain ⟨m, hm⟩ : ∃ m, m = d % 1000000000000000000 := ⟨_, rfl⟩
  obtain ⟨q, hq⟩ : ∃ q, q = d / 1000000000000000000 := ⟨_, rfl⟩
  rw [← hm] at h3 h4 e
  rw [← hq] at e
  have e' : (m : ℚ) + 1000000000000000000 * q = d := by exact_mod_cast e
  have h3' : (700000000000000 : ℚ) ≤ m := by exact_mod_cast h3
  have h4' : (m : ℚ) ≤ 999300000000000000 := by exact_mod_cast h4
  have hd' : (d : ℚ) / 10 ^ 18 = m / 10 ^ 18 + q := by rw [← e']; norm_num; ring
  rw [hd'] at r1 r2
  have m1 : (700000000000000 : ℚ) / 10 ^ 18 ≤ m / 10 ^ 18 := by gcongr
  have m2 : (m : ℚ) / 10 ^ 18 ≤ 999300000000000000 / 10 ^ 18 := by gcongr
  obtain ⟨f, hf⟩ : ∃ f, f = (m : ℚ) / 10 ^ 18 := ⟨_, rfl⟩
  rw [← hf] at m1 m2 r1 r2
  norm_num at m1 m2
  have lo : ((q : ℤ) : ℚ) < z := by linarith
  have hi : (z : ℚ) < ((q + 1 : ℤ) : ℚ) := by push_cast; linarith
  have lo' : q < z := by exact_mod_cast lo
  have hi' : z < q + 1 := by exact_mod_cast hi
  omega

/-- a straight line through two neighbours, seen as a weighted mean -/
theorem linearAt_inside (row : List ℚ) (x : ℚ) (k : ℕ) (hk : (k : ℤ) = ⌊x⌋) (hlen : k + 2 ≤ row.length) :
    linearAt row x = (1 - (x - k)) * row.getD k 0 + (x - k) * row.getD (k + 1) 0 := by
  have hmin : (max 0 (min ⌊x⌋ ((row.length : ℤ) - 2))).toNat = k := by
    rw [← hk]
    rw [min_eq_left (by omega), max_eq_right (by omega)]
    simp
  unfold linearAt
  simp only [hmin]
  ring

theorem linearAt_const (n : ℕ) (a x : ℚ) (hn : 2 ≤ n) : linearAt (List.replicate n a) x = a := by
  unfold linearAt
  obtain ⟨k, hk⟩ : ∃ k, k = (max 0 (min ⌊x⌋ (((List.replicate n a).length : ℤ) - 2))).toNat := ⟨_, rfl⟩
  simp only [← hk]
  have hb : k + 1 < n := by
    rw [hk, List.length_replicate]; omega
  have h1 : (List.replicate n a).getD k 0 = a := by
    rw [List.getD_eq_getElem?_getD, List.getElem?_replicate, if_pos (by omega)]; rfl
  have h2 : (List.replicate n a).getD (k + 1) 0 = a := by
    rw [List.getD_eq_getElem?_getD, List.getElem?_replicate, if_pos (by omega)]; rfl
  rw [h1, h2]; ring

/-- C140: with the shipped corrections, no event of R1 data with at most 2048 pixels and at least two samples makes the time correction raise.
Every pixel is shifted by its own correction: the corrected sample `i` is the line through its samples at the time `i - c`. -/
theorem C140_corrected (tCor : List ℚ) (hread : ReadFrom tCor shippedTCor) (type : SampleType) (ht : type ≠ .uint16) (event : List (List ℚ))
    (hp : event.length ≤ 2048) (hs : ∀ row ∈ event, 2 ≤ row.length) :
    ∃ out, timeCalibrate tCor type event = .ok out ∧ out.length = event.length ∧
      ∀ (p : ℕ) row, event[p]? = some row → ∃ c, tCor[p]? = some c ∧
        out[p]? = some ((List.range row.length).map fun (i : ℕ) => linearAt row ((i : ℚ) - c)) := by
  have hl : tCor.length = 2048 := by rw [hread.length_eq, shippedTCor_length]
  have hgood : ∀ (p : ℕ) c, tCor[p]? = some c → ∀ z : ℤ, c ≠ z := by
    intro p c hc
    have hpl : p < tCor.length := (List.getElem?_eq_some_iff.1 hc).1
    have hps : p < shippedTCor.length := by rw [← hread.length_eq]; exact hpl
    have := (List.forall₂_iff_get.1 hread).2 p hpl hps
    simp only [List.get_eq_getElem] at this
    rw [(List.getElem?_eq_some_iff.1 hc).2] at this
    exact (read_tCor _ _ (List.getElem_mem hps) this).2.2
  obtain ⟨out, h1, h2, h3⟩ := C45_partial event tCor (by omega) hs (fun p row c _ hc hz => by
    obtain ⟨z, hz, -⟩ := hz
    exact hgood p c hc z hz)
  refine ⟨out, ?_, h2, fun p row hrow => ?_⟩
  · cases type <;> first | exact h1 | exact absurd rfl ht
  · have hpl : p < tCor.length := by
      have := (List.getElem?_eq_some_iff.1 hrow).1
      omega
    exact ⟨tCor[p], List.getElem?_eq_getElem hpl, h3 p row _ hrow (List.getElem?_eq_getElem hpl)⟩

/-- C140: a correction moves nothing by more than three samples. Away from the edges each corrected sample is a weighted mean, with positive
weights, of two neighbouring samples of the same pixel at most three samples away. -/
theorem C140_near (tCor : List ℚ) (hread : ReadFrom tCor shippedTCor) (type : SampleType) (event out : List (List ℚ))
    (hp : event.length ≤ 2048) (hs : ∀ row ∈ event, 2 ≤ row.length) (h : timeCalibrate tCor type event = .ok out)
    (p : ℕ) (row : List ℚ) (hrow : event[p]? = some row) (i : ℕ) (h3 : 3 ≤ i) (hi : i + 3 ≤ row.length) :
    ∃ (k : ℕ) (w a b : ℚ) (r : List ℚ), i ≤ k + 3 ∧ k ≤ i + 1 ∧ 0 < w ∧ w < 1 ∧ row[k]? = some a ∧ row[k + 1]? = some b ∧
      out[p]? = some r ∧ r.length = row.length ∧ r[i]? = some ((1 - w) * a + w * b) := by
  have ht : type ≠ .uint16 := by rintro rfl; simp [timeCalibrate] at h
  obtain ⟨out', ho, -, hall⟩ := C140_corrected tCor hread type ht event hp hs
  rw [h] at ho
  cases ho
  obtain ⟨c, hc, hout⟩ := hall p row hrow
  have hpl : p < tCor.length := (List.getElem?_eq_some_iff.1 hc).1
  have hps : p < shippedTCor.length := by rw [← hread.length_eq]; exact hpl
  have hrd := (List.forall₂_iff_get.1 hread).2 p hpl hps
  simp only [List.get_eq_getElem] at hrd
  rw [(List.getElem?_eq_some_iff.1 hc).2] at hrd
  obtain ⟨lo, hi', hz⟩ := read_tCor _ _ (List.getElem_mem hps) hrd
  obtain ⟨x, hx⟩ : ∃ x : ℚ, x = (i : ℚ) - c := ⟨_, rfl⟩
  have hfl : (i : ℤ) - 3 ≤ ⌊x⌋ := by
    rw [Int.le_floor, hx]; push_cast; linarith
  have hfu : ⌊x⌋ < (i : ℤ) + 2 := by
    rw [Int.floor_lt, hx]; push_cast; linarith
  obtain ⟨k, hk⟩ : ∃ k : ℕ, (k : ℤ) = ⌊x⌋ := ⟨⌊x⌋.toNat, by rw [Int.toNat_of_nonneg (by omega)]⟩
  have hkx : (k : ℚ) = ((⌊x⌋ : ℤ) : ℚ) := by rw [← hk]; push_cast; rfl
  have hk1 : k + 1 < row.length := by omega
  refine ⟨k, x - k, row[k], row[k + 1], _, by omega, by omega, ?_, ?_, List.getElem?_eq_getElem (by omega), List.getElem?_eq_getElem hk1, hout, by simp, ?_⟩
  · rw [hkx]
    have hle := Int.floor_le x
    rcases lt_or_eq_of_le hle with hlt | heq
    · linarith
    · exfalso
      refine hz ((i : ℤ) - ⌊x⌋) ?_
      push_cast
      rw [hx] at heq ⊢
      linarith
  · rw [hkx]
    have := Int.lt_floor_add_one x
    linarith
  · rw [List.getElem?_map, List.getElem?_range (by omega), Option.map_some, ← hx, linearAt_inside row x k hk (by omega)]
    rw [List.getD_eq_getElem?_getD, List.getD_eq_getElem?_getD, List.getElem?_eq_getElem hk1, List.getElem?_eq_getElem (by omega : k < row.length)]
    rfl

/-- C140: what is the same at all times stays so, at the edges too. -/
theorem C140_flat (tCor : List ℚ) (hread : ReadFrom tCor shippedTCor) (type : SampleType) (ht : type ≠ .uint16) (n : ℕ) (hn : 2 ≤ n) (pedestals : List ℚ)
    (hp : pedestals.length ≤ 2048) :
    timeCalibrate tCor type (pedestals.map fun a => List.replicate n a) = .ok (pedestals.map fun a => List.replicate n a) := by
  obtain ⟨out, h1, h2, h3⟩ := C140_corrected tCor hread type ht (pedestals.map fun a => List.replicate n a) (by simpa using hp) (by
    intro row hrow
    obtain ⟨a, -, rfl⟩ := List.mem_map.1 hrow
    simpa using hn)
  rw [h1]
  congr 1
  refine List.ext_getElem? fun p => ?_
  by_cases hpl : p < pedestals.length
  · obtain ⟨c, -, ho⟩ := h3 p (List.replicate n pedestals[p]) (by rw [List.getElem?_map, List.getElem?_eq_getElem hpl]; rfl)
    rw [ho, List.getElem?_map, List.getElem?_eq_getElem hpl]
    simp only [Option.map_some, Option.some.injEq, List.length_replicate]
    rw [List.eq_replicate_iff]
    refine ⟨by simp, fun b hb => ?_⟩
    obtain ⟨i, -, rfl⟩ := List.mem_map.1 hb
    exact linearAt_const n _ _ hn
  · rw [List.length_map] at h2
    rw [List.getElem?_eq_none (by omega), List.getElem?_eq_none (by simpa using hpl)]

/-- C140: raw data are refused, whatever the corrections. -/
theorem C140_raw (tCor : List ℚ) (event : List (List ℚ)) : timeCalibrate tCor .uint16 event = .error .typeError := rfl

theorem profile_digits : ∀ z ∈ profileDigits, 920000 ≤ z ∧ z ≤ 1050000 := by decide +kernel

theorem read_profile (t r : ℚ) (ht : t ∈ shippedProfile) (hr : |r - t| ≤ 1 / 1000000) : 91 / 100 < r ∧ r < 106 / 100 := by
  obtain ⟨d, hd, rfl⟩ := List.mem_map.1 ht
  obtain ⟨h1, h2⟩ := profile_digits d hd
  obtain ⟨r1, r2⟩ := abs_le.1 hr
  have h1' : (920000 : ℚ) ≤ d := by exact_mod_cast h1
  have h2' : (d : ℚ) ≤ 1050000 := by exact_mod_cast h2
  exact ⟨by norm_num at r1 r2 ⊢; linarith, by norm_num at r1 r2 ⊢; linarith⟩

theorem shippedProfile_length : shippedProfile.length = 2048 := by
  unfold shippedProfile
  rw [List.length_map]
  decide +kernel

/-- C140: with the shipped illumination profile both directions work for every image of the camera and undo each other, and no pixel is changed by
more than ten percent. -/
theorem C140_profile (profile image : List ℚ) (hread : ReadFrom profile shippedProfile) (hi : image.length = 2048) :
    (∃ folded, foldProfile profile image = .ok folded ∧ unfoldProfile profile folded = .ok image ∧
      ∀ (p : ℕ) v, image[p]? = some v → ∃ u, folded[p]? = some u ∧ |u - v| ≤ |v| / 10) ∧
    (∃ unfolded, unfoldProfile profile image = .ok unfolded ∧ foldProfile profile unfolded = .ok image ∧
      ∀ (p : ℕ) v, image[p]? = some v → ∃ u, unfolded[p]? = some u ∧ |u - v| ≤ |v| / 10) := by
  have hl : profile.length = 2048 := by rw [hread.length_eq, shippedProfile_length]
  have hval : ∀ (p : ℕ) c, profile[p]? = some c → 91 / 100 < c ∧ c < 106 / 100 := by
    intro p c hc
    have hpl : p < profile.length := (List.getElem?_eq_some_iff.1 hc).1
    have hps : p < shippedProfile.length := by rw [← hread.length_eq]; exact hpl
    have := (List.forall₂_iff_get.1 hread).2 p hpl hps
    simp only [List.get_eq_getElem] at this
    rw [(List.getElem?_eq_some_iff.1 hc).2] at this
    exact read_profile _ _ (List.getElem_mem hps) this
  have hne : ∀ x ∈ profile, x ≠ 0 := by
    intro x hx
    obtain ⟨p, hp, rfl⟩ := List.getElem_of_mem hx
    have := (hval p _ (List.getElem?_eq_getElem hp)).1
    intro h0
    rw [h0] at this
    norm_num at this
  obtain ⟨⟨f, f1, f2⟩, u, u1, u2⟩ := C44_profile profile image (by omega) hne
  have hpix : ∀ (p : ℕ) v, image[p]? = some v → ∃ c, profile[p]? = some c := by
    intro p v hv
    have := (List.getElem?_eq_some_iff.1 hv).1
    exact ⟨profile[p]'(by omega), List.getElem?_eq_getElem _⟩
  refine ⟨⟨f, f1, f2, fun p v hv => ?_⟩, u, u1, u2, fun p v hv => ?_⟩
  · obtain ⟨c, hc⟩ := hpix p v hv
    obtain ⟨⟨o, o1, o2⟩, -⟩ := C44_profile_pixel profile image (by omega) p v c hv hc
    rw [f1] at o1; cases o1
    obtain ⟨c1, c2⟩ := hval p c hc
    refine ⟨_, o2, ?_⟩
    rw [show v * c - v = v * (c - 1) by ring, abs_mul]
    have : |c - 1| ≤ 1 / 10 := abs_le.2 ⟨by linarith, by linarith⟩
    have h0 := abs_nonneg v
    nlinarith
  · obtain ⟨c, hc⟩ := hpix p v hv
    obtain ⟨-, o, o1, o2⟩ := C44_profile_pixel profile image (by omega) p v c hv hc
    rw [u1] at o1; cases o1
    obtain ⟨c1, c2⟩ := hval p c hc
    refine ⟨_, o2, ?_⟩
    have hc0 : (0 : ℚ) < c := by linarith
    rw [show v / c - v = v * ((1 - c) / c) by field_simp, abs_mul]
    have : |(1 - c) / c| ≤ 1 / 10 := by
      rw [abs_le]
      constructor
      · rw [le_div_iff₀ hc0]; linarith
      · rw [div_le_iff₀ hc0]; linarith
    have h0 := abs_nonneg v
    nlinarith

/-- The hypotheses can be met: the exact numbers of the files are read from them. -/
example : ReadFrom shippedTCor shippedTCor ∧ ReadFrom shippedProfile shippedProfile := by
  refine ⟨List.forall₂_same.2 fun x _ => ?_, List.forall₂_same.2 fun x _ => ?_⟩ <;> norm_num

/-- A step in the first two pixels: earlier in the pixel with the negative correction. -/
example : timeCalibrate shippedTCor .float32 [[0, 0, 0, 0, 8, 8, 8, 8], [0, 0, 0, 0, 8, 8, 8, 8]] =
    .ok [[0, 0, 675005690253032400 / 10 ^ 18 * 8, 8, 8, 8, 8, 8], [0, 0, 235296379938427600 / 10 ^ 18 * 8, 8, 8, 8, 8, 8]] := by decide +kernel

end Verif.Props
