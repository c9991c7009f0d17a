import Verif.Model.Calib
import Verif.Spec.Calib
import Verif.Lemmas.Dl1
import Mathlib.Tactic.Ring
import Mathlib.Tactic.FieldSimp
import Mathlib.Tactic.NormNum
import Mathlib.Tactic.Linarith

/-! # C44, C45: amplitude calibration, illumination profile, time correction -/

namespace Verif.Props

open Verif.Py Verif.Model Verif.Spec Verif.Lemmas

/-! ## C44 -/

theorem takeAll_nat (xs : List ℚ) (ps : List Nat) (h : ∀ p ∈ ps, p < xs.length) :
    takeAll xs (ps.map fun (p : Nat) => (p : Int)) = .ok (ps.map fun p => xs.getD p 0) := by
  induction ps with
  | nil => rfl
  | cons p ps ih =>
    have hp : p < xs.length := h p (by simp)
    have e : getIndex xs (p : Int) = .ok (xs.getD p 0) := by
      unfold getIndex
      have : ¬ ((p : Int) < 0) := by omega
      simp [this, List.getD_eq_getElem?_getD, List.getElem?_eq_getElem hp]
    simp only [List.map_cons, takeAll, e, ih fun q hq => h q (by simp [hq])]

theorem takeAll_error (xs : List ℚ) (ps : List Nat) (h : ∃ p ∈ ps, xs.length ≤ p) :
    takeAll xs (ps.map fun (p : Nat) => (p : Int)) = .error .indexError := by
  induction ps with
  | nil => obtain ⟨p, hp, -⟩ := h; cases hp
  | cons p ps ih =>
    by_cases hp : p < xs.length
    · have e : getIndex xs (p : Int) = .ok (xs.getD p 0) := by
        unfold getIndex
        have : ¬ ((p : Int) < 0) := by omega
        simp [this, List.getD_eq_getElem?_getD, List.getElem?_eq_getElem hp]
      obtain ⟨q, hq, hl⟩ := h
      have : q ∈ ps := by
        rcases List.mem_cons.1 hq with rfl | hq
        · omega
        · exact hq
      simp only [List.map_cons, takeAll, e, ih ⟨q, this, hl⟩]
    · have e : getIndex xs (p : Int) = .error .indexError := by
        unfold getIndex
        have : ¬ ((p : Int) < 0) := by omega
        simp [this, List.getElem?_eq_none (not_lt.1 hp)]
      simp only [List.map_cons, takeAll, e]

/-- C44: for values and pixel numbers of the same length, within the tables, the result is the affine map of the table
entries of each value's own pixel, and nothing else. -/
theorem C44_calibrate (c : AmplitudeCalibrator) (values : List ℚ) (pixels : List Nat) (hlen : values.length = pixels.length)
    (hp : ∀ p ∈ pixels, p < c.pedestal.length) (hf : ∀ p ∈ pixels, p < c.ff.length) :
    ∃ out, calibrate c values (pixels.map fun (p : Nat) => (p : Int)) = .ok out ∧ out.length = values.length ∧
      ∀ (i : Nat) v p, values[i]? = some v → pixels[i]? = some p →
        out[i]? = some ((v - c.pedestal.getD p 0) / c.conversion * c.ff.getD p 0) := by
  unfold calibrate
  rw [takeAll_nat _ _ hp, takeAll_nat _ _ hf]
  simp only [npBinary, List.length_map, hlen, if_pos, List.length_zipWith, Nat.min_self]
  refine ⟨_, rfl, by simp [hlen], ?_⟩
  intro i v p hv hpx
  simp [List.getElem?_zipWith, List.getElem?_map, hv, hpx]

/-- C44: a pixel number outside the pedestal table raises `IndexError`. -/
theorem C44_unknown_pixel (c : AmplitudeCalibrator) (values : List ℚ) (pixels : List Nat) (h : ∃ p ∈ pixels, c.pedestal.length ≤ p) :
    calibrate c values (pixels.map fun (p : Nat) => (p : Int)) = .error .indexError := by
  unfold calibrate
  rw [takeAll_error _ _ h]

/-- C44: with a non-zero conversion and non-zero flat-field coefficients, the values are recovered from the calibrated ones. -/
theorem C44_inverse (c : AmplitudeCalibrator) (values out : List ℚ) (pixels : List Nat) (hlen : values.length = pixels.length)
    (hp : ∀ p ∈ pixels, p < c.pedestal.length) (hf : ∀ p ∈ pixels, p < c.ff.length) (hc : c.conversion ≠ 0)
    (hff : ∀ p ∈ pixels, c.ff.getD p 0 ≠ 0) (h : calibrate c values (pixels.map fun (p : Nat) => (p : Int)) = .ok out) :
    values = (out.zip pixels).map fun q => q.1 / c.ff.getD q.2 0 * c.conversion + c.pedestal.getD q.2 0 := by
  obtain ⟨out', h1, h2, h3⟩ := C44_calibrate c values pixels hlen hp hf
  rw [h] at h1
  injection h1 with h1
  subst h1
  refine List.ext_getElem (by simp [h2, hlen]) fun i hi hi' => ?_
  have hpi : i < pixels.length := by omega
  have ho : i < out.length := by omega
  have := h3 i values[i] pixels[i] (List.getElem?_eq_getElem hi) (List.getElem?_eq_getElem hpi)
  rw [List.getElem?_eq_getElem ho, Option.some.injEq] at this
  have hne := hff pixels[i] (List.getElem_mem hpi)
  rw [List.getElem_map, List.getElem_zip]
  simp only [this]
  field_simp
  ring

/-- C44: one value for several pixels is calibrated with the coefficients of each pixel, several values for one pixel with those of that pixel; any other two
different lengths raise `ValueError`. -/
theorem C44_broadcast (c : AmplitudeCalibrator) (values : List ℚ) (pixels : List Nat)
    (hp : ∀ p ∈ pixels, p < c.pedestal.length) (hf : ∀ p ∈ pixels, p < c.ff.length) :
    (∀ v, values = [v] → ∃ out, calibrate c values (pixels.map fun (p : Nat) => (p : Int)) = .ok out ∧ out.length = pixels.length ∧
      ∀ (i : Nat) p, pixels[i]? = some p → out[i]? = some ((v - c.pedestal.getD p 0) / c.conversion * c.ff.getD p 0)) ∧
    (∀ p, pixels = [p] → ∃ out, calibrate c values (pixels.map fun (p : Nat) => (p : Int)) = .ok out ∧ out.length = values.length ∧
      ∀ (i : Nat) v, values[i]? = some v → out[i]? = some ((v - c.pedestal.getD p 0) / c.conversion * c.ff.getD p 0)) ∧
    (values.length ≠ pixels.length → values.length ≠ 1 → pixels.length ≠ 1 →
      calibrate c values (pixels.map fun (p : Nat) => (p : Int)) = .error .valueError) := by
  unfold calibrate
  rw [takeAll_nat _ _ hp, takeAll_nat _ _ hf]
  simp only
  refine ⟨?_, ?_, ?_⟩
  · rintro v rfl
    by_cases hl : pixels.length = 1
    · obtain ⟨p, rfl⟩ := List.length_eq_one_iff.1 hl
      refine ⟨_, rfl, rfl, ?_⟩
      intro i q hq
      cases i with
      | zero => simp at hq; subst hq; simp
      | succ i => simp at hq
    · have h1 : npBinary (· - ·) [v] (pixels.map fun p => c.pedestal.getD p 0) = .ok ((pixels.map fun p => c.pedestal.getD p 0).map (v - ·)) := by
        unfold npBinary
        rw [if_neg (by simp; omega)]
      rw [h1]
      simp only [npBinary, List.length_map, if_pos]
      refine ⟨_, rfl, by simp, ?_⟩
      intro i p hq
      simp [hq]
  · rintro p rfl
    by_cases hl : values.length = 1
    · obtain ⟨v, rfl⟩ := List.length_eq_one_iff.1 hl
      refine ⟨_, rfl, rfl, ?_⟩
      intro i w hw
      cases i with
      | zero => simp at hw; subst hw; simp
      | succ i => simp at hw
    · have key : ∀ (f : ℚ → ℚ → ℚ) (xs : List ℚ) (y : ℚ), xs.length ≠ 1 → npBinary f xs [y] = .ok (xs.map fun x => f x y) := by
        intro f xs y hx
        unfold npBinary
        rw [if_neg (by simpa using hx)]
        match xs, hx with
        | [], _ => rfl
        | [_], hx => simp at hx
        | _ :: _ :: _, _ => rfl
      simp only [List.map_cons, List.map_nil]
      rw [key _ _ _ hl]
      simp only
      rw [key _ _ _ (by simpa using hl)]
      refine ⟨_, rfl, by simp, ?_⟩
      intro i v hv
      simp [hv]
  · intro h1 h2 h3
    have : npBinary (· - ·) values (pixels.map fun p => c.pedestal.getD p 0) = .error .valueError := by
      unfold npBinary
      rw [if_neg (by simpa using h1)]
      match values, pixels, h2, h3 with
      | [], [], _, _ => exact absurd rfl h1
      | [], [_], _, h3 => simp at h3
      | [], _ :: _ :: _, _, _ => rfl
      | [_], _, h2, _ => simp at h2
      | _ :: _ :: _, [], _, _ => rfl
      | _ :: _ :: _, [_], _, h3 => simp at h3
      | _ :: _ :: _, _ :: _ :: _, _, _ => rfl
    rw [this]

/-- one value, two pixels -/
example : calibrate ⟨[2, 1, 3], [1, 0, 4], 2⟩ [5] ([2, 0].map fun (p : Nat) => (p : Int)) = .ok [3 / 2, 4] := by decide +kernel

/-- C44: pixels never mix: changing the tables for other pixels, or the other values, does not change a calibrated value. -/
theorem C44_local (c c' : AmplitudeCalibrator) (values values' : List ℚ) (pixels : List Nat) (out out' : List ℚ) (i p : Nat)
    (hlen : values.length = pixels.length) (hlen' : values'.length = pixels.length)
    (hp : ∀ p ∈ pixels, p < c.pedestal.length ∧ p < c.ff.length ∧ p < c'.pedestal.length ∧ p < c'.ff.length)
    (h : calibrate c values (pixels.map fun (p : Nat) => (p : Int)) = .ok out)
    (h' : calibrate c' values' (pixels.map fun (p : Nat) => (p : Int)) = .ok out')
    (hi : pixels[i]? = some p) (hv : values[i]? = values'[i]?) (hc : c.conversion = c'.conversion)
    (hped : c.pedestal[p]? = c'.pedestal[p]?) (hff : c.ff[p]? = c'.ff[p]?) : out[i]? = out'[i]? := by
  obtain ⟨o, e, -, e3⟩ := C44_calibrate c values pixels hlen (fun p h => (hp p h).1) fun p h => (hp p h).2.1
  obtain ⟨o', e', -, e3'⟩ := C44_calibrate c' values' pixels hlen' (fun p h => (hp p h).2.2.1) fun p h => (hp p h).2.2.2
  rw [h] at e; injection e with e; subst e
  rw [h'] at e'; injection e' with e'; subst e'
  have hil : i < values.length := by rw [hlen]; exact (List.getElem?_eq_some_iff.1 hi).1
  rw [e3 i values[i] p (List.getElem?_eq_getElem hil) hi, e3' i values[i] p (by rw [← hv, List.getElem?_eq_getElem hil]) hi]
  simp only [List.getD_eq_getElem?_getD, hped, hff, hc]

/-- two values of pixel 2 and one of pixel 0 -/
example : calibrate ⟨[2, 1, 3], [1, 0, 4], 2⟩ [5, 6, 4] ([2, 0, 2].map fun (p : Nat) => (p : Int)) = .ok [3 / 2, 5, 0] := by
  decide +kernel

/-- C44: unfolding and folding the illumination profile are inverse to each other where the profile is non-zero. -/
theorem C44_profile (profile image : List ℚ) (hlen : image.length = profile.length) (h : ∀ x ∈ profile, x ≠ 0) :
    (∃ folded, foldProfile profile image = .ok folded ∧ unfoldProfile profile folded = .ok image) ∧
    (∃ unfolded, unfoldProfile profile image = .ok unfolded ∧ foldProfile profile unfolded = .ok image) := by
  have key : ∀ (f g : ℚ → ℚ → ℚ), (∀ x y, y ≠ 0 → g (f x y) y = x) →
      (image.zipWith f profile).zipWith g profile = image := by
    intro f g hfg
    refine List.ext_getElem (by simp [hlen]) fun i h1 h2 => ?_
    simp only [List.getElem_zipWith]
    exact hfg _ _ (h _ (List.getElem_mem _))
  refine ⟨⟨image.zipWith (· * ·) profile, by simp [foldProfile, npBinary, hlen], ?_⟩,
    ⟨image.zipWith (· / ·) profile, by simp [unfoldProfile, npBinary, hlen], ?_⟩⟩
  · unfold unfoldProfile npBinary
    rw [if_pos (by simp [hlen]), key (· * ·) (· / ·) fun x y hy => mul_div_cancel_right₀ x hy]
  · unfold foldProfile npBinary
    rw [if_pos (by simp [hlen]), key (· / ·) (· * ·) fun x y hy => div_mul_cancel₀ x hy]

/-- C44: folding multiplies, unfolding divides, each pixel by its own coefficient. -/
theorem C44_profile_pixel (profile image : List ℚ) (hlen : image.length = profile.length) (i : Nat) (v c : ℚ)
    (hv : image[i]? = some v) (hc : profile[i]? = some c) :
    (∃ out, foldProfile profile image = .ok out ∧ out[i]? = some (v * c)) ∧
    (∃ out, unfoldProfile profile image = .ok out ∧ out[i]? = some (v / c)) := by
  simp [foldProfile, unfoldProfile, npBinary, hlen, List.getElem?_zipWith, hv, hc]

example : unfoldProfile [1 / 2, 2] [3, 4] = .ok [6, 2] ∧ foldProfile [1 / 2, 2] [6, 2] = .ok [3, 4] := by decide +kernel

/-! ## C45 -/

theorem getIndex_nat (xs : List ℚ) (i : Int) (h0 : 0 ≤ i) (h : i < xs.length) : getIndex xs i = .ok (xs.getD i.toNat 0) := by
  unfold getIndex
  have : ¬ (i < 0) := by omega
  have hl : i.toNat < xs.length := by omega
  simp [this, List.getD_eq_getElem?_getD, List.getElem?_eq_getElem hl]

/-- one sample, when its time is not an integer inside the waveform -/
theorem tCorSample_ok (row : List ℚ) (c : ℚ) (i : Nat) (hn : 2 ≤ row.length)
    (h : ¬ ∃ z : ℤ, (i : ℚ) - c = z ∧ 0 ≤ z ∧ z < row.length) : tCorSample row c i = .ok (linearAt row (i - c)) := by
  unfold tCorSample linearAt
  set x : ℚ := (i : ℚ) - c with hx
  have hfloor := Int.floor_le x
  have hlt := Int.lt_floor_add_one x
  have hceil := Int.le_ceil x
  have hclt := Int.ceil_lt_add_one x
  simp only
  by_cases h1 : ⌊x⌋ < 0
  · rw [if_pos h1]
    have hk : (max 0 (min ⌊x⌋ ((row.length : Int) - 2))).toNat = 0 := by omega
    simp only [hk]
    rw [getIndex_nat _ _ (by omega) (by omega), getIndex_nat _ _ (by omega) (by omega)]
    simp
  · rw [if_neg h1]
    by_cases h2 : ⌈x⌉ ≥ (row.length : Int)
    · rw [if_pos h2]
      have hk : (max 0 (min ⌊x⌋ ((row.length : Int) - 2))).toNat = row.length - 2 := by
        have : ⌈x⌉ ≤ ⌊x⌋ + 1 := Int.ceil_le_floor_add_one x
        omega
      simp only [hk]
      rw [getIndex_nat _ _ (by omega) (by omega), getIndex_nat _ _ (by omega) (by omega)]
      have e1 : ((row.length : Int) - 2).toNat = row.length - 2 := by omega
      have e2 : ((row.length : Int) - 1).toNat = row.length - 2 + 1 := by omega
      simp only [e1, e2]
      rw [if_neg (by omega), show ((row.length : Int) - 1 - (row.length - 2)) = 1 by ring]
      simp only [Int.cast_one, div_one]
      rw [show (((row.length : Int) - 2 : Int) : ℚ) = ((row.length - 2 : ℕ) : ℚ) by push_cast [hn]; ring]
    · rw [if_neg h2]
      have hne : ⌈x⌉ ≠ ⌊x⌋ := by
        intro he
        refine h ⟨⌊x⌋, ?_, by omega, by omega⟩
        have : (⌊x⌋ : ℚ) = ⌈x⌉ := by rw [he]
        linarith
      have hce : ⌈x⌉ = ⌊x⌋ + 1 := by
        have h3 : ⌈x⌉ ≤ ⌊x⌋ + 1 := Int.ceil_le_floor_add_one x
        have h4 : ⌊x⌋ ≤ ⌈x⌉ := Int.floor_le_ceil x
        omega
      have hk : (max 0 (min ⌊x⌋ ((row.length : Int) - 2))).toNat = ⌊x⌋.toNat := by omega
      simp only [hk]
      rw [getIndex_nat _ _ (by omega) (by omega), getIndex_nat _ _ (by omega) (by omega)]
      have e2 : ⌈x⌉.toNat = ⌊x⌋.toNat + 1 := by omega
      simp only [e2]
      rw [if_neg (by omega), hce, show (⌊x⌋ + 1 - ⌊x⌋) = 1 by ring]
      simp only [Int.cast_one, div_one]
      rw [show ((⌊x⌋.toNat : ℕ) : ℚ) = (⌊x⌋ : ℚ) by
        rw [← Int.cast_natCast, Int.toNat_of_nonneg (by omega)]]

/-- one sample, when its time is an integer inside the waveform -/
theorem tCorSample_fails (row : List ℚ) (c : ℚ) (i : Nat) (z : ℤ) (h : (i : ℚ) - c = z) (h0 : 0 ≤ z) (h1 : z < row.length) :
    tCorSample row c i = .error .zeroDivision := by
  unfold tCorSample
  simp only [h, Int.floor_intCast, Int.ceil_intCast]
  rw [if_neg (by omega), if_neg (by omega)]
  simp only
  rw [getIndex_nat _ _ h0 h1]
  simp

theorem mapM_error {α β : Type} (f : α → Except Err β) (e : Err) (l : List α) (h1 : ∃ a ∈ l, f a = .error e)
    (h2 : ∀ a ∈ l, (∃ b, f a = .ok b) ∨ f a = .error e) : l.mapM f = .error e := by
  induction l with
  | nil => obtain ⟨a, ha, -⟩ := h1; cases ha
  | cons a l ih =>
    rw [List.mapM_cons]
    rcases h2 a (by simp) with ⟨b, hb⟩ | hb
    · have : ∃ a ∈ l, f a = .error e := by
        obtain ⟨a', ha', he⟩ := h1
        rcases List.mem_cons.1 ha' with rfl | ha'
        · rw [hb] at he; cases he
        · exact ⟨a', ha', he⟩
      rw [hb, ih this fun a ha => h2 a (by simp [ha])]
      rfl
    · rw [hb]; rfl

/-- C45 is false: a zero correction does not leave a waveform unchanged; every non-empty waveform makes it raise
`ZeroDivisionError`. -/
theorem C45_false (row : List ℚ) (h : row ≠ []) (rows : List (List ℚ)) (cs : List ℚ) :
    applyTCor (row :: rows) (0 :: cs) = .error .zeroDivision := by
  have hl := List.length_pos_iff.2 h
  have : tCorRow row 0 = .error .zeroDivision := by
    refine mapM_error _ _ _ ⟨0, by simp [hl], ?_⟩ ?_
    · exact tCorSample_fails row 0 0 0 (by simp) (le_refl _) (by omega)
    · intro i hi
      rw [List.mem_range] at hi
      exact Or.inr (tCorSample_fails row 0 i i (by simp) (by omega) (by omega))
  rw [applyTCor, this]

/-- for one pixel -/
theorem tCorRow_fails_iff (row : List ℚ) (c : ℚ) (hn : 2 ≤ row.length) :
    ((∃ z : ℤ, c = z ∧ |z| < row.length) → tCorRow row c = .error .zeroDivision) ∧
    ((¬ ∃ z : ℤ, c = z ∧ |z| < row.length) → ∃ out, tCorRow row c = .ok out) := by
  constructor
  · rintro ⟨z, rfl, hz⟩
    obtain ⟨hz1, hz2⟩ := abs_lt.1 hz
    refine mapM_error _ _ _ ?_ ?_
    · by_cases h0 : 0 ≤ z
      · exact ⟨z.toNat, by rw [List.mem_range]; omega,
          tCorSample_fails row z z.toNat 0 (by rw [← Int.cast_natCast, Int.toNat_of_nonneg h0]; simp) (le_refl _) (by omega)⟩
      · exact ⟨0, by rw [List.mem_range]; omega, tCorSample_fails row z 0 (-z) (by push_cast; ring) (by omega) (by omega)⟩
    · intro i _
      by_cases h : ∃ w : ℤ, (i : ℚ) - z = w ∧ 0 ≤ w ∧ w < row.length
      · obtain ⟨w, h1, h2, h3⟩ := h
        exact Or.inr (tCorSample_fails row z i w h1 h2 h3)
      · exact Or.inl ⟨_, tCorSample_ok row z i hn h⟩
  · intro h
    refine ⟨_, mapM_ok _ _ (fun i : Nat => linearAt row ((i : ℚ) - c)) fun i hi => tCorSample_ok row c i hn ?_⟩
    rintro ⟨w, h1, h2, h3⟩
    rw [List.mem_range] at hi
    refine h ⟨i - w, by push_cast; linarith, ?_⟩
    rw [abs_lt]; omega

/-- C45, what holds (missing: integral corrections smaller than the waveform): each corrected sample is the piecewise linear
waveform at the shifted time, extended linearly beyond the edges, for every pixel with its own correction. -/
theorem C45_partial (rows : List (List ℚ)) (cs : List ℚ) (hlen : rows.length ≤ cs.length) (hn : ∀ row ∈ rows, 2 ≤ row.length)
    (hc : ∀ (p : Nat) row c, rows[p]? = some row → cs[p]? = some c → ¬ ∃ z : ℤ, c = z ∧ |z| < row.length) :
    ∃ out, applyTCor rows cs = .ok out ∧ out.length = rows.length ∧
      ∀ (p : Nat) row c, rows[p]? = some row → cs[p]? = some c →
        out[p]? = some ((List.range row.length).map fun (i : Nat) => linearAt row ((i : ℚ) - c)) := by
  induction rows generalizing cs with
  | nil => exact ⟨[], rfl, rfl, fun p row c h => by simp at h⟩
  | cons row rows ih =>
    cases cs with
    | nil => simp at hlen
    | cons c cs =>
      obtain ⟨out, h1, h2, h3⟩ := ih cs (by simpa using hlen) (fun r hr => hn r (by simp [hr]))
        fun p r d hr hd => hc (p + 1) r d (by simpa using hr) (by simpa using hd)
      have hrow : tCorRow row c = .ok ((List.range row.length).map fun (i : Nat) => linearAt row ((i : ℚ) - c)) := by
        refine mapM_ok _ _ (fun i : Nat => linearAt row ((i : ℚ) - c)) fun i hi => tCorSample_ok row c i (hn row (by simp)) ?_
        rintro ⟨w, e1, e2, e3⟩
        rw [List.mem_range] at hi
        refine hc 0 row c rfl rfl ⟨i - w, by push_cast; linarith, ?_⟩
        rw [abs_lt]; omega
      refine ⟨_ :: out, by rw [applyTCor, hrow, h1], by simp [h2], ?_⟩
      intro p r d hr hd
      cases p with
      | zero => simp at hr hd; subst hr; subst hd; rfl
      | succ p => simpa using h3 p r d (by simpa using hr) (by simpa using hd)

/-- C45: the call fails exactly if some pixel has an integral correction smaller than its waveform, and then with `ZeroDivisionError`. -/
theorem C45_fails_iff (rows : List (List ℚ)) (cs : List ℚ) (hlen : rows.length ≤ cs.length) (hn : ∀ row ∈ rows, 2 ≤ row.length) :
    ((∃ (p : Nat) (row : List ℚ) (z : ℤ), rows[p]? = some row ∧ cs[p]? = some (z : ℚ) ∧ |z| < row.length) → applyTCor rows cs = .error .zeroDivision) ∧
    ((¬ ∃ (p : Nat) (row : List ℚ) (z : ℤ), rows[p]? = some row ∧ cs[p]? = some (z : ℚ) ∧ |z| < row.length) → ∃ out, applyTCor rows cs = .ok out) := by
  constructor
  · induction rows generalizing cs with
    | nil => rintro ⟨p, row, z, h, -⟩; simp at h
    | cons r rows ih =>
      cases cs with
      | nil => simp at hlen
      | cons c cs =>
        rintro ⟨p, row, z, h1, h2, h3⟩
        have hr := tCorRow_fails_iff r c (hn r (by simp))
        by_cases hz : ∃ z : ℤ, c = z ∧ |z| < r.length
        · rw [applyTCor, hr.1 hz]
        · obtain ⟨out, ho⟩ := hr.2 hz
          cases p with
          | zero =>
            simp only [List.getElem?_cons_zero, Option.some.injEq] at h1 h2
            exact absurd ⟨z, h2, by rw [h1]; exact h3⟩ hz
          | succ p =>
            rw [applyTCor, ho, ih cs (by simpa using hlen) (fun r hr => hn r (by simp [hr])) ⟨p, row, z, by simpa using h1, by simpa using h2, h3⟩]
  · intro h
    obtain ⟨out, ho, -⟩ := C45_partial rows cs hlen hn fun p row c h1 h2 ⟨z, h3, h4⟩ => h ⟨p, row, z, h1, by rw [h2, h3], h4⟩
    exact ⟨out, ho⟩

/-- the second of two pixels has a correction of one sample -/
example : applyTCor [[0, 2, 6], [0, 2, 6]] [1 / 2, -1] = .error .zeroDivision :=
  (C45_fails_iff [[0, 2, 6], [0, 2, 6]] [1 / 2, -1] (by simp) (by simp)).1 ⟨1, [0, 2, 6], -1, rfl, by simp, by simp⟩

/-- for one pixel -/
theorem tCorRow_affine (a b c : ℚ) (n : Nat) (out : List ℚ) (hn : 2 ≤ n)
    (h : tCorRow ((List.range n).map fun (j : Nat) => a + b * (j : ℚ)) c = .ok out) :
    out = (List.range n).map fun (i : Nat) => a + b * ((i : ℚ) - c) := by
  set row := (List.range n).map fun (j : Nat) => a + b * (j : ℚ) with hrow
  have hl : row.length = n := by simp [hrow]
  have hno : ¬ ∃ z : ℤ, c = z ∧ |z| < row.length := by
    intro hz
    rw [(tCorRow_fails_iff row c (by omega)).1 hz] at h
    cases h
  obtain ⟨o, h1, -, h3⟩ := C45_partial [row] [c] (by simp) (by simp [hl, hn])
    (by
      intro p r d hr hd
      cases p with
      | zero => simp at hr hd; subst hr; subst hd; exact hno
      | succ p => simp at hr)
  rw [applyTCor, h] at h1
  simp only [applyTCor, Except.ok.injEq] at h1
  subst h1
  have := h3 0 row c rfl rfl
  simp only [List.getElem?_cons_zero, Option.some.injEq] at this
  rw [this, hl]
  refine List.map_congr_left fun i hi => ?_
  unfold linearAt
  simp only [hl]
  set k := (max 0 (min ⌊(i : ℚ) - c⌋ ((n : Int) - 2))).toNat with hk
  have hk1 : k + 1 < n := by omega
  have e1 : row.getD k 0 = a + b * (k : ℚ) := by
    rw [hrow]
    simp [List.getD_eq_getElem?_getD, List.getElem?_range (show k < n by omega)]
  have e2 : row.getD (k + 1) 0 = a + b * ((k + 1 : ℕ) : ℚ) := by
    rw [hrow]
    simp [List.getD_eq_getElem?_getD, List.getElem?_range hk1]
  rw [e1, e2]
  push_cast
  ring

/-- C45: if the call succeeds, an affine waveform of any pixel is shifted exactly, inside and outside its range. -/
theorem C45_affine (rows : List (List ℚ)) (cs : List ℚ) (out : List (List ℚ)) (h : applyTCor rows cs = .ok out) (p : Nat) (row : List ℚ) (a b c : ℚ)
    (hn : 2 ≤ row.length) (hr : rows[p]? = some row) (hc : cs[p]? = some c) (ha : ∀ (j : Nat) (v : ℚ), row[j]? = some v → v = a + b * j) :
    ∃ o, out[p]? = some o ∧ o.length = row.length ∧ ∀ (i : Nat) (v : ℚ), o[i]? = some v → v = a + b * (i - c) := by
  have hrow : row = (List.range row.length).map fun (j : Nat) => a + b * (j : ℚ) := by
    refine List.ext_getElem? fun j => ?_
    rw [List.getElem?_map]
    by_cases hj : j < row.length
    · rw [List.getElem?_range hj, List.getElem?_eq_getElem hj, Option.map_some, ha j _ (List.getElem?_eq_getElem hj)]
    · rw [List.getElem?_eq_none (by omega), List.getElem?_eq_none (by simpa using hj)]; rfl
  induction rows generalizing cs out p with
  | nil => simp at hr
  | cons r rows ih =>
    cases cs with
    | nil => simp at hc
    | cons d cs =>
      rw [applyTCor] at h
      cases h1 : tCorRow r d with
      | error e => rw [h1] at h; cases h
      | ok o =>
        rw [h1] at h
        cases h2 : applyTCor rows cs with
        | error e => rw [h2] at h; cases h
        | ok os =>
          rw [h2] at h
          simp only [Except.ok.injEq] at h
          subst h
          cases p with
          | zero =>
            simp only [List.getElem?_cons_zero, Option.some.injEq] at hr hc
            subst hr
            subst hc
            have h1' := h1
            rw [hrow] at h1'
            have := tCorRow_affine a b d r.length o hn h1'
            refine ⟨o, rfl, by rw [this]; simp, fun i v hv => ?_⟩
            rw [this, List.getElem?_map] at hv
            by_cases hi : i < r.length
            · rw [List.getElem?_range hi, Option.map_some, Option.some.injEq] at hv
              exact hv.symm
            · rw [List.getElem?_eq_none (by simpa using hi)] at hv; cases hv
          | succ p => exact ih cs os h2 p (by simpa using hr) (by simpa using hc)

/-- 1, 3, 5 shifted by half a sample -/
example : applyTCor [[0, 2, 6], [1, 3, 5]] [1 / 2, 1 / 2] = .ok [[-1, 1, 4], [0, 2, 4]] ∧ ∀ (j : Nat) (v : ℚ), [(1 : ℚ), 3, 5][j]? = some v → v = 1 + 2 * j := by
  refine ⟨by decide +kernel, fun j v h => ?_⟩
  match j, h with
  | 0, h => simp at h; rw [← h]; norm_num
  | 1, h => simp at h; rw [← h]; norm_num
  | 2, h => simp at h; rw [← h]; norm_num
  | j + 3, h => simp at h

/-- a correction of half a sample, with extrapolation at the left edge -/
example : applyTCor [[0, 2, 6]] [1 / 2] = .ok [[-1, 1, 4]] := by decide +kernel

example : ¬ ∃ z : ℤ, (1 / 2 : ℚ) = z ∧ |z| < 3 := by
  rintro ⟨z, h, -⟩
  have h2 : ((1 : ℤ) : ℚ) = ((2 * z : ℤ) : ℚ) := by push_cast; linarith
  have := Int.cast_injective h2
  omega

end Verif.Props
