import Verif.Props.Spectra
import Mathlib.Tactic.Ring
import Mathlib.Tactic.Linarith
import Mathlib.Tactic.FieldSimp
import Mathlib.Tactic.LinearCombination

/-! # C64: the SiPM spectrum with crosstalk -/

namespace Verif.Props

open Verif.Py Verif.Model Verif.Spec Verif.Lemmas MeasureTheory

/-! ## The distribution of the number of fired cells, without the cut on the number of initial ones -/

/-- a multiple of the probability of `n + 1` fired cells: the sum over the number `j + 1` of initial ones -/
noncomputable def fired (c x : ℝ) (n : Nat) : ℝ := ∑ j ∈ Finset.range (n + 1), x ^ (j + 1) / ((j + 1).factorial : ℝ) * c ^ (n - j) * (n.choose j : ℝ)

theorem fired_nonneg (c x : ℝ) (hc : 0 ≤ c) (hx : 0 ≤ x) (n : Nat) : 0 ≤ fired c x n := by
  unfold fired
  exact Finset.sum_nonneg fun j _ => by positivity

/-- more terms do not change the sum -/
theorem fired_extend (c x : ℝ) (n N : Nat) (h : n + 1 ≤ N) :
    fired c x n = ∑ j ∈ Finset.range N, x ^ (j + 1) / ((j + 1).factorial : ℝ) * c ^ (n - j) * (n.choose j : ℝ) := by
  unfold fired
  refine Finset.sum_subset (Finset.range_mono h) fun j _ hj => ?_
  rw [Finset.mem_range, not_lt] at hj
  rw [Nat.choose_eq_zero_of_lt (by omega)]
  simp

theorem choose_identity (m j : Nat) : ((m : ℝ) + 3) * ((m + 2).choose (j + 1) : ℝ) + (m + 1) * (m.choose (j + 1) : ℝ) =
    2 * ((m : ℝ) + 2) * ((m + 1).choose (j + 1) : ℝ) + (j + 2) * ((m + 1).choose j : ℝ) := by
  have a1 : ((m + 2).choose (j + 1) : ℝ) = ((m + 1).choose j : ℝ) + ((m + 1).choose (j + 1) : ℝ) := by
    rw [← Nat.cast_add, ← Nat.choose_succ_succ]
  have a2 : ((m + 1).choose (j + 1) : ℝ) * (j + 1) = (m + 1 - j) * ((m + 1).choose j : ℝ) := by
    rcases Nat.lt_or_ge (m + 1) j with h | h
    · rw [Nat.choose_eq_zero_of_lt h, Nat.choose_eq_zero_of_lt (by omega)]; simp
    · have := Nat.choose_succ_right_eq (m + 1) j
      have := congrArg (fun n : Nat => (n : ℝ)) this
      push_cast [h] at this
      linarith
  have a3 : ((m : ℝ) + 1) * (m.choose (j + 1) : ℝ) = (m - j) * ((m + 1).choose (j + 1) : ℝ) := by
    rcases Nat.lt_or_ge m j with h | h
    · rw [Nat.choose_eq_zero_of_lt (show m + 1 < j + 1 by omega), Nat.choose_eq_zero_of_lt (by omega)]; simp
    · have := Nat.choose_mul_succ_eq m (j + 1)
      have := congrArg (fun n : Nat => (n : ℝ)) this
      rw [show m + 1 - (j + 1) = m - j by omega] at this
      push_cast [h] at this
      linarith
  rw [a1]
  linear_combination a3 - a2

/-- the recurrence between the probabilities of neighbouring numbers of cells -/
theorem fired_step (c x : ℝ) (m : Nat) :
    ((m : ℝ) + 3) * fired c x (m + 2) = (2 * ((m : ℝ) + 2) * c + x) * fired c x (m + 1) - (m + 1) * c ^ 2 * fired c x m := by
  have e1 : x * fired c x (m + 1) = ∑ j ∈ Finset.range (m + 2), (j + 2) * (x ^ (j + 2) / ((j + 2).factorial : ℝ)) * c ^ (m + 1 - j) * ((m + 1).choose j : ℝ) := by
    unfold fired
    rw [Finset.mul_sum]
    refine Finset.sum_congr rfl fun j _ => ?_
    rw [Nat.factorial_succ (j + 1)]
    have : ((j + 1).factorial : ℝ) ≠ 0 := by positivity
    push_cast
    field_simp
    ring
  rw [add_mul (2 * ((m : ℝ) + 2) * c) x, e1, fired_extend c x (m + 1) (m + 3) (by omega), fired_extend c x m (m + 3) (by omega)]
  unfold fired
  rw [Finset.sum_range_succ' _ (m + 2), Finset.sum_range_succ' _ (m + 2), Finset.sum_range_succ' _ (m + 2), mul_add ((m : ℝ) + 3), mul_add (2 * ((m : ℝ) + 2) * c), mul_add (((m : ℝ) + 1) * c ^ 2), Finset.mul_sum, Finset.mul_sum, Finset.mul_sum]
  have hz : ((m : ℝ) + 3) * (x ^ (0 + 1) / ((0 + 1).factorial : ℝ) * c ^ (m + 2 - 0) * ((m + 2).choose 0 : ℝ)) =
      2 * ((m : ℝ) + 2) * c * (x ^ (0 + 1) / ((0 + 1).factorial : ℝ) * c ^ (m + 1 - 0) * ((m + 1).choose 0 : ℝ)) -
        (m + 1) * c ^ 2 * (x ^ (0 + 1) / ((0 + 1).factorial : ℝ) * c ^ (m - 0) * (m.choose 0 : ℝ)) := by
    simp only [Nat.sub_zero, Nat.choose_zero_right, Nat.cast_one, mul_one, pow_add]
    ring
  have hs : ∑ j ∈ Finset.range (m + 2), ((m : ℝ) + 3) * (x ^ (j + 1 + 1) / ((j + 1 + 1).factorial : ℝ) * c ^ (m + 2 - (j + 1)) * ((m + 2).choose (j + 1) : ℝ)) =
      (∑ j ∈ Finset.range (m + 2), 2 * ((m : ℝ) + 2) * c * (x ^ (j + 1 + 1) / ((j + 1 + 1).factorial : ℝ) * c ^ (m + 1 - (j + 1)) * ((m + 1).choose (j + 1) : ℝ))) +
      (∑ j ∈ Finset.range (m + 2), (j + 2) * (x ^ (j + 2) / ((j + 2).factorial : ℝ)) * c ^ (m + 1 - j) * ((m + 1).choose j : ℝ)) -
      ∑ j ∈ Finset.range (m + 2), ((m : ℝ) + 1) * c ^ 2 * (x ^ (j + 1 + 1) / ((j + 1 + 1).factorial : ℝ) * c ^ (m - (j + 1)) * (m.choose (j + 1) : ℝ)) := by
    rw [← Finset.sum_add_distrib, ← Finset.sum_sub_distrib]
    refine Finset.sum_congr rfl fun j _ => ?_
    have b1 : c ^ (m + 2 - (j + 1)) = c ^ (m + 1 - j) := by congr 1; omega
    have b2 : c * (c ^ (m + 1 - (j + 1)) * ((m + 1).choose (j + 1) : ℝ)) = c ^ (m + 1 - j) * ((m + 1).choose (j + 1) : ℝ) := by
      rcases Nat.lt_or_ge m j with h | h
      · rw [Nat.choose_eq_zero_of_lt (show m + 1 < j + 1 by omega)]; simp
      · rw [← mul_assoc, ← pow_succ']; congr 2; omega
    have b3 : c ^ 2 * (c ^ (m - (j + 1)) * (m.choose (j + 1) : ℝ)) = c ^ (m + 1 - j) * (m.choose (j + 1) : ℝ) := by
      rcases Nat.lt_or_ge m (j + 1) with h | h
      · rw [Nat.choose_eq_zero_of_lt h]; simp
      · rw [← mul_assoc, ← pow_add]; congr 2; omega
    rw [b1]
    obtain ⟨y, hy⟩ : ∃ y : ℝ, y = x ^ (j + 2) / ((j + 2).factorial : ℝ) := ⟨_, rfl⟩
    rw [show x ^ (j + 1 + 1) / ((j + 1 + 1).factorial : ℝ) = y from hy.symm]
    have hc := choose_identity m j
    linear_combination (y * c ^ (m + 1 - j)) * hc - 2 * ((m : ℝ) + 2) * y * b2 + ((m : ℝ) + 1) * y * b3
  rw [hs, hz]
  ring

/-- from one fired cell on, each further one is less probable by at least the factor `c + x / 2` -/
theorem fired_ratio (c x : ℝ) (hc : 0 ≤ c) (hx : 0 ≤ x) (n : Nat) : fired c x (n + 1) ≤ (c + x / 2) * fired c x n := by
  induction n with
  | zero =>
    have : fired c x 1 = (c + x / 2) * fired c x 0 := by
      unfold fired
      simp [Finset.sum_range_succ]
      ring
    exact this.le
  | succ m ih =>
    have hstep := fired_step c x m
    have h0 := fired_nonneg c x hc hx m
    have h1 := fired_nonneg c x hc hx (m + 1)
    obtain ⟨r, hr⟩ : ∃ r, r = c + x / 2 := ⟨_, rfl⟩
    rw [← hr] at ih ⊢
    have hr0 : 0 ≤ r := by rw [hr]; positivity
    have key : (2 * c - r) * fired c x (m + 1) ≤ c ^ 2 * fired c x m := by
      rcases le_or_gt (2 * c - r) 0 with h | h
      · have := mul_nonneg (sq_nonneg c) h0
        have := mul_nonneg (neg_nonneg.2 h) h1
        linarith
      · calc (2 * c - r) * fired c x (m + 1) ≤ (2 * c - r) * (r * fired c x m) := mul_le_mul_of_nonneg_left ih h.le
          _ = (c ^ 2 - (c - r) ^ 2) * fired c x m := by ring
          _ ≤ c ^ 2 * fired c x m := mul_le_mul_of_nonneg_right (by nlinarith [sq_nonneg (c - r)]) h0
    have hm : (0 : ℝ) < (m : ℝ) + 3 := by positivity
    have hm1 : (0 : ℝ) ≤ (m : ℝ) + 1 := by positivity
    have : ((m : ℝ) + 3) * fired c x (m + 2) ≤ ((m : ℝ) + 3) * (r * fired c x (m + 1)) := by
      rw [hstep]
      have := mul_le_mul_of_nonneg_left key hm1
      have hx2 : x * fired c x (m + 1) = 2 * (r - c) * fired c x (m + 1) := congrArg (· * fired c x (m + 1)) (show x = 2 * (r - c) by rw [hr]; ring)
      linarith
    exact le_of_mul_le_mul_left this hm

theorem fired_pow (c x : ℝ) (hc : 0 ≤ c) (hx : 0 ≤ x) (n k : Nat) : fired c x (n + k) ≤ (c + x / 2) ^ k * fired c x n := by
  induction k with
  | zero => simp
  | succ k ih =>
    have h := fired_ratio c x hc hx (n + k)
    rw [← Nat.add_assoc]
    refine h.trans ?_
    rw [pow_succ', mul_assoc]
    exact mul_le_mul_of_nonneg_left ih (by positivity)

/-- the probabilities from some number of cells on -/
theorem fired_tail (c x : ℝ) (hc : 0 ≤ c) (hx : 0 ≤ x) (h1 : c + x / 2 < 1) (t N : Nat) :
    ∑ k ∈ Finset.range N, fired c x k ≤ ∑ k ∈ Finset.range t, fired c x k + fired c x t / (1 - (c + x / 2)) := by
  have hr0 : 0 ≤ c + x / 2 := by positivity
  have hft := fired_nonneg c x hc hx t
  rcases Nat.le_total N t with h | h
  · have := Finset.sum_le_sum_of_subset_of_nonneg (f := fun k => fired c x k) (Finset.range_mono h) fun k _ _ => fired_nonneg c x hc hx k
    have : 0 ≤ fired c x t / (1 - (c + x / 2)) := div_nonneg hft (by linarith)
    linarith
  · obtain ⟨d, rfl⟩ := Nat.exists_eq_add_of_le h
    rw [Finset.sum_range_add]
    have hg := (hasSum_geometric_of_lt_one hr0 h1).mul_right (fired c x t)
    have hle : ∑ k ∈ Finset.range d, fired c x (t + k) ≤ (1 - (c + x / 2))⁻¹ * fired c x t :=
      (Finset.sum_le_sum fun k _ => fired_pow c x hc hx t k).trans
        (sum_le_hasSum (Finset.range d) (fun k _ => by positivity) hg)
    rw [div_eq_inv_mul]
    linarith

/-! ## The sum of all probabilities -/

/-- the probability of `n + 1` fired cells as a mixture over the number of initial ones -/
theorem fired_mixture (c lam : ℝ) (hl : 0 < lam) (n N : Nat) (h : n + 1 ≤ N) :
    Real.exp (-lam) * fired c (lam * (1 - c)) n = ∑ j ∈ Finset.range N, poisson ((j + 1 : ℕ) : ℤ) lam * negBinom c n j := by
  rw [fired_extend c _ n N h, Finset.mul_sum]
  refine Finset.sum_congr rfl fun j _ => ?_
  rw [C43_poisson (j + 1) lam hl]
  unfold negBinom
  rw [mul_pow]
  ring

theorem negBinom_hasSum (c : ℝ) (h0 : 0 ≤ c) (h1 : c < 1) (i : Nat) : HasSum (fun k => negBinom c k i) 1 := by
  have hpos : 0 < 1 - c := by linarith
  have hs := hasSum_choose_mul_geometric_of_norm_lt_one (𝕜 := ℝ) i (r := c) (by rw [Real.norm_eq_abs, abs_of_nonneg h0]; exact h1)
  have hs2 : HasSum (fun n : ℕ => negBinom c (n + i) i) 1 := by
    have := hs.mul_left ((1 - c) ^ (i + 1))
    have e : (1 - c) ^ (i + 1) * (1 / (1 - c) ^ (i + 1)) = 1 := by field_simp
    rw [e] at this
    refine this.congr_fun fun n => ?_
    unfold negBinom
    rw [Nat.add_sub_cancel]
    ring
  have := (hasSum_nat_add_iff (f := fun k => negBinom c k i) i).1 hs2
  rw [Finset.sum_eq_zero, add_zero] at this
  · exact this
  · intro k hk
    rw [Finset.mem_range] at hk
    simp [negBinom, Nat.choose_eq_zero_of_lt hk]

/-- no probability is lost: whatever bounds all partial sums is at least the probability of some photo-electron -/
theorem fired_total (c lam : ℝ) (h0 : 0 ≤ c) (hc1 : c < 1) (hl : 0 < lam) (S : ℝ) (hS : ∀ N, ∑ k ∈ Finset.range N, fired c (lam * (1 - c)) k ≤ S) :
    1 - Real.exp (-lam) ≤ Real.exp (-lam) * S := by
  obtain ⟨hp, hsum⟩ := C43_poisson_sum lam hl
  have hJ : ∀ J : Nat, ∑ j ∈ Finset.range J, poisson ((j + 1 : ℕ) : ℤ) lam ≤ Real.exp (-lam) * S := by
    intro J
    have hlim : Filter.Tendsto (fun N => ∑ k ∈ Finset.range N, ∑ j ∈ Finset.range J, poisson ((j + 1 : ℕ) : ℤ) lam * negBinom c k j) Filter.atTop
        (nhds (∑ j ∈ Finset.range J, poisson ((j + 1 : ℕ) : ℤ) lam)) := by
      have hs : HasSum (fun k => ∑ j ∈ Finset.range J, poisson ((j + 1 : ℕ) : ℤ) lam * negBinom c k j) (∑ j ∈ Finset.range J, poisson ((j + 1 : ℕ) : ℤ) lam * 1) :=
        hasSum_sum fun j _ => (negBinom_hasSum c h0 hc1 j).mul_left _
      simp only [mul_one] at hs
      exact hs.tendsto_sum_nat
    refine le_of_tendsto hlim (Filter.Eventually.of_forall fun N => ?_)
    refine le_trans ?_ (mul_le_mul_of_nonneg_left (hS N) (Real.exp_pos _).le)
    rw [Finset.mul_sum]
    refine Finset.sum_le_sum fun k _ => ?_
    rw [fired_mixture c lam hl k (max (k + 1) J) (le_max_left _ _)]
    exact Finset.sum_le_sum_of_subset_of_nonneg (Finset.range_mono (le_max_right _ _)) fun j _ _ => mul_nonneg (hp (j + 1)).le (negBinom_nonneg c h0 hc1.le k j)
  have hlim : Filter.Tendsto (fun J => ∑ j ∈ Finset.range J, poisson ((j + 1 : ℕ) : ℤ) lam) Filter.atTop (nhds (1 - Real.exp (-lam))) := by
    have := (hasSum_nat_add_iff' 1).2 hsum
    rw [Finset.sum_range_one, poisson_zero lam hl] at this
    exact this.tendsto_sum_nat
  exact le_of_tendsto hlim (Filter.Eventually.of_forall hJ)

theorem fired_complete (c lam : ℝ) (h0 : 0 ≤ c) (hc1 : c < 1) (hl : 0 < lam) (h1 : c + lam * (1 - c) / 2 < 1) (t : Nat) :
    1 - Real.exp (-lam) ≤ Real.exp (-lam) * (∑ k ∈ Finset.range t, fired c (lam * (1 - c)) k + fired c (lam * (1 - c)) t / (1 - (c + lam * (1 - c) / 2))) :=
  fired_total c lam h0 hc1 hl _ (fired_tail c _ h0 (mul_nonneg hl.le (by linarith)) h1 t)

/-! ## The cut on the number of initial cells -/

/-- the probabilities below the cut add up to little, once the light level is so much smaller than the first number below the cut -/
theorem cut_mass_of (lam : ℝ) (hl : 0 < lam) (K : ℝ) (hK : 0 ≤ K)
    (hcutoff : ∀ J : Nat, poisson ((J + 1 : ℕ) : ℤ) lam < 1e-4 → lam < J + 2 ∧ ((J : ℝ) + 2) ≤ K * (J + 2 - lam)) (N : Nat) :
    ∑ j ∈ Finset.range N, (if poisson ((j + 1 : ℕ) : ℤ) lam < 1e-4 then poisson ((j + 1 : ℕ) : ℤ) lam else 0) ≤ 1e-4 * K := by
  obtain ⟨hp, hsum⟩ := C43_poisson_sum lam hl
  by_cases hex : ∃ j, poisson ((j + 1 : ℕ) : ℤ) lam < 1e-4
  · classical
    obtain ⟨J, hJ⟩ : ∃ J, J = Nat.find hex := ⟨_, rfl⟩
    have hcut : poisson ((J + 1 : ℕ) : ℤ) lam < 1e-4 := by rw [hJ]; exact Nat.find_spec hex
    obtain ⟨hJl, hJK⟩ := hcutoff J hcut
    have hmin : ∀ j < J, ¬ poisson ((j + 1 : ℕ) : ℤ) lam < 1e-4 := fun j hj => Nat.find_min hex (by rw [← hJ]; exact hj)
    have htail := poisson_tail (J + 1) lam hl (by push_cast; linarith)
    have hfrac : (((J + 1 : ℕ) : ℝ) + 1) / (((J + 1 : ℕ) : ℝ) + 1 - lam) ≤ K := by
      push_cast
      rw [div_le_iff₀ (by linarith)]
      linarith
    have hbound : 1 - ∑ i ∈ Finset.range (J + 1), poisson (i : ℤ) lam ≤ 1e-4 * K := by
      refine htail.trans ?_
      exact mul_le_mul hcut.le hfrac (div_nonneg (by positivity) (by push_cast; linarith)) (by norm_num)
    refine le_trans ?_ hbound
    have htail' : HasSum (fun i : ℕ => poisson ((i + (J + 1) : ℕ) : ℤ) lam) (1 - ∑ i ∈ Finset.range (J + 1), poisson (i : ℤ) lam) := (hasSum_nat_add_iff' (J + 1)).2 hsum
    have hle := sum_le_hasSum (Finset.range N) (fun i _ => (hp (i + (J + 1))).le) htail'
    refine le_trans ?_ hle
    calc ∑ j ∈ Finset.range N, (if poisson ((j + 1 : ℕ) : ℤ) lam < 1e-4 then poisson ((j + 1 : ℕ) : ℤ) lam else 0)
        ≤ ∑ j ∈ Finset.range (J + N), (if poisson ((j + 1 : ℕ) : ℤ) lam < 1e-4 then poisson ((j + 1 : ℕ) : ℤ) lam else 0) :=
          Finset.sum_le_sum_of_subset_of_nonneg (Finset.range_mono (by omega)) fun j _ _ => by split_ifs <;> [exact (hp (j + 1)).le; exact le_refl _]
      _ = ∑ j ∈ Finset.range N, (if poisson ((J + j + 1 : ℕ) : ℤ) lam < 1e-4 then poisson ((J + j + 1 : ℕ) : ℤ) lam else 0) := by
          rw [Finset.sum_range_add, Finset.sum_eq_zero, zero_add]
          intro j hj
          rw [if_neg (hmin j (Finset.mem_range.1 hj))]
      _ ≤ _ := Finset.sum_le_sum fun j _ => by
          rw [show j + (J + 1) = J + j + 1 by omega]
          split_ifs
          · exact le_refl _
          · exact (hp (J + j + 1)).le
  · rw [Finset.sum_eq_zero]
    · positivity
    · intro j _
      rw [if_neg fun h => hex ⟨j, h⟩]

theorem cut_mass (lam : ℝ) (hl : 0 < lam) (hl1 : lam ≤ 1) (N : Nat) :
    ∑ j ∈ Finset.range N, (if poisson ((j + 1 : ℕ) : ℤ) lam < 1e-4 then poisson ((j + 1 : ℕ) : ℤ) lam else 0) ≤ 2e-4 := by
  refine (cut_mass_of lam hl 2 (by norm_num) (fun J _ => ?_) N).trans (by norm_num)
  have : (0 : ℝ) ≤ J := by positivity
  constructor <;> linarith

/-- how far the weights are from the probabilities -/
theorem weight_gap (c lam : ℝ) (h0 : 0 ≤ c) (h1 : c ≤ 1) (hl : 0 < lam) (k N : Nat) (hk : k + 1 ≤ N) :
    Real.exp (-lam) * fired c (lam * (1 - c)) k - gentileWeight c lam (k + 1) =
      ∑ j ∈ Finset.range N, (if poisson ((j + 1 : ℕ) : ℤ) lam < 1e-4 then poisson ((j + 1 : ℕ) : ℤ) lam else 0) * negBinom c k j := by
  have hw : gentileWeight c lam (k + 1) = ∑ j ∈ Finset.range N, (if poisson ((j + 1 : ℕ) : ℤ) lam < 1e-4 then 0 else poisson ((j + 1 : ℕ) : ℤ) lam * negBinom c k j) := by
    unfold gentileWeight
    rw [list_range_sum, ← Finset.sum_subset (s₁ := Finset.range (k + 1)) (Finset.range_mono hk) fun j _ hj => by
      rw [Finset.mem_range, not_lt] at hj
      unfold negBinom
      rw [Nat.choose_eq_zero_of_lt (by omega)]
      simp]
    refine Finset.sum_congr rfl fun j hj => ?_
    rw [Finset.mem_range] at hj
    have hb : binom (((k + 1 : ℕ) : ℤ) - 1) (((j + 1 : ℕ) : ℤ) - 1) = (k.choose j : ℝ) := by
      rw [← C43_binom k j (by omega)]
      congr 1 <;> push_cast <;> ring
    unfold gentileTerm
    by_cases hc : poisson ((j + 1 : ℕ) : ℤ) lam < 1e-4
    · rw [if_pos hc, if_pos hc]
    · rw [if_neg hc, if_neg hc, hb, Nat.add_sub_add_right]
      unfold negBinom
      ring
  rw [hw, fired_mixture c lam hl k N hk, ← Finset.sum_sub_distrib]
  refine Finset.sum_congr rfl fun j _ => ?_
  split_ifs <;> ring

/-- the weights together miss little of the probabilities -/
theorem weights_close_of (c lam δ : ℝ) (h0 : 0 ≤ c) (h1 : c ≤ 1) (hl : 0 < lam) (t : Nat)
    (hδ : ∑ j ∈ Finset.range t, (if poisson ((j + 1 : ℕ) : ℤ) lam < 1e-4 then poisson ((j + 1 : ℕ) : ℤ) lam else 0) ≤ δ) :
    Real.exp (-lam) * ∑ k ∈ Finset.range t, fired c (lam * (1 - c)) k ≤ ∑ k ∈ Finset.range t, gentileWeight c lam (k + 1) + δ := by
  have hp : ∀ i : Nat, 0 < poisson ((i + 1 : ℕ) : ℤ) lam := fun i => Real.exp_pos _
  have hq : ∀ j : Nat, 0 ≤ (if poisson ((j + 1 : ℕ) : ℤ) lam < 1e-4 then poisson ((j + 1 : ℕ) : ℤ) lam else 0) := fun j => by
    split_ifs
    · exact (hp j).le
    · exact le_refl _
  have e : Real.exp (-lam) * ∑ k ∈ Finset.range t, fired c (lam * (1 - c)) k - ∑ k ∈ Finset.range t, gentileWeight c lam (k + 1) =
      ∑ j ∈ Finset.range t, (if poisson ((j + 1 : ℕ) : ℤ) lam < 1e-4 then poisson ((j + 1 : ℕ) : ℤ) lam else 0) * ∑ k ∈ Finset.range t, negBinom c k j := by
    rw [Finset.mul_sum, ← Finset.sum_sub_distrib]
    rw [Finset.sum_congr rfl fun k hk => weight_gap c lam h0 h1 hl k t (by rw [Finset.mem_range] at hk; omega)]
    rw [Finset.sum_comm]
    exact Finset.sum_congr rfl fun j _ => by rw [Finset.mul_sum]
  have hle : ∑ j ∈ Finset.range t, (if poisson ((j + 1 : ℕ) : ℤ) lam < 1e-4 then poisson ((j + 1 : ℕ) : ℤ) lam else 0) * ∑ k ∈ Finset.range t, negBinom c k j ≤ δ := by
    refine le_trans (Finset.sum_le_sum fun j _ => ?_) hδ
    have := mul_le_mul_of_nonneg_left (negBinom_sum c h0 h1 t j) (hq j)
    rwa [mul_one] at this
  linarith

theorem weights_close (c lam : ℝ) (h0 : 0 ≤ c) (h1 : c ≤ 1) (hl : 0 < lam) (hl1 : lam ≤ 1) (t : Nat) :
    Real.exp (-lam) * ∑ k ∈ Finset.range t, fired c (lam * (1 - c)) k ≤ ∑ k ∈ Finset.range t, gentileWeight c lam (k + 1) + 2e-4 :=
  weights_close_of c lam _ h0 h1 hl t (cut_mass lam hl hl1 t)

/-- one weight misses little of its probability -/
theorem weight_close_of (c lam δ : ℝ) (h0 : 0 ≤ c) (h1 : c ≤ 1) (hl : 0 < lam) (t : Nat)
    (hδ : ∑ j ∈ Finset.range (t + 1), (if poisson ((j + 1 : ℕ) : ℤ) lam < 1e-4 then poisson ((j + 1 : ℕ) : ℤ) lam else 0) ≤ δ) :
    Real.exp (-lam) * fired c (lam * (1 - c)) t ≤ gentileWeight c lam (t + 1) + δ := by
  have hk : ∀ k ∈ Finset.range (t + 1), 0 ≤ Real.exp (-lam) * fired c (lam * (1 - c)) k - gentileWeight c lam (k + 1) := by
    intro k hk
    rw [weight_gap c lam h0 h1 hl k (t + 1) (by rw [Finset.mem_range] at hk; omega)]
    refine Finset.sum_nonneg fun j _ => mul_nonneg ?_ (negBinom_nonneg c h0 h1 k j)
    split_ifs
    · exact (Real.exp_pos _).le
    · exact le_refl _
  have h := Finset.single_le_sum hk (Finset.mem_range.2 (Nat.lt_succ_self t))
  rw [Finset.sum_sub_distrib, ← Finset.mul_sum] at h
  have := weights_close_of c lam δ h0 h1 hl (t + 1) hδ
  linarith

/-- C64 for the SiPM spectrum with crosstalk: it integrates to at least 0.99 for an average of up to 1 photo-electron and a crosstalk probability of up to 0.9.
(Missing from the full claim: more light, see `C64_no_crosstalk_partial` and `C64_false`, and more crosstalk, see `C64_all_crosstalk`.) -/
theorem C64_crosstalk_partial (eped epedSigma spe speSigma opct lam : ℝ) (hs : 0 < epedSigma) (hl : 0 < lam) (hl1 : lam ≤ 1) (h0 : 0 ≤ opct) (h1 : opct ≤ 0.9) :
    0.99 ≤ ∫ x, gentileSpe eped epedSigma spe speSigma opct lam x := by
  have hc1 : opct < 1 := by norm_num at h1; linarith
  unfold gentileSpe
  rw [(spectrum_integral _ _ _ _ _ _ hs).2]
  obtain ⟨t, ht, e, hb⟩ := peaks_cells (gentileWeight opct lam)
  rw [e, List.map_map]
  simp only [Function.comp_def]
  rw [list_range_sum (fun i => gentileWeight opct lam (i + 1)) t]
  have hx : 0 ≤ lam * (1 - opct) := mul_nonneg hl.le (by linarith)
  have hx1 : lam * (1 - opct) ≤ 1 - opct := by nlinarith
  obtain ⟨r, hr⟩ : ∃ r, r = opct + lam * (1 - opct) / 2 := ⟨_, rfl⟩
  have hr0 : 0 ≤ r := by rw [hr]; positivity
  have hr1 : r ≤ 0.95 := by norm_num at h1 ⊢; linarith
  have hr1' : r < 1 := by norm_num at hr1; linarith
  have hcomp := fired_complete opct lam h0 hc1 hl (by rw [← hr]; exact hr1') t
  rw [← hr, mul_add] at hcomp
  have hexp := Real.exp_pos (-lam)
  have hclose := weights_close opct lam h0 hc1.le hl hl1 t
  have hft := fired_nonneg opct _ h0 hx t
  have hrest : Real.exp (-lam) * (fired opct (lam * (1 - opct)) t / (1 - r)) ≤ 0.009 := by
    rcases Nat.lt_or_eq_of_le ht with hlt | rfl
    · have hsmall := (hb hlt).1
      have hnext := weights_close opct lam h0 hc1.le hl hl1 (t + 1)
      have hP : Real.exp (-lam) * fired opct (lam * (1 - opct)) t ≤ 3e-4 := by
        have hgap : Real.exp (-lam) * fired opct (lam * (1 - opct)) t - gentileWeight opct lam (t + 1) ≤ 2e-4 := by
          have hk : ∀ k ∈ Finset.range (t + 1), 0 ≤ Real.exp (-lam) * fired opct (lam * (1 - opct)) k - gentileWeight opct lam (k + 1) := by
            intro k hk
            rw [weight_gap opct lam h0 hc1.le hl k (t + 1) (by rw [Finset.mem_range] at hk; omega)]
            refine Finset.sum_nonneg fun j _ => mul_nonneg ?_ (negBinom_nonneg opct h0 hc1.le k j)
            split_ifs
            · exact (Real.exp_pos _).le
            · exact le_refl _
          have := Finset.single_le_sum hk (Finset.mem_range.2 (Nat.lt_succ_self t))
          rw [Finset.sum_sub_distrib, ← Finset.mul_sum] at this
          linarith
        norm_num at hsmall hgap ⊢
        linarith
      rw [← mul_div_assoc, div_le_iff₀ (by linarith)]
      norm_num at hP hr1 ⊢
      linarith
    · have hpow := fired_pow opct _ h0 hx 0 99
      rw [← hr, Nat.zero_add] at hpow
      have hf0 : fired opct (lam * (1 - opct)) 0 = lam * (1 - opct) := by simp [fired]
      rw [hf0] at hpow
      have hp99 : r ^ 99 ≤ 0.007 := by
        calc r ^ 99 ≤ (0.95 : ℝ) ^ 99 := pow_le_pow_left₀ hr0 hr1 99
          _ ≤ 0.007 := by norm_num
      have hden : (1 - opct) / 2 ≤ 1 - r := by rw [hr]; linarith
      have hpos : 0 < 1 - opct := by linarith
      have hlexp : Real.exp (-lam) * lam ≤ 1 / 2 := by
        rw [Real.exp_neg, inv_mul_le_iff₀ (Real.exp_pos _)]
        have := Real.add_one_le_exp lam
        linarith
      rw [← mul_div_assoc, div_le_iff₀ (by linarith)]
      calc Real.exp (-lam) * fired opct (lam * (1 - opct)) 99 ≤ Real.exp (-lam) * (r ^ 99 * (lam * (1 - opct))) := mul_le_mul_of_nonneg_left hpow hexp.le
        _ = r ^ 99 * ((Real.exp (-lam) * lam) * (1 - opct)) := by ring
        _ ≤ 0.007 * (1 / 2 * (1 - opct)) := mul_le_mul hp99 (mul_le_mul_of_nonneg_right hlexp hpos.le) (by positivity) (by norm_num)
        _ ≤ 0.009 * (1 - r) := by norm_num at hden ⊢; linarith
  norm_num at hrest hclose ⊢
  linarith

/-- the values the fit starts from -/
example : 0.99 ≤ ∫ x, gentileSpe 0 9 25 2 0.4 0.7 x := C64_crosstalk_partial 0 9 25 2 0.4 0.7 (by norm_num) (by norm_num) (by norm_num) (by norm_num) (by norm_num)

/-- with a crosstalk probability of 1, which the limits of the fit allow, nothing but the pedestal is left, for any light level -/
theorem C64_all_crosstalk (eped epedSigma spe speSigma lam : ℝ) (hs : 0 < epedSigma) :
    (∀ x, gentileSpe eped epedSigma spe speSigma 1 lam x = Real.exp (-lam) * normalPdf x eped epedSigma) ∧
    (∫ x, gentileSpe eped epedSigma spe speSigma 1 lam x) = Real.exp (-lam) := by
  have hw : gentileWeight 1 lam 1 = 0 := by
    unfold gentileWeight gentileTerm
    simp
  have hnone : peakLoop (gentileWeight 1 lam) cells 0 = [] := by
    have hc : cells = 1 :: ((List.range 98).map (· + 2)) := by decide
    rw [hc, peakLoop, if_neg (by rw [hw]; exact lt_irrefl _), if_pos (by rw [hw]; norm_num)]
  have hspec : ∀ x, gentileSpe eped epedSigma spe speSigma 1 lam x = Real.exp (-lam) * normalPdf x eped epedSigma := by
    intro x
    unfold gentileSpe spectrumOf
    rw [hnone]
    simp
  refine ⟨hspec, ?_⟩
  simp only [hspec]
  rw [integral_const_mul, (C43_normal_integral _ _ hs).1, mul_one]

/-- C64, exactly where the peaks are lost altogether: at every charge the SiPM spectrum is that of the pedestal alone if and only if the crosstalk probability
is 1 or the probability of a single photo-electron is below 1e-4. The MAPM spectrum is never that of the pedestal alone. (Missing from the full claim: how much of
the spectrum there is when some peaks are left out, for which see the bounds above.) -/
theorem C64_pedestal_only_partial (eped epedSigma spe speSigma opct lam x : ℝ) (hs : 0 < epedSigma) (hl : 0 < lam) (h0 : 0 ≤ opct) (h1 : opct ≤ 1) :
    (gentileSpe eped epedSigma spe speSigma opct lam x = Real.exp (-lam) * normalPdf x eped epedSigma ↔ opct = 1 ∨ lam * Real.exp (-lam) < 1e-4) ∧
    Real.exp (-lam) * normalPdf x eped epedSigma < mapmSpe eped epedSigma spe speSigma lam x := by
  have hp1 : poisson ((1 : ℕ) : ℤ) lam = lam * Real.exp (-lam) := by
    rw [C43_poisson 1 lam hl]; simp
  have hpos : 0 < lam * Real.exp (-lam) := mul_pos hl (Real.exp_pos _)
  have hc : cells = 1 :: ((List.range 98).map (· + 2)) := by decide
  have more : ∀ w : Nat → ℝ, (∀ k, 0 ≤ w k) → 0 < w 1 →
      Real.exp (-lam) * normalPdf x eped epedSigma < spectrumOf w eped epedSigma spe speSigma lam x := by
    intro w hw hw1
    unfold spectrumOf
    refine lt_add_of_pos_right _ ?_
    have hnn : ∀ (l : List Nat) (m : ℝ), ∀ q ∈ peakLoop w l m, 0 ≤ q.2 := by
      intro l
      induction l with
      | nil => intro m q hq; simp [peakLoop] at hq
      | cons k l ih =>
        intro m q hq
        rw [peakLoop] at hq
        split at hq
        · rcases List.mem_cons.1 hq with rfl | hq
          · exact hw k
          · exact ih _ _ hq
        · split at hq
          · simp at hq
          · rcases List.mem_cons.1 hq with rfl | hq
            · exact hw k
            · exact ih _ _ hq
    have hsd : ∀ k : Nat, 0 < Real.sqrt ((k : ℝ) * speSigma ^ 2 + epedSigma ^ 2) := fun k => Real.sqrt_pos.2 (by positivity)
    rw [hc, peakLoop, if_pos hw1, List.map_cons, List.sum_cons]
    refine add_pos_of_pos_of_nonneg (mul_pos hw1 ((C43_normal_integral _ _ (hsd _)).2.1 x)) ?_
    refine List.sum_nonneg fun y hy => ?_
    obtain ⟨q, hq, rfl⟩ := List.mem_map.1 hy
    exact mul_nonneg (hnn _ _ q hq) ((C43_normal_integral _ _ (hsd _)).2.1 x).le
  have hw : gentileWeight opct lam 1 = if lam * Real.exp (-lam) < 1e-4 then 0 else lam * Real.exp (-lam) * (1 - opct) := by
    unfold gentileWeight gentileTerm
    simp only [List.range_one, List.map_cons, List.map_nil, List.sum_cons, List.sum_nil, add_zero, zero_add]
    rw [hp1]
    have hb : binom (((1 : ℕ) : ℤ) - 1) (((1 : ℕ) : ℤ) - 1) = 1 := by
      have := C43_binom 0 0 le_rfl
      simpa using this
    rw [hb]
    simp
  refine ⟨⟨fun h => ?_, fun h => ?_⟩, ?_⟩
  · by_contra hn
    push Not at hn
    refine absurd h (ne_of_gt (more _ (gentileWeight_nonneg opct lam h0 h1) ?_))
    rw [hw, if_neg (not_lt.2 hn.2)]
    exact mul_pos hpos (by have := lt_of_le_of_ne h1 hn.1; linarith)
  · have hz : gentileWeight opct lam 1 = 0 := by
      rw [hw]
      split
      · rfl
      · rename_i hh
        rw [h.resolve_right hh]; ring
    unfold gentileSpe spectrumOf
    rw [hc, peakLoop, if_neg (by rw [hz]; exact lt_irrefl _), if_pos (by rw [hz]; norm_num)]
    simp
  · refine more _ (fun k => ?_) ?_
    · exact ((C43_poisson_sum lam hl).1 k).le
    · exact (C43_poisson_sum lam hl).1 1

/-- a typical spectrum is more than the pedestal, everywhere -/
example (x : ℝ) : gentileSpe 0 9 25 2 0.4 1 x ≠ Real.exp (-1) * normalPdf x 0 9 := by
  rw [ne_eq, (C64_pedestal_only_partial 0 9 25 2 0.4 1 x (by norm_num) (by norm_num) (by norm_num) (by norm_num)).1]
  have := Real.exp_neg_one_gt_d9
  norm_num
  linarith

end Verif.Props
