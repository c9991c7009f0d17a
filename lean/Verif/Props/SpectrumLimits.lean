import Verif.Props.SpectrumMass

/-! # C64: the SiPM spectrum for the light levels the fit allows -/

namespace Verif.Props

open Verif.Py Verif.Model Verif.Spec Verif.Lemmas MeasureTheory

theorem fired_pos (c x : ℝ) (hc : 0 ≤ c) (hx : 0 < x) (n : Nat) : 0 < fired c x n := by
  unfold fired
  refine Finset.sum_pos' (fun j _ => by positivity) ⟨n, Finset.mem_range.2 (Nat.lt_succ_self n), ?_⟩
  rw [Nat.sub_self, Nat.choose_self]
  positivity

theorem fired_one (c x : ℝ) : fired c x 1 = (c + x / 2) * fired c x 0 := by
  unfold fired
  simp [Finset.sum_range_succ]
  ring

/-- the probabilities are logarithmically concave -/
theorem fired_log_concave (c x : ℝ) (hc : 0 ≤ c) (hx : 0 < x) (m : Nat) : fired c x (m + 2) * fired c x m ≤ fired c x (m + 1) ^ 2 := by
  induction m with
  | zero =>
    have h := fired_step c x 0
    have h1 := fired_one c x
    have h0 := fired_pos c x hc hx 0
    norm_num at h
    obtain ⟨a, ha⟩ : ∃ a, a = fired c x 0 := ⟨_, rfl⟩
    rw [h1, ← ha] at h ⊢
    rw [← ha] at h0
    have h2 : fired c x 2 = (((4 * c + x) * (c + x / 2)) - c ^ 2) * a / 3 := by linarith
    rw [zero_add, h2]
    have hx2 := mul_nonneg hc hx.le
    have ha2 := mul_pos h0 h0
    nlinarith [mul_pos hx hx, mul_nonneg hx2 ha2.le, mul_pos (mul_pos hx hx) ha2]
  | succ m ih =>
    have h0 := fired_pos c x hc hx m
    have h1 := fired_pos c x hc hx (m + 1)
    have h2 := fired_pos c x hc hx (m + 2)
    have hs := fired_step c x m
    have hs' := fired_step c x (m + 1)
    push_cast at hs'
    rw [show m + 1 + 2 = m + 3 by ring, show m + 1 + 1 = m + 2 by ring] at *
    generalize fired c x m = a at *
    generalize fired c x (m + 1) = b at *
    generalize fired c x (m + 2) = d at *
    generalize fired c x (m + 3) = e at *
    have hm : (0 : ℝ) ≤ m := by positivity
    have key : ((m : ℝ) + 4) * (d ^ 2 - e * b) = (m + 1) * c ^ 2 * (b ^ 2 - d * a) + (d - c * b) ^ 2 := by
      linear_combination d * hs - b * hs'
    have hpos : 0 ≤ ((m : ℝ) + 4) * (d ^ 2 - e * b) := by
      rw [key]
      have := mul_nonneg (mul_nonneg (by linarith : (0 : ℝ) ≤ (m : ℝ) + 1) (sq_nonneg c)) (sub_nonneg.2 ih)
      have := sq_nonneg (d - c * b)
      linarith
    have := nonneg_of_mul_nonneg_right hpos (by linarith : (0 : ℝ) < (m : ℝ) + 4)
    linarith

/-- if one step is at most the factor `R`, so are all later ones -/
theorem fired_ratio_later (c x : ℝ) (hc : 0 ≤ c) (hx : 0 < x) (R : ℝ) (n : Nat) (h : fired c x (n + 1) ≤ R * fired c x n) (k : Nat) :
    fired c x (n + k + 1) ≤ R * fired c x (n + k) := by
  induction k with
  | zero => exact h
  | succ k ih =>
    have h0 := fired_pos c x hc hx (n + k)
    have h1 := fired_pos c x hc hx (n + k + 1)
    have hl := fired_log_concave c x hc hx (n + k)
    rw [show n + (k + 1) + 1 = n + k + 2 by ring, show n + (k + 1) = n + k + 1 by ring]
    refine le_of_mul_le_mul_right (hl.trans ?_) h0
    nlinarith

/-- if one step is at least the factor `R`, so are all earlier ones -/
theorem fired_ratio_earlier (c x : ℝ) (hc : 0 ≤ c) (hx : 0 < x) (R : ℝ) (hR : 0 ≤ R) (n : Nat) (h : R * fired c x n ≤ fired c x (n + 1)) :
    R ^ n * fired c x 0 ≤ fired c x n := by
  have hall : ∀ k ≤ n, R * fired c x k ≤ fired c x (k + 1) := by
    intro k hk
    by_contra hcon
    push Not at hcon
    obtain ⟨d, rfl⟩ := Nat.exists_eq_add_of_le hk
    have h0 := fired_pos c x hc hx k
    have hlt : fired c x (k + 1) < R * fired c x k := hcon
    obtain ⟨R', h1, h2⟩ : ∃ R', R' < R ∧ fired c x (k + 1) ≤ R' * fired c x k := by
      refine ⟨fired c x (k + 1) / fired c x k, ?_, ?_⟩
      · rw [div_lt_iff₀ h0]; exact hlt
      · rw [div_mul_cancel₀ _ h0.ne']
    have := fired_ratio_later c x hc hx R' k h2 d
    have hd := fired_pos c x hc hx (k + d)
    nlinarith
  have : ∀ k ≤ n, R ^ k * fired c x 0 ≤ fired c x k := by
    intro k
    induction k with
    | zero => intro _; simp
    | succ k ih =>
      intro hk
      have := mul_le_mul_of_nonneg_left (ih (by omega)) hR
      rw [pow_succ', mul_assoc]
      exact this.trans (hall k (by omega))
  exact this n le_rfl

theorem fired_geometric (c x : ℝ) (hc : 0 ≤ c) (hx : 0 < x) (R : ℝ) (hR : 0 ≤ R) (n : Nat) (h : fired c x (n + 1) ≤ R * fired c x n) (k : Nat) :
    fired c x (n + k) ≤ R ^ k * fired c x n := by
  induction k with
  | zero => simp
  | succ k ih =>
    rw [← Nat.add_assoc]
    refine (fired_ratio_later c x hc hx R n h k).trans ?_
    rw [pow_succ', mul_assoc]
    exact mul_le_mul_of_nonneg_left ih hR

/-- the probabilities from some number of cells on, from which each step is at most the factor `R` -/
theorem fired_rest (c x : ℝ) (hc : 0 ≤ c) (hx : 0 < x) (R : ℝ) (hR : 0 ≤ R) (hR1 : R < 1) (t : Nat) (h : fired c x (t + 1) ≤ R * fired c x t) (N : Nat) :
    ∑ k ∈ Finset.range N, fired c x k ≤ ∑ k ∈ Finset.range t, fired c x k + fired c x t / (1 - R) := by
  have hft := fired_nonneg c x hc hx.le t
  rcases Nat.le_total N t with h' | h'
  · have := Finset.sum_le_sum_of_subset_of_nonneg (f := fun k => fired c x k) (Finset.range_mono h') fun k _ _ => fired_nonneg c x hc hx.le k
    have : 0 ≤ fired c x t / (1 - R) := div_nonneg hft (by linarith)
    linarith
  · obtain ⟨d, rfl⟩ := Nat.exists_eq_add_of_le h'
    rw [Finset.sum_range_add]
    have hg := (hasSum_geometric_of_lt_one hR hR1).mul_right (fired c x t)
    have hle : ∑ k ∈ Finset.range d, fired c x (t + k) ≤ (1 - R)⁻¹ * fired c x t :=
      (Finset.sum_le_sum fun k _ => fired_geometric c x hc hx R hR t h k).trans
        (sum_le_hasSum (Finset.range d) (fun k _ => by positivity) hg)
    rw [div_eq_inv_mul]
    linarith

/-- from 18 cells on each further one is less probable by the factor 0.9, for up to 6 photo-electrons and a crosstalk probability of up to one half -/
theorem fired_ratio_late (c lam : ℝ) (h0 : 0 ≤ c) (h1 : c ≤ 1 / 2) (hl : 0 < lam) (hl6 : lam ≤ 6) (n : Nat) (hn : 17 ≤ n) :
    fired c (lam * (1 - c)) (n + 1) ≤ 0.9 * fired c (lam * (1 - c)) n := by
  have hx : 0 < lam * (1 - c) := mul_pos hl (by linarith)
  obtain ⟨x, hxe⟩ : ∃ x, x = lam * (1 - c) := ⟨_, rfl⟩
  rw [← hxe] at hx ⊢
  have hx6 : x ≤ 6 * (1 - c) := by rw [hxe]; nlinarith
  have hU : c + x / 2 ≤ 3 - 2 * c := by linarith
  -- first the factor 1
  have stage1 : fired c x 17 ≤ 1 * fired c x 16 := by
    have hs := fired_step c x 15
    norm_num at hs
    have hr := fired_ratio c x h0 hx.le 15
    have p15 := fired_pos c x h0 hx 15
    have p16 := fired_pos c x h0 hx 16
    norm_num at hr
    -- 18 * f17 = (34 c + x) f16 - 16 c^2 f15 and f16 <= (3 - 2c) f15
    have hr' : fired c x 16 ≤ (3 - 2 * c) * fired c x 15 := hr.trans (mul_le_mul_of_nonneg_right hU p15.le)
    have : (3 - 2 * c) * (18 * fired c x 17) ≤ (3 - 2 * c) * (18 * fired c x 16) := by
      rw [hs]
      have hq : (3 - 2 * c) * (34 * c + x) - 16 * c ^ 2 ≤ (3 - 2 * c) * 18 := by nlinarith
      have hc2 : 0 ≤ 16 * c ^ 2 := by positivity
      have e1 := mul_le_mul_of_nonneg_left hr' hc2
      have e2 := mul_le_mul_of_nonneg_right hq p16.le
      linarith
    have := le_of_mul_le_mul_left this (by linarith)
    linarith
  have stage2 : fired c x 18 ≤ 0.9 * fired c x 17 := by
    have hs := fired_step c x 16
    norm_num at hs stage1 ⊢
    have p16 := fired_pos c x h0 hx 16
    have p17 := fired_pos c x h0 hx 17
    have hq : 36 * c + x - 17 * c ^ 2 ≤ 19 * (9 / 10) := by nlinarith
    have e1 := mul_le_mul_of_nonneg_left stage1 (by positivity : 0 ≤ 17 * c ^ 2)
    have e2 := mul_le_mul_of_nonneg_right hq p17.le
    linarith
  obtain ⟨k, rfl⟩ := Nat.exists_eq_add_of_le hn
  exact fired_ratio_later c x h0 hx _ 17 stage2 k

theorem exp_six (lam : ℝ) (hl6 : lam ≤ 6) : (1 : ℝ) / 403.5 ≤ Real.exp (-lam) := by
  have h6 : Real.exp 6 ≤ 403.5 := by
    have : Real.exp 6 = Real.exp 1 ^ 6 := by rw [← Real.exp_nat_mul]; norm_num
    rw [this]
    calc Real.exp 1 ^ 6 ≤ (2.7182818286 : ℝ) ^ 6 := pow_le_pow_left₀ (Real.exp_pos _).le Real.exp_one_lt_d9.le 6
      _ ≤ 403.5 := by norm_num
  rw [Real.exp_neg, one_div]
  exact inv_anti₀ (Real.exp_pos _) ((Real.exp_le_exp.2 hl6).trans h6)

/-- the probabilities of initial cells below the cut of 0.0001 add up to less than 0.0005, for up to 6 photo-electrons -/
theorem cut_mass_six (lam : ℝ) (hl : 0 < lam) (hl6 : lam ≤ 6) (N : Nat) :
    ∑ j ∈ Finset.range N, (if poisson ((j + 1 : ℕ) : ℤ) lam < 1e-4 then poisson ((j + 1 : ℕ) : ℤ) lam else 0) ≤ 5e-4 := by
  refine (cut_mass_of lam hl 5 (by norm_num) (fun J hJ => ?_) N).trans (by norm_num)
  have hkey : 5 * lam ≤ 4 * ((J : ℝ) + 2) := by
    by_contra hcon
    rw [not_le] at hcon
    have hJ6 : J < 6 := by
      have : (J : ℝ) < 6 := by linarith
      exact_mod_cast this
    rw [C43_poisson (J + 1) lam hl] at hJ
    have hp : (1 : ℝ) ≤ lam ^ (J + 1) / ((J + 1).factorial : ℝ) := by
      rw [one_le_div (by positivity)]
      have hb : (0.8 * ((J : ℝ) + 2)) ^ (J + 1) ≤ lam ^ (J + 1) := pow_le_pow_left₀ (by positivity) (by norm_num at hcon ⊢; linarith) _
      refine le_trans ?_ hb
      interval_cases J <;> norm_num [Nat.factorial]
    have he := exp_six lam hl6
    rw [mul_comm, mul_div_assoc] at hJ
    have := mul_le_mul he hp (by norm_num) (Real.exp_pos _).le
    norm_num at this hJ
    linarith
  have : (0 : ℝ) ≤ J := by positivity
  constructor <;> linarith

/-- each number of fired cells has a probability of at most one -/
theorem fired_le_one (c lam : ℝ) (h0 : 0 ≤ c) (h1 : c < 1) (hl : 0 < lam) (n : Nat) : Real.exp (-lam) * fired c (lam * (1 - c)) n ≤ 1 := by
  obtain ⟨hp, hsum⟩ := C43_poisson_sum lam hl
  rw [fired_mixture c lam hl n (n + 1) le_rfl]
  have hs1 := (hasSum_nat_add_iff' 1).2 hsum
  rw [Finset.sum_range_one, poisson_zero lam hl] at hs1
  have hle := sum_le_hasSum (Finset.range (n + 1)) (fun j _ => (hp (j + 1)).le) hs1
  have hexp := Real.exp_pos (-lam)
  refine le_trans (Finset.sum_le_sum fun j _ => ?_) (hle.trans (by linarith))
  have hnb : negBinom c n j ≤ 1 := le_hasSum (negBinom_hasSum c h0 h1 j) n fun k _ => negBinom_nonneg c h0 h1.le k j
  exact mul_le_of_le_one_right (hp (j + 1)).le hnb

/-- C64 for the SiPM spectrum at every light level the fit allows: it integrates to at least 0.99 for an average of up to 6 photo-electrons
(the upper limit of the parameter in the shipped fits) and a crosstalk probability of up to one half.
(Missing from the full claim: more light, see `C64_false`, and more crosstalk, see `C64_crosstalk_partial` and `C64_all_crosstalk`.) -/
theorem C64_limits_partial (eped epedSigma spe speSigma opct lam : ℝ) (hs : 0 < epedSigma) (hl : 0 < lam) (hl6 : lam ≤ 6) (h0 : 0 ≤ opct) (h1 : opct ≤ 1 / 2) :
    0.99 ≤ ∫ x, gentileSpe eped epedSigma spe speSigma opct lam x := by
  have hc1 : opct < 1 := by linarith
  unfold gentileSpe
  rw [(spectrum_integral _ _ _ _ _ _ hs).2]
  obtain ⟨t, ht, e, hb⟩ := peaks_cells (gentileWeight opct lam)
  rw [e, List.map_map]
  simp only [Function.comp_def]
  rw [list_range_sum (fun i => gentileWeight opct lam (i + 1)) t]
  have hx : 0 < lam * (1 - opct) := mul_pos hl (by linarith)
  have hexp := Real.exp_pos (-lam)
  have hclose := weights_close_of opct lam 5e-4 h0 hc1.le hl t (cut_mass_six lam hl hl6 t)
  have hft := fired_nonneg opct _ h0 hx.le t
  have hone := weight_close_of opct lam 5e-4 h0 hc1.le hl t (cut_mass_six lam hl hl6 (t + 1))
  have hratio : fired opct (lam * (1 - opct)) (t + 1) ≤ 0.93 * fired opct (lam * (1 - opct)) t := by
    by_contra hcon
    rw [not_le] at hcon
    have ht16 : t ≤ 16 := by
      by_contra h
      have := fired_ratio_late opct lam h0 h1 hl hl6 t (by omega)
      norm_num at this hcon
      linarith
    have hx8 : 0.8 ≤ lam * (1 - opct) := by
      by_contra h
      rw [not_le] at h
      have hr := fired_ratio opct _ h0 hx.le t
      have : (opct + lam * (1 - opct) / 2) * fired opct (lam * (1 - opct)) t ≤ 0.93 * fired opct (lam * (1 - opct)) t :=
        mul_le_mul_of_nonneg_right (by norm_num at h ⊢; linarith) hft
      linarith
    have hlow := fired_ratio_earlier opct _ h0 hx 0.93 (by norm_num) t hcon.le
    have hf0 : fired opct (lam * (1 - opct)) 0 = lam * (1 - opct) := by simp [fired]
    rw [hf0] at hlow
    have hpow : (0.313 : ℝ) ≤ 0.93 ^ t := by
      calc (0.313 : ℝ) ≤ 0.93 ^ 16 := by norm_num
        _ ≤ 0.93 ^ t := pow_le_pow_of_le_one (by norm_num) (by norm_num) ht16
    have hP : (1 / 403.5 : ℝ) * (0.313 * 0.8) ≤ Real.exp (-lam) * fired opct (lam * (1 - opct)) t :=
      mul_le_mul (exp_six lam hl6) ((mul_le_mul hpow hx8 (by norm_num) (by positivity)).trans hlow) (by norm_num) hexp.le
    have hsmall := (hb (by omega)).1
    norm_num at hP hsmall hone
    linarith
  have hcomp := fired_total opct lam h0 hc1 hl _ (fired_rest opct _ h0 hx 0.93 (by norm_num) (by norm_num) t hratio)
  rw [mul_add] at hcomp
  have hP : Real.exp (-lam) * fired opct (lam * (1 - opct)) t ≤ 6e-4 := by
    rcases Nat.lt_or_eq_of_le ht with hlt | rfl
    · have hsmall := (hb hlt).1
      norm_num at hsmall hone ⊢
      linarith
    · have hg := fired_geometric opct _ h0 hx 0.9 (by norm_num) 17 (fired_ratio_late opct lam h0 h1 hl hl6 17 le_rfl) 82
      have h17 := fired_le_one opct lam h0 hc1 hl 17
      calc Real.exp (-lam) * fired opct (lam * (1 - opct)) 99 ≤ Real.exp (-lam) * (0.9 ^ 82 * fired opct (lam * (1 - opct)) 17) := mul_le_mul_of_nonneg_left hg hexp.le
        _ = 0.9 ^ 82 * (Real.exp (-lam) * fired opct (lam * (1 - opct)) 17) := by ring
        _ ≤ 0.9 ^ 82 * 1 := mul_le_mul_of_nonneg_left h17 (by positivity)
        _ ≤ 6e-4 := by norm_num
  have hrest : Real.exp (-lam) * (fired opct (lam * (1 - opct)) t / (1 - 0.93)) ≤ 0.009 := by
    rw [← mul_div_assoc, div_le_iff₀ (by norm_num)]
    norm_num at hP ⊢
    linarith
  norm_num at hrest hclose hcomp ⊢
  linarith

/-- the highest light level the fit allows -/
example : 0.99 ≤ ∫ x, gentileSpe 0 9 25 2 0.4 6 x := C64_limits_partial 0 9 25 2 0.4 6 (by norm_num) (by norm_num) (by norm_num) (by norm_num) (by norm_num)

end Verif.Props
