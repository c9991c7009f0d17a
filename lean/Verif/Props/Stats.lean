import Verif.Model.Stats
import Mathlib.Probability.Distributions.Gaussian.Real
import Mathlib.Analysis.SpecialFunctions.Exponential
import Mathlib.Algebra.BigOperators.Group.List.Basic
import Mathlib.Tactic.Ring
import Mathlib.Tactic.FieldSimp
import Mathlib.Tactic.NormNum
import Mathlib.Tactic.Positivity

/-! # C42, C43: running mean and variance, closed forms of the probability functions -/

namespace Verif.Props

open Verif.Model

/-! ## C42 -/

/-- the sum of the squared deviations from `c` -/
theorem sum_sq_dev (xs : List ℝ) (c : ℝ) :
    (xs.map fun x => (x - c) ^ 2).sum = (xs.map fun x => x ^ 2).sum - 2 * c * xs.sum + xs.length * c ^ 2 := by
  induction xs with
  | nil => simp
  | cons a xs ih =>
    simp only [List.map_cons, List.sum_cons, List.length_cons, ih]
    push_cast
    ring

/-- invariant of the online update, without divisions -/
def Tracks (w : Welford) (xs : List ℝ) : Prop :=
  w.count = xs.length ∧ w.mean * xs.length = xs.sum ∧ w.m2 = (xs.map fun x => x ^ 2).sum - w.mean * xs.sum

theorem tracks_step (w : Welford) (xs : List ℝ) (x : ℝ) (h : Tracks w xs) : Tracks (welfordStep w x) (xs ++ [x]) := by
  obtain ⟨h1, h2, h3⟩ := h
  have hn : (w.count : ℝ) + 1 ≠ 0 := by positivity
  have hmean : (welfordStep w x).mean * (w.count + 1) = xs.sum + x := by
    simp only [welfordStep]
    push_cast
    rw [← h2, ← h1]
    field_simp
    ring
  refine ⟨by simp [welfordStep, h1], ?_, ?_⟩
  · rw [List.length_append, List.sum_append, ← h1]
    push_cast
    simpa using hmean
  · rw [List.map_append, List.sum_append, List.sum_append]
    have hm : (welfordStep w x).mean = w.mean + (x - w.mean) / (w.count + 1) := by simp [welfordStep]
    have hq : (welfordStep w x).m2 = w.m2 + (x - w.mean) * (x - (welfordStep w x).mean) := by simp [welfordStep]
    rw [hq, h3, hm, ← h2, ← h1]
    simp only [List.map_cons, List.map_nil, List.sum_cons, List.sum_nil]
    field_simp
    ring

theorem tracks_run (xs : List ℝ) : Tracks (welfordRun xs) xs := by
  have key : ∀ (ys xs : List ℝ) (w : Welford), Tracks w xs → Tracks (ys.foldl welfordStep w) (xs ++ ys) := by
    intro ys
    induction ys with
    | nil => intro xs w h; simpa using h
    | cons y ys ih =>
      intro xs w h
      have := ih (xs ++ [y]) _ (tracks_step w xs y h)
      simpa using this
  exact key xs [] _ ⟨rfl, by simp, by simp⟩

/-- C42: folding the update over any non-empty sequence gives its length, its arithmetic mean and its sum of squared
deviations from the mean. -/
theorem C42_run (xs : List ℝ) (h : xs ≠ []) :
    (welfordRun xs).count = xs.length ∧ (welfordRun xs).mean = xs.sum / xs.length ∧
    (welfordRun xs).m2 = (xs.map fun x => (x - xs.sum / xs.length) ^ 2).sum := by
  obtain ⟨h1, h2, h3⟩ := tracks_run xs
  have hn : (xs.length : ℝ) ≠ 0 := by
    have := List.length_pos_iff.2 h
    positivity
  have hm : (welfordRun xs).mean = xs.sum / xs.length := by rw [← h2]; field_simp
  refine ⟨h1, hm, ?_⟩
  rw [h3, sum_sq_dev, hm]
  field_simp
  ring

/-- C42: the result does not depend on the order of the samples. -/
theorem C42_order (xs ys : List ℝ) (h : xs.Perm ys) : welfordRun xs = welfordRun ys := by
  by_cases he : xs = []
  · subst he; rw [h.nil_eq]
  have he' : ys ≠ [] := fun hy => he (by subst hy; exact h.eq_nil)
  obtain ⟨a1, a2, a3⟩ := C42_run xs he
  obtain ⟨b1, b2, b3⟩ := C42_run ys he'
  have e : ∀ v w : Welford, v.mean = w.mean → v.count = w.count → v.m2 = w.m2 → v = w := by
    rintro ⟨_, _, _⟩ ⟨_, _, _⟩ rfl rfl rfl; rfl
  refine e _ _ ?_ ?_ ?_
  · rw [a2, b2, h.sum_eq, h.length_eq]
  · rw [a1, b1, h.length_eq]
  · rw [a3, b3, h.sum_eq, h.length_eq]
    exact (h.map _).sum_eq

/-- C42: `m2` never decreases, so it is never negative and its root exists. -/
theorem C42_monotone (xs : List ℝ) (x : ℝ) : 0 ≤ (welfordRun xs).m2 ∧ (welfordRun xs).m2 ≤ (welfordRun (xs ++ [x])).m2 := by
  constructor
  · by_cases he : xs = []
    · subst he; exact le_refl _
    · rw [(C42_run xs he).2.2]
      refine List.sum_nonneg fun y hy => ?_
      obtain ⟨z, -, rfl⟩ := List.mem_map.1 hy
      positivity
  · unfold welfordRun
    rw [List.foldl_append]
    set w := xs.foldl welfordStep ⟨0, 0, 0⟩
    simp only [List.foldl_cons, List.foldl_nil, welfordStep]
    have hn : (0 : ℝ) < (w.count : ℝ) + 1 := by positivity
    have : (x - w.mean) * (x - (w.mean + (x - w.mean) / ((w.count + 1 : ℕ) : ℝ))) = (x - w.mean) ^ 2 * (w.count / (w.count + 1)) := by
      push_cast
      field_simp
      ring
    rw [this]
    have : 0 ≤ (x - w.mean) ^ 2 * ((w.count : ℝ) / (w.count + 1)) := by positivity
    linarith

example : (welfordRun [1, 2, 6]).mean = 3 ∧ (welfordRun [1, 2, 6]).m2 = 14 := by
  obtain ⟨-, h2, h3⟩ := C42_run [1, 2, 6] (by simp)
  rw [h2, h3]
  norm_num

/-! ## C43 -/

theorem lgamma_nat (n : Nat) : lgamma ((n : ℝ) + 1) = Real.log (n.factorial : ℝ) := by
  unfold lgamma
  rw [Real.Gamma_nat_eq_factorial, abs_of_pos (by positivity)]

/-- C43: `binom(n, k)` is the binomial coefficient. -/
theorem C43_binom (n k : Nat) (h : k ≤ n) : binom n k = (n.choose k : ℝ) := by
  unfold binom
  have e : ((n : ℤ) : ℝ) - ((k : ℤ) : ℝ) + 1 = ((n - k : ℕ) : ℝ) + 1 := by push_cast [h]; ring
  rw [e]
  simp only [Int.cast_natCast]
  rw [lgamma_nat, lgamma_nat, lgamma_nat, Real.exp_sub, Real.exp_sub, Real.exp_log (by positivity), Real.exp_log (by positivity),
    Real.exp_log (by positivity), Nat.choose_eq_factorial_div_factorial h,
    Nat.cast_div (Nat.factorial_mul_factorial_dvd_factorial h) (by positivity)]
  push_cast
  field_simp

example : binom 5 2 = 10 := by
  have := C43_binom 5 2 (by norm_num)
  norm_num [Nat.choose] at this
  exact_mod_cast this

/-- C43: `poisson(k, mu)` is the Poisson mass. -/
theorem C43_poisson (k : Nat) (mu : ℝ) (h : 0 < mu) : poisson k mu = mu ^ k * Real.exp (-mu) / k.factorial := by
  unfold poisson
  simp only [Int.cast_natCast]
  rw [lgamma_nat, Real.exp_sub, sub_eq_add_neg, Real.exp_add, Real.exp_log (by positivity), ← Real.log_pow, Real.exp_log (by positivity)]

/-- C43: the Poisson masses are positive and sum to 1. -/
theorem C43_poisson_sum (mu : ℝ) (h : 0 < mu) : (∀ k : Nat, 0 < poisson k mu) ∧ HasSum (fun k : Nat => poisson k mu) 1 := by
  refine ⟨fun k => Real.exp_pos _, ?_⟩
  have e : (fun k : Nat => poisson k mu) = fun k : Nat => Real.exp (-mu) * (mu ^ k / k.factorial) := by
    funext k
    rw [C43_poisson k mu h]
    ring
  rw [e]
  have := (NormedSpace.expSeries_div_hasSum_exp (𝔸 := ℝ) mu).mul_left (Real.exp (-mu))
  rw [← Real.exp_eq_exp_ℝ, ← Real.exp_add] at this
  simpa using this

/-- C43: `poisson_logpmf` is the logarithm of the Poisson mass; at `k = 0` it is `-mu`, also for `mu = 0`. -/
theorem C43_logpmf (k : Nat) (mu : ℝ) :
    (0 < mu → poissonLogpmf k mu = Real.log (poisson k mu) ∧ Real.exp (poissonLogpmf k mu) = mu ^ k * Real.exp (-mu) / k.factorial) ∧
    poissonLogpmf 0 mu = -mu := by
  constructor
  · intro h
    have e : poissonLogpmf k mu = k * Real.log mu - mu - lgamma (k + 1) := by
      unfold poissonLogpmf xlogy
      split
      · rename_i h0; rw [h0]; ring
      · ring
    have e2 : Real.exp (poissonLogpmf k mu) = poisson k mu := by rw [e]; simp [poisson]
    refine ⟨?_, ?_⟩
    · rw [← e2, Real.log_exp]
    · rw [e2, C43_poisson k mu h]
  · simp [poissonLogpmf, xlogy, lgamma]

example : poissonLogpmf 0 0 = 0 := by simpa using (C43_logpmf 0 0).2

/-- C43: `normal_pdf` is the density of the normal distribution with the given mean and standard deviation. -/
theorem C43_normal (x mean std : ℝ) (h : 0 < std) :
    normalPdf x mean std = ProbabilityTheory.gaussianPDFReal mean (Real.toNNReal (std ^ 2)) x := by
  unfold normalPdf ProbabilityTheory.gaussianPDFReal sqrt2pi
  rw [Real.coe_toNNReal _ (by positivity), Real.sqrt_mul (show (0 : ℝ) ≤ 2 * Real.pi by positivity) (std ^ 2), Real.sqrt_sq h.le]
  have : -0.5 * ((x - mean) / std) ^ 2 = -(x - mean) ^ 2 / (2 * std ^ 2) := by
    field_simp
    norm_num
    ring
  simp only
  rw [this]
  ring

/-- C43: it integrates to 1, and has its maximum at the mean. -/
theorem C43_normal_integral (mean std : ℝ) (h : 0 < std) :
    (∫ x, normalPdf x mean std) = 1 ∧ (∀ x, 0 < normalPdf x mean std) ∧ ∀ x, normalPdf x mean std ≤ normalPdf mean mean std := by
  refine ⟨?_, ?_, ?_⟩
  · simp only [fun x => C43_normal x mean std h]
    refine ProbabilityTheory.integral_gaussianPDFReal_eq_one mean ?_
    intro h0
    rw [Real.toNNReal_eq_zero] at h0
    nlinarith
  · intro x
    unfold normalPdf sqrt2pi
    positivity
  · intro x
    have hp : 0 < sqrt2pi * std := by unfold sqrt2pi; positivity
    unfold normalPdf
    refine (div_le_div_iff_of_pos_right hp).2 (Real.exp_le_exp.2 ?_)
    simp only [sub_self, zero_div]
    nlinarith [sq_nonneg ((x - mean) / std)]

example : (∫ x, normalPdf x 3 2) = 1 := (C43_normal_integral 3 2 (by norm_num)).1

end Verif.Props
