import Verif.Model.LimitCurves
import Verif.Lemmas.Hist
import Mathlib.Tactic.Linarith
import Mathlib.Tactic.NormNum
import Mathlib.Tactic.Ring
import Mathlib.Tactic.FieldSimp
import Mathlib.Tactic.Positivity

/-! # C67, C81, C82: plots of the charge resolution -/

namespace Verif.Props

open Verif.Py Verif.Model Verif.Lemmas

theorem getElem?_maskAbove (limit : ℝ) (l : List ℝ) (f : ℝ → ℝ) (i : Nat) (x : ℝ) (h : l[i]? = some x) :
    (maskAbove limit l f)[i]? = some (if x > limit then none else some (f x)) := by
  unfold maskAbove
  rw [List.getElem?_map, h]
  rfl

theorem two_lt_sqrt7 : (2 : ℝ) < Real.sqrt (4.0 + 3.0) := by
  rw [Real.lt_sqrt (by norm_num)]
  norm_num

/-- **C67** (order): for every charge above zero and not above 1000 the Poisson limit is below the goal and the goal below the requirement. -/
theorem C67_order (true_ : List ℝ) (i : Nat) (x : ℝ) (h : true_[i]? = some x) (h0 : 0 < x) (h1 : x ≤ 1000) :
    ∃ p g r, (poissonLimit true_)[i]? = some p ∧ (goal true_)[i]? = some (some g) ∧ (requirement true_)[i]? = some (some r) ∧
      0 < p ∧ p < g ∧ g < r := by
  refine ⟨Real.sqrt x / x, limitCurve x 2 0 1.1152 0.05, limitCurve x (Real.sqrt (4.0 + 3.0)) 0 1.2 0.1, ?_, ?_, ?_, ?_, ?_, ?_⟩
  · unfold poissonLimit; rw [List.getElem?_map, h]; rfl
  · unfold goal; rw [getElem?_maskAbove _ _ _ i x h, if_neg (by linarith)]
  · unfold requirement; rw [getElem?_maskAbove _ _ _ i x h, if_neg (by linarith)]
  · exact div_pos (Real.sqrt_pos.2 h0) h0
  · unfold limitCurve
    refine div_lt_div_of_pos_right (Real.sqrt_lt_sqrt h0.le ?_) h0
    nlinarith [sq_nonneg (0.05 * x)]
  · unfold limitCurve
    refine div_lt_div_of_pos_right (Real.sqrt_lt_sqrt (by positivity) ?_) h0
    have := two_lt_sqrt7
    nlinarith [sq_nonneg x, mul_pos h0 h0]

/-- **C67** (goal): up to 2000 the Poisson limit is below the goal. -/
theorem C67_goal (true_ : List ℝ) (i : Nat) (x : ℝ) (h : true_[i]? = some x) (h0 : 0 < x) (h1 : x ≤ 2000) :
    ∃ p g, (poissonLimit true_)[i]? = some p ∧ (goal true_)[i]? = some (some g) ∧ p < g := by
  refine ⟨Real.sqrt x / x, limitCurve x 2 0 1.1152 0.05, ?_, ?_, ?_⟩
  · unfold poissonLimit; rw [List.getElem?_map, h]; rfl
  · unfold goal; rw [getElem?_maskAbove _ _ _ i x h, if_neg (by linarith)]
  · unfold limitCurve
    refine div_lt_div_of_pos_right (Real.sqrt_lt_sqrt h0.le ?_) h0
    nlinarith [sq_nonneg (0.05 * x)]

/-- **C67** (domain): the requirement is undefined exactly above 1000, the goal exactly above 2000. -/
theorem C67_domain (true_ : List ℝ) (i : Nat) (x : ℝ) (h : true_[i]? = some x) :
    ((requirement true_)[i]? = some none ↔ 1000 < x) ∧ ((goal true_)[i]? = some none ↔ 2000 < x) := by
  unfold requirement goal
  rw [getElem?_maskAbove _ _ _ i x h, getElem?_maskAbove _ _ _ i x h]
  constructor
  · by_cases h' : x > 1000
    · simp [h']
    · simp [h']
  · by_cases h' : x > 2000
    · simp [h']
    · simp [h']

theorem limitCurve_anti (nNsb enf sigma2 : ℝ) (hn : 0 < nNsb) (x y : ℝ) (h0 : 0 < x) (hxy : x < y) :
    limitCurve y nNsb 0 enf sigma2 < limitCurve x nNsb 0 enf sigma2 := by
  have hy : 0 < y := lt_trans h0 hxy
  have e : ∀ z : ℝ, 0 < z → limitCurve z nNsb 0 enf sigma2 = Real.sqrt (nNsb / z ^ 2 + enf ^ 2 / z + sigma2 ^ 2) := by
    intro z hz
    unfold limitCurve
    rw [show nNsb / z ^ 2 + enf ^ 2 / z + sigma2 ^ 2 = ((nNsb + 0) + enf ^ 2 * z + (sigma2 * z) ^ 2) / z ^ 2 by field_simp; ring]
    rw [Real.sqrt_div' _ (by positivity), Real.sqrt_sq hz.le]
  rw [e x h0, e y hy]
  refine Real.sqrt_lt_sqrt (by positivity) ?_
  have h1 : nNsb / y ^ 2 < nNsb / x ^ 2 := div_lt_div_of_pos_left hn (by positivity) (by nlinarith)
  have h2 : enf ^ 2 / y ≤ enf ^ 2 / x := div_le_div_of_nonneg_left (sq_nonneg _) h0 hxy.le
  linarith

theorem mask_some (x limit v a : ℝ) (h : some (if x > limit then none else some v) = some (some a)) : a = v := by
  by_cases h' : x > limit
  · rw [if_pos h'] at h; cases h
  · rw [if_neg h'] at h; cases h; rfl

/-- **C67** (shape): a brighter signal has a stricter goal and requirement: both curves decrease. -/
theorem C67_decreasing (true_ : List ℝ) (i j : Nat) (x y : ℝ) (hi : true_[i]? = some x) (hj : true_[j]? = some y) (h0 : 0 < x) (hxy : x < y) :
    (∀ a b, (requirement true_)[i]? = some (some a) → (requirement true_)[j]? = some (some b) → b < a) ∧
    (∀ a b, (goal true_)[i]? = some (some a) → (goal true_)[j]? = some (some b) → b < a) := by
  unfold requirement goal
  rw [getElem?_maskAbove _ _ _ i x hi, getElem?_maskAbove _ _ _ j y hj, getElem?_maskAbove _ _ _ i x hi, getElem?_maskAbove _ _ _ j y hj]
  constructor
  · intro a b ha hb
    rw [mask_some _ _ _ _ ha, mask_some _ _ _ _ hb]
    exact limitCurve_anti (Real.sqrt (4.0 + 3.0)) 1.2 0.1 (by have := two_lt_sqrt7; linarith) x y h0 hxy
  · intro a b ha hb
    rw [mask_some _ _ _ _ ha, mask_some _ _ _ _ hb]
    exact limitCurve_anti 2 1.1152 0.05 (by norm_num) x y h0 hxy

/-- the requirement divided by itself is 1 wherever it is defined -/
theorem C67_relative (true_ : List ℝ) (i : Nat) (x y : ℝ) (h : true_[i]? = some x) (h0 : 0 < x) (h1 : x ≤ 1000) (ys : List ℝ)
    (hy : ys[i]? = some y) : ∃ r q, (requirement true_)[i]? = some (some r) ∧ (relativeToRequirement true_ ys)[i]? = some (some q) ∧
      (q < 1 ↔ y < r) ∧ (q = 1 ↔ y = r) := by
  obtain ⟨p, g, r, -, -, hr, hp, hpg, hgr⟩ := C67_order true_ i x h h0 h1
  have hrp : 0 < r := by linarith
  refine ⟨r, y / r, hr, ?_, div_lt_one hrp, div_eq_one_iff_eq hrp.ne'⟩
  unfold relativeToRequirement
  rw [List.getElem?_zipWith, hr, hy]
  rfl

example : ([1, 50, 1500, 3000] : List ℝ)[1]? = some 50 ∧ (0 : ℝ) < 50 ∧ (50 : ℝ) ≤ 1000 := ⟨rfl, by norm_num, by norm_num⟩

/-! ## C81 -/

/-- **C81 is false**: neither the camera nor a pixel can be plotted from any table the charge-resolution accumulator produces: the plotter asks for
the column `rmse`, which is called `charge_resolution` there. -/
theorem C81_false (rows : List ResolutionRow) (pixel : ℝ) :
    cameraPoints (cameraFrame rows) = .error .keyError ∧ pixelPoints (resolutionFrame rows) pixel = .error .keyError := by
  constructor
  · unfold cameraPoints frameColumn cameraFrame resolutionFrame
    simp [Dict.get?]
  · unfold pixelPoints frameColumn resolutionFrame
    simp [Dict.get?]

/-- **C81, the part that holds**: a table that has the column gives the rows with a true charge above 0.001, in order. -/
theorem C81_partial (f : Frame) (t y : List (Option ℝ)) (ht : Dict.get? f "true" = some t) (hy : Dict.get? f "rmse" = some y) :
    ∃ ps, cameraPoints f = .ok ps ∧ ps.Sublist (t.zip y) ∧
      ∀ a b, (a, b) ∈ ps ↔ (a, b) ∈ t.zip y ∧ ∃ v, a = some v ∧ 0.001 < v := by
  refine ⟨(t.zip y).filter fun p => match p.1 with | some v => decide (v > 0.001) | none => false, ?_, ?_, ?_⟩
  · unfold cameraPoints frameColumn
    rw [ht, hy]
    rfl
  · exact List.filter_sublist
  · intro a b
    rw [List.mem_filter]
    cases a with
    | none => simp
    | some v => simp

example : Dict.get? ([("true", [some 1, some 2]), ("rmse", [some (1 / 2), some (1 / 4)])] : Frame) "rmse" = some [some (1 / 2), some (1 / 4)] := by
  simp [Dict.get?]

/-! ## C82 -/

/-- **C82** (bins): for increasing edges every charge from the first to the last edge is in exactly one bin. -/
theorem C82_one_bin (edges : List ℝ) (a : ℝ) (h : (a :: edges).Pairwise (· < ·)) (hne : edges ≠ []) (x : ℝ) (h0 : a ≤ x)
    (h1 : x ≤ (a :: edges).getLast (by simp)) : ((binsOf (a :: edges)).filter fun bin => inBin bin x).length = 1 := by
  exact one_bin edges a h hne x h0 h1

theorem sum_bins (edges : List ℝ) (points : List (ℝ × ℝ)) (a : ℝ) (h : (a :: edges).Pairwise (· < ·)) (hne : edges ≠ []) (f : ℝ × ℝ → ℝ)
    (hp : ∀ p ∈ points, a ≤ p.1 ∧ p.1 ≤ (a :: edges).getLast (by simp)) :
    (((binsOf (a :: edges)).map fun bin => ((points.filter fun p => inBin bin p.1).map f).sum).sum) = (points.map f).sum := by
  induction points with
  | nil => simp
  | cons p ps ih =>
    have ih := ih fun q hq => hp q (List.mem_cons_of_mem _ hq)
    have h1 := C82_one_bin edges a h hne p.1 (hp p List.mem_cons_self).1 (hp p List.mem_cons_self).2
    have key : ∀ bins : List (ℝ × ℝ × Bool), ((bins.map fun bin => (((p :: ps).filter fun p => inBin bin p.1).map f).sum).sum) =
        ((bins.filter fun bin => inBin bin p.1).length : ℝ) * f p + ((bins.map fun bin => ((ps.filter fun p => inBin bin p.1).map f).sum).sum) := by
      intro bins
      induction bins with
      | nil => simp
      | cons b bs ihb =>
        rw [List.map_cons, List.sum_cons, ihb, List.map_cons, List.sum_cons, List.filter_cons, List.filter_cons]
        by_cases hb : inBin b p.1 = true
        · rw [if_pos hb, if_pos hb]; simp only [List.map_cons, List.sum_cons, List.length_cons]; push_cast; ring
        · rw [if_neg hb, if_neg hb]; ring
    rw [key, h1, ih]
    simp

/-- **C82, the part that holds**: if the edges increase from 0.1 and all charges are between 0.1 and the last edge, the binned points are the means of
groups that make up all points: weighted with the sizes of the groups, they have the same totals of charge and of resolution. -/
theorem C82_partial (edges : List ℝ) (points : List (ℝ × ℝ)) (h : (0.1 :: edges).Pairwise (· < ·)) (hne : edges ≠ [])
    (hp : ∀ p ∈ points, 0.1 ≤ p.1 ∧ p.1 ≤ (0.1 :: edges).getLast (by simp)) :
    ∃ sizes : List Nat, (∀ n ∈ sizes, 0 < n) ∧ sizes.length = (binPoints (0.1 :: edges) points).length ∧ sizes.sum = points.length ∧
      (List.zipWith (fun (n : Nat) q => (n : ℝ) * Prod.fst q) sizes (binPoints (0.1 :: edges) points)).sum = (points.map (·.1)).sum ∧
      (List.zipWith (fun (n : Nat) q => (n : ℝ) * Prod.snd q) sizes (binPoints (0.1 :: edges) points)).sum = (points.map (·.2)).sum := by
  rw [← sum_bins edges points 0.1 h hne Prod.fst hp, ← sum_bins edges points 0.1 h hne Prod.snd hp]
  have hcount := sum_bins edges points 0.1 h hne (fun _ => 1) hp
  simp only [List.map_const', List.sum_replicate, mul_one, nsmul_eq_mul] at hcount
  unfold binPoints
  have key : ∀ bins : List (ℝ × ℝ × Bool), ∃ sizes : List Nat, (∀ n ∈ sizes, 0 < n) ∧
      sizes.length = (bins.filterMap fun bin => match points.filter fun p => inBin bin p.1 with
        | [] => none
        | g => some ((g.map (·.1)).sum / g.length, (g.map (·.2)).sum / g.length)).length ∧
      (sizes.sum : ℝ) = (bins.map fun bin => ((points.filter fun p => inBin bin p.1).length : ℝ)).sum ∧
      (List.zipWith (fun (n : Nat) q => (n : ℝ) * Prod.fst q) sizes (bins.filterMap fun bin => match points.filter fun p => inBin bin p.1 with
        | [] => none
        | g => some ((g.map (·.1)).sum / g.length, (g.map (·.2)).sum / g.length))).sum =
          (bins.map fun bin => ((points.filter fun p => inBin bin p.1).map (·.1)).sum).sum ∧
      (List.zipWith (fun (n : Nat) q => (n : ℝ) * Prod.snd q) sizes (bins.filterMap fun bin => match points.filter fun p => inBin bin p.1 with
        | [] => none
        | g => some ((g.map (·.1)).sum / g.length, (g.map (·.2)).sum / g.length))).sum =
          (bins.map fun bin => ((points.filter fun p => inBin bin p.1).map (·.2)).sum).sum := by
    intro bins
    induction bins with
    | nil => exact ⟨[], by simp, by simp, by simp, by simp, by simp⟩
    | cons b bs ih =>
      obtain ⟨sizes, s1, s2, s3, s4, s5⟩ := ih
      rw [List.filterMap_cons]
      simp only [List.map_cons, List.sum_cons]
      cases hg : points.filter fun p => inBin b p.1 with
      | nil =>
        simp only
        exact ⟨sizes, s1, s2, by simpa using s3, by simpa using s4, by simpa using s5⟩
      | cons q qs =>
        simp only
        have hl : (((q :: qs).length : Nat) : ℝ) ≠ 0 := by simp; positivity
        refine ⟨(q :: qs).length :: sizes, ?_, ?_, ?_, ?_, ?_⟩
        · intro n hn
          rcases List.mem_cons.1 hn with rfl | hn
          · simp
          · exact s1 n hn
        · rw [List.length_cons, List.length_cons, s2]
        · rw [List.sum_cons, Nat.cast_add, s3]
        · rw [List.zipWith_cons_cons, List.sum_cons, s4]
          simp only
          rw [mul_div_cancel₀ _ hl]
        · rw [List.zipWith_cons_cons, List.sum_cons, s5]
          simp only
          rw [mul_div_cancel₀ _ hl]
  obtain ⟨sizes, s1, s2, s3, s4, s5⟩ := key (binsOf (0.1 :: edges))
  refine ⟨sizes, s1, s2, ?_, s4, s5⟩
  rw [hcount] at s3
  exact_mod_cast s3

/-- **C82, exactly**: for edges increasing from 0.1 a charge is in exactly one bin if it is from 0.1 to the last edge and in none otherwise; the plot is that of
the points in this range alone, which have the totals of the bins. (Missing from C82: the other points, which are left out.) -/
theorem C82_exactly_partial (edges : List ℝ) (points inside : List (ℝ × ℝ)) (h : (0.1 :: edges).Pairwise (· < ·)) (hne : edges ≠ [])
    (hin : inside = points.filter fun p => decide (0.1 ≤ p.1 ∧ p.1 ≤ (0.1 :: edges).getLast (by simp))) :
    (∀ x, ((binsOf (0.1 :: edges)).filter fun bin => inBin bin x).length = if 0.1 ≤ x ∧ x ≤ (0.1 :: edges).getLast (by simp) then 1 else 0) ∧
      binPoints (0.1 :: edges) points = binPoints (0.1 :: edges) inside ∧
      ∃ sizes : List Nat, (∀ n ∈ sizes, 0 < n) ∧ sizes.length = (binPoints (0.1 :: edges) points).length ∧ sizes.sum = inside.length ∧
        (List.zipWith (fun (n : Nat) q => (n : ℝ) * Prod.fst q) sizes (binPoints (0.1 :: edges) points)).sum = (inside.map (·.1)).sum ∧
        (List.zipWith (fun (n : Nat) q => (n : ℝ) * Prod.snd q) sizes (binPoints (0.1 :: edges) points)).sum = (inside.map (·.2)).sum := by
  have hout : ∀ x, ¬ (0.1 ≤ x ∧ x ≤ (0.1 :: edges).getLast (by simp)) → (binsOf (0.1 :: edges)).filter (fun bin => inBin bin x) = [] := by
    intro x hx
    refine no_bin edges 0.1 h x ?_
    by_contra hc
    rw [not_or, not_lt, not_lt] at hc
    exact hx hc
  have heq : binPoints (0.1 :: edges) points = binPoints (0.1 :: edges) inside := by
    unfold binPoints
    refine List.filterMap_congr fun bin hbin => ?_
    have : (points.filter fun p => inBin bin p.1) = inside.filter fun p => inBin bin p.1 := by
      rw [hin, List.filter_filter]
      refine List.filter_congr fun p _ => ?_
      by_cases hp : 0.1 ≤ p.1 ∧ p.1 ≤ (0.1 :: edges).getLast (by simp)
      · rw [decide_eq_true hp, Bool.and_true]
      · rw [decide_eq_false hp, Bool.and_false]
        have := List.filter_eq_nil_iff.1 (hout p.1 hp) bin hbin
        simpa using this
    rw [this]
  refine ⟨fun x => ?_, heq, ?_⟩
  · by_cases hx : 0.1 ≤ x ∧ x ≤ (0.1 :: edges).getLast (by simp)
    · rw [if_pos hx]
      exact C82_one_bin edges 0.1 h hne x hx.1 hx.2
    · rw [if_neg hx, hout x hx]
      rfl
  · rw [heq]
    refine C82_partial edges inside h hne fun p hp => ?_
    rw [hin] at hp
    exact of_decide_eq_true (List.mem_filter.1 hp).2

/-- **C82 is false**: a camera with charges 0.05 and 10 is drawn as if only the latter existed, although the plot keeps all charges above 0.001. -/
theorem C82_false : binPoints [0.1, 10] [(0.05, 3), (10, 1)] = [(10, 1)] := by
  have h : ([(0.05, 3), (10, 1)] : List (ℝ × ℝ)).filter (fun p => inBin (0.1, 10, true) p.1) = [(10, 1)] := by
    norm_num [inBin, List.filter_cons]
  simp only [binPoints, binsOf, List.isEmpty_nil, List.filterMap_cons, List.filterMap_nil, h]
  norm_num

example : ([0.1, 1, 10] : List ℝ).Pairwise (· < ·) ∧ (∀ p ∈ ([(0.5, 3), (10, 1)] : List (ℝ × ℝ)), 0.1 ≤ p.1 ∧ p.1 ≤ 10) := by
  constructor
  · norm_num
  · norm_num

end Verif.Props
