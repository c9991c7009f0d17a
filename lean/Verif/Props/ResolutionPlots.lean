import Verif.Model.ResolutionPlots
import Verif.Props.LimitCurves
import Mathlib.Tactic.Positivity

/-!
# C120: error bars of the charge resolution and curves relative to the requirement
-/

namespace Verif.Props

open Verif.Py Verif.Model

/-- the point `p` stands for the points of a group of charges: the means of charge and resolution, and the error of a mean of
independent values with the errors `1 / √charge` -/
structure Averages (g : List (ℝ × ℝ)) (p : ErrPoint) : Prop where
  some : g ≠ []
  meanX : p.x * g.length = (g.map (·.1)).sum
  meanY : p.y * g.length = (g.map (·.2)).sum
  error : 0 ≤ p.err ∧ (p.err * g.length) ^ 2 = (g.map fun q => 1 / q.1).sum

theorem filter_map_err (edges : List ℝ) (bin : ℝ × ℝ × Bool) (points : List (ℝ × ℝ)) :
    (points.map fun p => (⟨p.1, p.2, 1 / Real.sqrt p.1⟩ : ErrPoint)).filter (fun p => inBin bin p.x) =
      (points.filter fun p => inBin bin p.1).map fun p => ⟨p.1, p.2, 1 / Real.sqrt p.1⟩ := by
  rw [List.filter_map]; rfl

theorem sum_sq_errors (g : List (ℝ × ℝ)) (h : ∀ p ∈ g, 0 < p.1) :
    ((g.map fun p => 1 / Real.sqrt p.1).map fun e => e ^ 2).sum = (g.map fun q => 1 / q.1).sum := by
  rw [List.map_map]
  congr 1
  refine List.map_congr_left fun p hp => ?_
  show (1 / Real.sqrt p.1) ^ 2 = 1 / p.1
  rw [div_pow, one_pow, Real.sq_sqrt (h p hp).le]

theorem averages_group (g : List (ℝ × ℝ)) (hg : g ≠ []) (h : ∀ p ∈ g, 0 < p.1) :
    Averages g ⟨(g.map (·.1)).sum / g.length, (g.map (·.2)).sum / g.length, sumErrors (g.map fun p => 1 / Real.sqrt p.1)⟩ := by
  have hl : ((g.length : Nat) : ℝ) ≠ 0 := by rw [Nat.cast_ne_zero]; exact fun h => hg (List.length_eq_zero_iff.1 h)
  refine ⟨hg, div_mul_cancel₀ _ hl, div_mul_cancel₀ _ hl, ?_, ?_⟩
  · unfold sumErrors; positivity
  · show (sumErrors _ * _) ^ 2 = _
    unfold sumErrors
    rw [List.length_map, div_mul_cancel₀ _ hl, sum_sq_errors g h]
    rw [Real.sq_sqrt]
    refine List.sum_nonneg fun x hx => ?_
    obtain ⟨p, hp, rfl⟩ := List.mem_map.1 hx
    exact one_div_nonneg.2 (h p hp).le

/-- C120: one point for each bin with charges, in order, which averages the points of this bin with the error of their mean. -/
theorem C120_error_bars (edges : List ℝ) (points : List (ℝ × ℝ)) (h : ∀ p ∈ points, 0 < p.1) :
    List.Forall₂ Averages (((binsOf edges).map fun bin => points.filter fun p => inBin bin p.1).filter (· ≠ []))
      (resolutionPoints edges points) := by
  unfold resolutionPoints binErrPoints
  induction binsOf edges with
  | nil => exact .nil
  | cons bin bins ih =>
    rw [List.map_cons, List.filterMap_cons, filter_map_err edges bin points]
    cases hg : points.filter fun p => inBin bin p.1 with
    | nil => simpa using ih
    | cons a g =>
      rw [List.filter_cons_of_pos (by simp)]
      have hpos : ∀ p ∈ a :: g, 0 < p.1 := fun p hp => h p (List.mem_of_mem_filter (by rw [hg]; exact hp))
      have := averages_group (a :: g) (by simp) hpos
      refine .cons ?_ ih
      simpa only [List.map_map, List.map_cons, List.length_map, Function.comp_def, List.length_cons] using this

/-- C120: what is drawn are these points with the error bars. -/
theorem C120_drawn (edges : List ℝ) (points : List (ℝ × ℝ)) (h : ∀ p ∈ points, 0 < p.1) :
    List.Forall₂ (fun g d => ∃ y, d.2.1 = some y ∧ Averages g ⟨d.1, y, d.2.2⟩)
      (((binsOf edges).map fun bin => points.filter fun p => inBin bin p.1).filter (· ≠ []))
      (drawResolution (resolutionPoints edges points)) := by
  unfold drawResolution
  rw [List.forall₂_map_right_iff]
  exact (C120_error_bars edges points h).imp fun g p hp => ⟨p.y, rfl, hp⟩

/-- C120: the plotted points and the points of C82 are the same. -/
theorem C120_same_points (edges : List ℝ) (points : List (ℝ × ℝ)) :
    (resolutionPoints edges points).map (fun p => (p.x, p.y)) = binPoints edges points := by
  unfold resolutionPoints binErrPoints binPoints
  rw [List.map_filterMap]
  refine List.filterMap_congr fun bin _ => ?_
  rw [filter_map_err edges bin points]
  cases points.filter fun p => inBin bin p.1 with
  | nil => rfl
  | cons a g => simp [Function.comp_def]

theorem sum_le_of (g : List (ℝ × ℝ)) (e : ℝ) (h : ∀ p ∈ g, 1 / p.1 ≤ e ^ 2) : (g.map fun q => 1 / q.1).sum ≤ g.length * e ^ 2 := by
  induction g with
  | nil => simp
  | cons a g ih =>
    have h1 := h a (by simp)
    have h2 := ih fun p hp => h p (by simp [hp])
    rw [List.map_cons, List.sum_cons, List.length_cons]
    push_cast
    linarith

/-- C120: averaging never makes the error larger than the error of the faintest charge, and more points make it smaller. -/
theorem C120_error_bound (g : List (ℝ × ℝ)) (p : ErrPoint) (hp : Averages g p) (x : ℝ) (hx : 0 < x) (hg : ∀ q ∈ g, x ≤ q.1) :
    0 < p.err ∧ p.err ≤ 1 / Real.sqrt (g.length * x) := by
  have hl : 0 < ((g.length : Nat) : ℝ) := by rw [Nat.cast_pos]; exact List.length_pos_iff.2 hp.some
  obtain ⟨h0, h1⟩ := hp.error
  have hle : (g.map fun q => 1 / q.1).sum ≤ g.length * (1 / Real.sqrt x) ^ 2 := by
    refine sum_le_of g _ fun q hq => ?_
    rw [div_pow, one_pow, Real.sq_sqrt hx.le]
    exact one_div_le_one_div_of_le hx (hg q hq)
  have hpos : 0 < (g.map fun q => 1 / q.1).sum := by
    cases g with
    | nil => exact absurd rfl hp.some
    | cons a g =>
      rw [List.map_cons, List.sum_cons]
      have h2 : 0 < 1 / a.1 := one_div_pos.2 (lt_of_lt_of_le hx (hg a (by simp)))
      have h3 : 0 ≤ (g.map fun q => 1 / q.1).sum := by
        refine List.sum_nonneg fun y hy => ?_
        obtain ⟨q, hq, rfl⟩ := List.mem_map.1 hy
        exact one_div_nonneg.2 (le_trans hx.le (hg q (by simp [hq])))
      linarith
  constructor
  · rcases h0.lt_or_eq with h | h
    · exact h
    · rw [← h] at h1; simp at h1; simp only [one_div] at hpos; linarith
  · rw [← pow_le_pow_iff_left₀ h0 (by positivity) two_ne_zero]
    rw [div_pow, one_pow, Real.sq_sqrt hx.le] at hle
    rw [div_pow, one_pow, Real.sq_sqrt (by positivity)]
    have h2 : p.err ^ 2 * ((g.length : ℝ)) ^ 2 ≤ g.length * (1 / x) := by rw [← mul_pow, h1]; exact hle
    rw [le_div_iff₀ (by positivity)]
    have h3 : g.length * (1 / x) * x = (g.length : ℝ) := by field_simp
    have h4 : p.err ^ 2 * ((g.length : ℝ)) ^ 2 * x ≤ (g.length : ℝ) := by
      calc _ ≤ g.length * (1 / x) * x := mul_le_mul_of_nonneg_right h2 hx.le
        _ = _ := h3
    have h5 : (p.err ^ 2 * (g.length * x)) * g.length ≤ 1 * g.length := by nlinarith
    exact le_of_mul_le_mul_right h5 hl

/-- C120: relative to the requirement, the requirement is 1, the goal below it and the Poisson limit below the goal; above 1000 photoelectrons
nothing is drawn. -/
theorem C120_relative_curves (true_ : List ℝ) (i : Nat) (x : ℝ) (h : true_[i]? = some x) (h0 : 0 < x) :
    (x ≤ 1000 → ∃ p g, (relativePoisson true_)[i]? = some (some p) ∧ (relativeGoal true_)[i]? = some (some g) ∧
      (relativeRequirement true_)[i]? = some (some 1) ∧ 0 < p ∧ p < g ∧ g < 1) ∧
    (1000 < x → (relativePoisson true_)[i]? = some none ∧ (relativeGoal true_)[i]? = some none ∧
      (relativeRequirement true_)[i]? = some none) := by
  constructor
  · intro h1
    obtain ⟨p, g, r, hp, hg, hr, hp0, hpg, hgr⟩ := C67_order true_ i x h h0 h1
    have hr0 : 0 < r := by linarith
    refine ⟨p / r, g / r, ?_, ?_, ?_, div_pos hp0 hr0, div_lt_div_of_pos_right hpg hr0, (div_lt_one hr0).2 hgr⟩
    · unfold relativePoisson divideCurves
      rw [List.getElem?_zipWith, List.getElem?_map, hp, hr]; rfl
    · unfold relativeGoal divideCurves
      rw [List.getElem?_zipWith, hg, hr]
    · unfold relativeRequirement divideCurves
      rw [List.getElem?_zipWith, hr]
      simp [hr0.ne']
  · intro h1
    have hr := (C67_domain true_ i x h).1.2 h1
    have hi : i < true_.length := (List.getElem?_eq_some_iff.1 h).1
    refine ⟨?_, ?_, ?_⟩
    · unfold relativePoisson divideCurves
      have : (poissonLimit true_)[i]? = some (Real.sqrt x / x) := by
        unfold poissonLimit; rw [List.getElem?_map, h]; rfl
      rw [List.getElem?_zipWith, List.getElem?_map, this, hr]; rfl
    · unfold relativeGoal divideCurves
      have hl : i < (goal true_).length := by unfold goal maskAbove; rw [List.length_map]; exact hi
      rw [List.getElem?_zipWith, hr, List.getElem?_eq_getElem hl]
      cases (goal true_)[i] <;> rfl
    · unfold relativeRequirement divideCurves
      rw [List.getElem?_zipWith, hr]

/-- a drawn point relative to the requirement: value and error of `p` in units of the requirement at its charge -/
def RelativePoint (p : ErrPoint) (d : ℝ × Option ℝ × ℝ) : Prop :=
  ∃ r v, requirement [p.x] = [some r] ∧ d = (p.x, some v, p.err / r) ∧ v * r = p.y

/-- C120 (partial): in the plot relative to the requirement, the charges and values are those of the points, in units of the requirement.
Missing: the errors, refuted by `C120_false`; the values above 1000 photoelectrons are NaN. -/
theorem C120_relative_partial (ps : List ErrPoint) (i : Nat) (p : ErrPoint) (h : ps[i]? = some p) (h0 : 0 < p.x) :
    (p.x ≤ 1000 → ∃ r v, requirement [p.x] = [some r] ∧ (drawRelative ps)[i]? = some (p.x, some v, p.err) ∧ v * r = p.y) ∧
    (1000 < p.x → (drawRelative ps)[i]? = some (p.x, none, p.err)) := by
  have hx : (ps.map (·.x))[i]? = some p.x := by rw [List.getElem?_map, h]; rfl
  have hy : (ps.map (·.y))[i]? = some p.y := by rw [List.getElem?_map, h]; rfl
  constructor
  · intro h1
    obtain ⟨p', g, r, -, -, hr, hp0, hpg, hgr⟩ := C67_order (ps.map (·.x)) i p.x hx h0 h1
    have hr0 : 0 < r := by linarith
    refine ⟨r, p.y / r, ?_, ?_, div_mul_cancel₀ _ hr0.ne'⟩
    · unfold requirement at hr ⊢
      rw [getElem?_maskAbove _ _ _ i p.x hx] at hr
      unfold maskAbove
      rw [List.map_singleton, Option.some.inj hr]
    · unfold drawRelative relativeToRequirement
      have h2 : (List.zipWith (fun v r => r.map fun q => v / q) (ps.map (·.y)) (requirement (ps.map (·.x))))[i]? = some (some (p.y / r)) := by
        rw [List.getElem?_zipWith, hr, hy]; rfl
      rw [List.getElem?_map, show (ps.zip _)[i]? = some (p, some (p.y / r)) from List.getElem?_zip_eq_some.2 ⟨h, h2⟩]
      rfl
  · intro h1
    have hr := (C67_domain (ps.map (·.x)) i p.x hx).1.2 h1
    unfold drawRelative relativeToRequirement
    have h2 : (List.zipWith (fun v r => r.map fun q => v / q) (ps.map (·.y)) (requirement (ps.map (·.x))))[i]? = some none := by
      rw [List.getElem?_zipWith, hr, hy]; rfl
    rw [List.getElem?_map, show (ps.zip _)[i]? = some (p, none) from List.getElem?_zip_eq_some.2 ⟨h, h2⟩]
    rfl

/-- C120 is false: the error bars relative to the requirement are not divided; at 100 photoelectrons (requirement about 0.16) they are drawn
six times too small. -/
theorem C120_false : ¬ ∀ ps : List ErrPoint, (∀ p ∈ ps, 0 < p.x ∧ p.x ≤ 1000) → List.Forall₂ RelativePoint ps (drawRelative ps) := by
  intro h
  have h1 := h [⟨100, 1 / 5, 1 / 10⟩] (by intro p hp; rw [List.mem_singleton] at hp; subst hp; norm_num)
  obtain ⟨r, v, hr, hd, -⟩ := (C120_relative_partial [⟨100, 1 / 5, 1 / 10⟩] 0 ⟨100, 1 / 5, 1 / 10⟩ rfl (by norm_num)).1 (by norm_num)
  have hl := (List.forall₂_iff_get.1 h1)
  obtain ⟨hlen, hget⟩ := List.getElem?_eq_some_iff.1 hd
  have h2 := hl.2 0 (by simp) hlen
  simp only [List.get_eq_getElem] at h2
  rw [hget] at h2
  obtain ⟨r', v', hr', he, -⟩ := h2
  simp only [List.getElem_cons_zero] at hr' he
  have hrr : r' = r := by rw [hr] at hr'; simpa using hr'.symm
  subst hrr
  have he : (1 / 10 : ℝ) = 1 / 10 / r' := by
    rw [Prod.mk.injEq, Prod.mk.injEq] at he
    exact he.2.2
  have hr1 : r' < 1 := by
    unfold requirement maskAbove at hr
    rw [List.map_singleton, if_neg (by norm_num)] at hr
    have : r' = limitCurve 100 (Real.sqrt (4.0 + 3.0)) 0 1.2 0.1 := by simpa using hr.symm
    rw [this]
    unfold limitCurve
    rw [div_lt_one (by norm_num), Real.sqrt_lt' (by norm_num)]
    have : Real.sqrt (4.0 + 3.0) < 3 := by rw [Real.sqrt_lt' (by norm_num)]; norm_num
    norm_num at this ⊢
    linarith
  have hr0 : r' ≠ 0 := by rintro rfl; norm_num at he
  rw [eq_div_iff hr0] at he
  linarith

example : ∃ p : ErrPoint, resolutionPoints [0.1, 10] [(4, 1), (4, 3)] = [p] ∧ p.x = 4 ∧ p.y = 2 := by
  have h := C120_same_points [0.1, 10] [(4, 1), (4, 3)]
  have hb : binPoints [0.1, 10] [(4, 1), (4, 3)] = [(4, 2)] := by
    have hf : ([(4, 1), (4, 3)] : List (ℝ × ℝ)).filter (fun p => inBin (0.1, 10, true) p.1) = [(4, 1), (4, 3)] := by
      norm_num [inBin, List.filter_cons]
    simp only [binPoints, binsOf, List.isEmpty_nil, List.filterMap_cons, List.filterMap_nil, hf]
    norm_num
  rw [hb] at h
  cases hr : resolutionPoints [0.1, 10] [(4, 1), (4, 3)] with
  | nil => rw [hr] at h; simp at h
  | cons p l =>
    rw [hr] at h
    cases l with
    | nil => simp at h; exact ⟨p, rfl, h.1, h.2⟩
    | cons q l => simp at h

example : Averages [((4 : ℝ), (1 : ℝ)), (4, 3)] ⟨4, 2, 1 / Real.sqrt 8⟩ := by
  refine ⟨by simp, by norm_num, by norm_num, by positivity, ?_⟩
  rw [mul_pow, div_pow, one_pow, Real.sq_sqrt (by norm_num)]
  norm_num

end Verif.Props
