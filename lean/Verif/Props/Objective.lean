import Verif.Props.Spectra
import Verif.Props.FitState
import Mathlib.Algebra.Order.Monoid.Unbundled.WithTop
import Mathlib.Algebra.BigOperators.Group.List.Basic
import Mathlib.Data.List.GetD

/-! # C144–C147: the function minimised by the fits of spectra -/

namespace Verif.Props

open Verif.Py Verif.Model Verif.Spec Verif.Lemmas

/-! ## The sum over the illuminations -/

open Classical in
/-- what one illumination adds; infinity if the spectrum has no area -/
noncomputable def illuminationCost (xs ys sp : List ℝ) : WithTop ℝ :=
  if polygonArea sp xs = 0 then ⊤
  else (((List.zipWith (fun y s => -2 * poissonLogpmf y (s * (polygonArea ys xs / polygonArea sp xs))) ys sp).sum : ℝ) : WithTop ℝ)

theorem minimize_sum (calculate : List ℝ → Dict String Nat → List ℝ → Except Err (List ℝ)) (xs : List ℝ) (yss : List (List ℝ)) (lookup : List (Dict String Nat))
    (values : List ℝ) (g : Nat → List ℝ) (h : ∀ (i : Nat) d, lookup[i]? = some d → calculate xs d values = .ok (g i)) (hlen : yss.length = lookup.length) :
    minimizeFunction calculate xs yss lookup values = .ok (((List.range lookup.length).map fun i => illuminationCost xs (yss.getD i []) (g i)).sum) := by
  unfold minimizeFunction
  induction lookup generalizing yss g with
  | nil => simp [getLikelihood]
  | cons d ds ih =>
    cases yss with
    | nil => simp at hlen
    | cons ys yss =>
      have ih' := ih yss (fun i => g (i + 1)) (fun i d' hi => h (i + 1) d' (by simpa using hi)) (by simpa using hlen)
      rw [getLikelihood, h 0 d rfl]
      simp only [illuminationLikelihood, trapzR_polygon]
      rw [List.length_cons, List.range_succ_eq_map]
      simp only [List.map_cons, List.map_map, List.sum_cons, List.getD_cons_zero, Function.comp_def, List.getD_cons_succ, Nat.succ_eq_add_one]
      by_cases h0 : polygonArea (g 0) xs = 0
      · simp [illuminationCost, h0]
      · rw [if_neg h0]
        simp only
        cases hl : getLikelihood calculate xs values ds yss with
        | ok l =>
          rw [hl] at ih'
          simp only [Except.ok.injEq] at ih' ⊢
          rw [← ih', illuminationCost, if_neg h0]
          exact WithTop.coe_add _ _
        | error e =>
          rw [hl] at ih'
          cases e with
          | zeroDivision =>
            simp only [Except.ok.injEq] at ih' ⊢
            rw [← ih']
            simp
          | _ => cases ih'

/-- the spectrum of each illumination, by name -/
theorem mapm_sum (n : Nat) (v : String → ℝ) (xs : List ℝ) (yss : List (List ℝ)) (hlen : yss.length = n) :
    minimizeFunction mapmCalculate xs yss (mapmFitter n).coll.prep.lookup ((mapmFitter n).coll.prep.names.map v) =
      .ok (((List.range n).map fun i => illuminationCost xs (yss.getD i [])
        (xs.map (mapmSpe (v "eped") (v "eped_sigma") (v "spe") (v "spe_sigma") (v (lambdaName i))))).sum) := by
  have hb := C61_new n mapmParams (C61_fitters n).2
  have hn : (mapmFitter n).coll.prep.lookup.length = n := hb.tables
  rw [minimize_sum _ _ _ _ _ (fun i => xs.map (mapmSpe (v "eped") (v "eped_sigma") (v "spe") (v "spe_sigma") (v (lambdaName i)))) ?_ (by rw [hn, hlen]), hn]
  intro i d hd
  have a := paramValue_books n mapmParams _ hb v
  have a1 := a ⟨"eped", 0, (-10, 10), false, false⟩ (by simp [mapmParams]) i d hd
  have a2 := a ⟨"eped_sigma", 9, (0, 20), false, false⟩ (by simp [mapmParams]) i d hd
  have a3 := a ⟨"spe", 25, (0, 40), false, false⟩ (by simp [mapmParams]) i d hd
  have a4 := a ⟨"spe_sigma", 2, (0, 20), false, false⟩ (by simp [mapmParams]) i d hd
  have a5 := a ⟨"lambda_", 7 / 10, (0, 6), false, true⟩ (by simp [mapmParams]) i d hd
  unfold mapmCalculate
  simp only [mapmFitter, Fitter.new] at a1 a2 a3 a4 a5 ⊢
  rw [a1, a2, a3, a4, a5]
  rfl

theorem gentile_sum (n : Nat) (v : String → ℝ) (xs : List ℝ) (yss : List (List ℝ)) (hlen : yss.length = n) :
    minimizeFunction gentileCalculate xs yss (gentileFitter n).coll.prep.lookup ((gentileFitter n).coll.prep.names.map v) =
      .ok (((List.range n).map fun i => illuminationCost xs (yss.getD i [])
        (xs.map (gentileSpe (v "eped") (v "eped_sigma") (v "spe") (v "spe_sigma") (v "opct") (v (lambdaName i))))).sum) := by
  have hb := C61_new n gentileParams (C61_fitters n).1
  have hn : (gentileFitter n).coll.prep.lookup.length = n := hb.tables
  rw [minimize_sum _ _ _ _ _ (fun i => xs.map (gentileSpe (v "eped") (v "eped_sigma") (v "spe") (v "spe_sigma") (v "opct") (v (lambdaName i)))) ?_
    (by rw [hn, hlen]), hn]
  intro i d hd
  have a := paramValue_books n gentileParams _ hb v
  have a1 := a ⟨"eped", 0, (-10, 10), false, false⟩ (by simp [gentileParams]) i d hd
  have a2 := a ⟨"eped_sigma", 9, (0, 20), false, false⟩ (by simp [gentileParams]) i d hd
  have a3 := a ⟨"spe", 25, (0, 40), false, false⟩ (by simp [gentileParams]) i d hd
  have a4 := a ⟨"spe_sigma", 2, (0, 20), false, false⟩ (by simp [gentileParams]) i d hd
  have a5 := a ⟨"lambda_", 7 / 10, (0, 6), false, true⟩ (by simp [gentileParams]) i d hd
  have a6 := a ⟨"opct", 2 / 5, (0, 1), false, false⟩ (by simp [gentileParams]) i d hd
  unfold gentileCalculate
  simp only [gentileFitter, Fitter.new] at a1 a2 a3 a4 a5 a6 ⊢
  rw [a1, a2, a3, a4, a5, a6]
  rfl

/-! ## The histogram of a request -/

/-- using a fitter without giving it other parameters -/
def KeepsParams : FitAction → Prop
  | .update _ => False
  | _ => True

/-- a fitter that has been used: fits, completed or not, configurations, updates of the starting values -/
def Used (f₀ f : Fitter) : Prop := ∃ (m : FitRequest → Except Err (Dict String ℚ)) (actions : List FitAction), (∀ a ∈ actions, KeepsParams a) ∧
  f = actions.foldl (FitAction.after m) f₀

theorem lookupTyped_kept (c : Collection) : c.lookupTyped.1.n = c.n ∧ c.lookupTyped.1.prep = c.prep := by
  unfold Collection.lookupTyped
  cases c.typed <;> exact ⟨rfl, rfl⟩

theorem apply_coll (m : FitRequest → Except Err (Dict String ℚ)) (f : Fitter) (charges : List (List ℚ)) :
    (f.apply m charges).1.coll = f.coll ∨ (f.apply m charges).1.coll = f.coll.lookupTyped.1 := by
  unfold Fitter.apply
  split
  · exact Or.inl rfl
  split
  · exact Or.inl rfl
  · right
    simp only
    split <;> rfl

theorem used_coll (f₀ f : Fitter) (h₀ : Reached f₀.coll) (h : Used f₀ f) : Reached f.coll ∧ f.coll.n = f₀.coll.n ∧ f.coll.prep = f₀.coll.prep := by
  obtain ⟨m, actions, hk, rfl⟩ := h
  induction actions generalizing f₀ with
  | nil => exact ⟨h₀, rfl, rfl⟩
  | cons a as ih =>
    have step : Reached (a.after m f₀).coll ∧ (a.after m f₀).coll.n = f₀.coll.n ∧ (a.after m f₀).coll.prep = f₀.coll.prep := by
      cases a with
      | fit charges =>
        simp only [FitAction.after]
        rcases apply_coll m f₀ charges with e | e
        · rw [e]; exact ⟨h₀, rfl, rfl⟩
        · rw [e]; exact ⟨Reached.typed _ h₀, lookupTyped_kept _⟩
      | load config =>
        cases config with
        | none => exact ⟨h₀, rfl, rfl⟩
        | some c => exact ⟨Reached.set _ _ h₀, rfl, rfl⟩
      | initial i =>
        simp only [FitAction.after, Fitter.updateInitial]
        split
        · exact ⟨h₀, rfl, rfl⟩
        · exact ⟨Reached.set _ _ h₀, rfl, rfl⟩
      | update ps => exact absurd (hk _ List.mem_cons_self) (by simp [KeepsParams])
    obtain ⟨r1, r2, r3⟩ := ih (a.after m f₀) step.1 fun b hb => hk b (List.mem_cons_of_mem _ hb)
    exact ⟨r1, r2.trans step.2.1, r3.trans step.2.2⟩

/-- the request of a used fitter -/
theorem used_request (f₀ f : Fitter) (h₀ : Reached f₀.coll) (h : Used f₀ f) (m : FitRequest → Except Err (Dict String ℚ)) (charges : List (List ℚ)) (q : FitRequest)
    (hq : (f.apply m charges).2 = .ok q) :
    charges.length = f₀.coll.n ∧ q.names = f₀.coll.prep.names ∧ q.lookup = f₀.coll.prep.lookup ∧ q.histX = midpoints (histEdges f.nBins (outerEdges f.range)) ∧
      q.histY = charges.map (histCounts f.nBins (outerEdges f.range)) ∧ (0 < f₀.coll.n → 0 < f.nBins ∧ f.range.1 ≤ f.range.2) := by
  obtain ⟨r1, r2, r3⟩ := used_coll f₀ f h₀ h
  obtain ⟨a1, a2, a3, -⟩ := apply_ok m f charges q hq
  rw [a3]
  exact ⟨by rw [a1, r2], by rw [r3], by rw [C61_typed _ r1, r3], rfl, rfl, by rw [← r2]; exact a2⟩

theorem mapm_objective (n : Nat) (f : Fitter) (h : Used (mapmFitter n) f) (m : FitRequest → Except Err (Dict String ℚ)) (charges : List (List ℚ)) (q : FitRequest)
    (hq : (f.apply m charges).2 = .ok q) (v : String → ℝ) :
    objective mapmCalculate q v = .ok (((List.range n).map fun i =>
      illuminationCost (q.histX.map fun (x : ℚ) => (x : ℝ)) ((q.histY.getD i []).map fun (y : ℚ) => (y : ℝ))
        ((q.histX.map fun (x : ℚ) => (x : ℝ)).map (mapmSpe (v "eped") (v "eped_sigma") (v "spe") (v "spe_sigma") (v (lambdaName i))))).sum) := by
  obtain ⟨a1, a2, a3, a4, a5, -⟩ := used_request _ _ (Reached.new _ _) h m charges q hq
  have hy : q.histY.length = n := by rw [a5, List.length_map, a1]; rfl
  unfold objective
  rw [a2, a3, mapm_sum n v _ _ (by rw [List.length_map, hy])]
  refine congrArg (fun l => Except.ok (List.sum l)) (List.map_congr_left fun i hi => ?_)
  have hi' : i < q.histY.length := by rw [hy]; exact List.mem_range.1 hi
  simp [List.getD_eq_getElem?_getD, List.getElem?_map, List.getElem?_eq_getElem hi']

theorem gentile_objective (n : Nat) (f : Fitter) (h : Used (gentileFitter n) f) (m : FitRequest → Except Err (Dict String ℚ)) (charges : List (List ℚ)) (q : FitRequest)
    (hq : (f.apply m charges).2 = .ok q) (v : String → ℝ) :
    objective gentileCalculate q v = .ok (((List.range n).map fun i =>
      illuminationCost (q.histX.map fun (x : ℚ) => (x : ℝ)) ((q.histY.getD i []).map fun (y : ℚ) => (y : ℝ))
        ((q.histX.map fun (x : ℚ) => (x : ℝ)).map (gentileSpe (v "eped") (v "eped_sigma") (v "spe") (v "spe_sigma") (v "opct") (v (lambdaName i))))).sum) := by
  obtain ⟨a1, a2, a3, a4, a5, -⟩ := used_request _ _ (Reached.new _ _) h m charges q hq
  have hy : q.histY.length = n := by rw [a5, List.length_map, a1]; rfl
  unfold objective
  rw [a2, a3, gentile_sum n v _ _ (by rw [List.length_map, hy])]
  refine congrArg (fun l => Except.ok (List.sum l)) (List.map_congr_left fun i hi => ?_)
  have hi' : i < q.histY.length := by rw [hy]; exact List.mem_range.1 hi
  simp [List.getD_eq_getElem?_getD, List.getElem?_map, List.getElem?_eq_getElem hi']

/-! ## C144 -/

theorem polygonArea_scale (c : ℝ) (ys xs : List ℝ) : polygonArea (ys.map fun y => y * c) xs = polygonArea ys xs * c := by
  unfold polygonArea
  rw [List.length_map, Finset.sum_mul]
  refine Finset.sum_congr rfl fun i hi => ?_
  have hi' := Finset.mem_range.1 hi
  rw [List.getD_eq_getElem?_getD, List.getD_eq_getElem?_getD (l := List.map _ _), List.getD_eq_getElem?_getD, List.getD_eq_getElem?_getD (l := List.map _ _),
    List.getD_eq_getElem?_getD (l := ys), List.getD_eq_getElem?_getD (l := ys)]
  simp only [List.getElem?_map, List.getElem?_eq_getElem (show i < ys.length by omega), List.getElem?_eq_getElem (show i + 1 < ys.length by omega),
    Option.map_some, Option.getD_some]
  ring

theorem polygonArea_pos (ys xs : List ℝ) (hx : xs.Pairwise (· < ·)) (hlen : ys.length = xs.length) (h2 : 2 ≤ xs.length) (hy : ∀ y ∈ ys, 0 ≤ y) (hp : ∃ y ∈ ys, 0 < y) :
    0 < polygonArea ys xs := by
  have hstep : ∀ i, i + 1 < xs.length → 0 < xs.getD (i + 1) 0 - xs.getD i 0 := by
    intro i hi
    rw [List.getD_eq_getElem _ _ hi, List.getD_eq_getElem _ _ (by omega : i < xs.length)]
    have := List.pairwise_iff_getElem.1 hx i (i + 1) (by omega) hi (by omega)
    linarith
  have hn : ∀ i, 0 ≤ ys.getD i 0 := by
    intro i
    by_cases hi : i < ys.length
    · rw [List.getD_eq_getElem _ _ hi]; exact hy _ (List.getElem_mem _)
    · rw [List.getD_eq_default _ _ (by omega)]
  obtain ⟨y, hy', hpos⟩ := hp
  obtain ⟨k, hk, rfl⟩ := List.mem_iff_getElem.1 hy'
  unfold polygonArea
  rw [hlen, min_self]
  by_cases hk' : k + 1 < xs.length
  · refine Finset.sum_pos' (fun i hi => ?_) ⟨k, Finset.mem_range.2 (by omega), ?_⟩
    · have := Finset.mem_range.1 hi
      exact mul_nonneg (hstep i (by omega)).le (div_nonneg (add_nonneg (hn _) (hn _)) (by norm_num))
    · refine mul_pos (hstep k hk') (div_pos (add_pos_of_pos_of_nonneg ?_ (hn _)) (by norm_num))
      rw [List.getD_eq_getElem _ _ hk]; exact hpos
  · refine Finset.sum_pos' (fun i hi => ?_) ⟨k - 1, Finset.mem_range.2 (by omega), ?_⟩
    · have := Finset.mem_range.1 hi
      exact mul_nonneg (hstep i (by omega)).le (div_nonneg (add_nonneg (hn _) (hn _)) (by norm_num))
    · refine mul_pos (hstep (k - 1) (by omega)) (div_pos (add_pos_of_nonneg_of_pos (hn _) ?_) (by norm_num))
      rw [show k - 1 + 1 = k by omega, List.getD_eq_getElem _ _ hk]; exact hpos

/-- the counts of an illumination have, for the spectrum `sp` at the points `xs`, a likelihood: `l` is minus twice the logarithm of the probability of the
counts, the expectations being proportional to the spectrum and having the area of the histogram -/
def IsLikelihood (xs : List ℝ) (counts : List Nat) (sp : List ℝ) (l : ℝ) : Prop :=
  ∃ c, polygonArea (sp.map fun s => s * c) xs = polygonArea (counts.map fun (k : Nat) => (k : ℝ)) xs ∧
    Real.exp (-l / 2) = (List.zipWith (fun (k : Nat) s => countProb k (s * c)) counts sp).prod

theorem cost_likelihood (xs sp : List ℝ) (counts : List Nat) (hx : xs.Pairwise (· < ·)) (h2 : 2 ≤ xs.length) (hs : sp.length = xs.length)
    (hc : counts.length = xs.length) (hpos : ∀ s ∈ sp, 0 < s) :
    ∃ l : ℝ, illuminationCost xs (counts.map fun (k : Nat) => (k : ℝ)) sp = (l : WithTop ℝ) ∧ IsLikelihood xs counts sp l := by
  have ha : 0 < polygonArea sp xs := polygonArea_pos sp xs hx hs h2 (fun s h => (hpos s h).le) ⟨sp[0]'(by omega), List.getElem_mem _, hpos _ (List.getElem_mem _)⟩
  unfold illuminationCost
  rw [if_neg ha.ne']
  refine ⟨_, rfl, polygonArea (counts.map fun (k : Nat) => (k : ℝ)) xs / polygonArea sp xs, ?_, ?_⟩
  · rw [polygonArea_scale]; field_simp
  · by_cases hz : ∃ k ∈ counts, 0 < k
    · obtain ⟨k, hk, hk0⟩ := hz
      have hy : 0 < polygonArea (counts.map fun (k : Nat) => (k : ℝ)) xs := by
        refine polygonArea_pos _ xs hx (by rw [List.length_map, hc]) h2 (fun y hy => ?_) ⟨(k : ℝ), List.mem_map_of_mem hk, by exact_mod_cast hk0⟩
        obtain ⟨j, -, rfl⟩ := List.mem_map.1 hy
        exact Nat.cast_nonneg j
      have hcp := div_pos hy ha
      generalize polygonArea (counts.map fun (k : Nat) => (k : ℝ)) xs / polygonArea sp xs = c at hcp
      rw [← exp_sum_log counts sp hpos c (.inl hcp)]
      congr 1
      clear hc hs hk ha hy
      induction counts generalizing sp with
      | nil => simp
      | cons k ks ih =>
        cases sp with
        | nil => simp
        | cons s ss =>
          simp only [List.map_cons, List.zipWith_cons_cons, List.sum_cons]
          rw [← ih ss fun s hs' => hpos s (List.mem_cons_of_mem _ hs')]
          have hmu : 0 < s * c := mul_pos (hpos s List.mem_cons_self) hcp
          have := ((C43_logpmf k (s * c)).1 hmu).1
          rw [this, C43_poisson k _ hmu]
          unfold countProb
          ring
    · have hall : ∀ k ∈ counts, k = 0 := by
        intro k hk
        by_contra h
        exact hz ⟨k, hk, Nat.pos_of_ne_zero h⟩
      have hrep : counts = List.replicate xs.length 0 := List.eq_replicate_iff.2 ⟨hc, hall⟩
      have hy : polygonArea (counts.map fun (k : Nat) => (k : ℝ)) xs = 0 := by
        unfold polygonArea
        refine Finset.sum_eq_zero fun i _ => ?_
        rw [hrep]
        simp [List.getD_eq_getElem?_getD, List.getElem?_replicate]
        right
        split <;> split <;> simp
      rw [hy, zero_div]
      clear hc hs ha hy hrep hx h2
      induction counts generalizing sp with
      | nil => simp
      | cons k ks ih =>
        cases sp with
        | nil => simp
        | cons s ss =>
          obtain rfl := hall k List.mem_cons_self
          have := ih ss (fun s hs' => hpos s (List.mem_cons_of_mem _ hs')) (by rintro ⟨k, hk, h⟩; exact hz ⟨k, List.mem_cons_of_mem _ hk, h⟩)
            (fun k hk => hall k (List.mem_cons_of_mem _ hk))
          simp only [List.map_cons, List.zipWith_cons_cons, List.sum_cons, List.prod_cons]
          rw [← this]
          simp [countProb, poissonLogpmf, xlogy, lgamma]

theorem centres_lt (nBins : Nat) (range : ℚ × ℚ) (hr : range.1 < range.2) :
    ((midpoints (histEdges nBins range)).map fun (x : ℚ) => (x : ℝ)).Pairwise (· < ·) ∧ (midpoints (histEdges nBins range)).length = nBins := by
  have hlen : (midpoints (histEdges nBins range)).length = nBins := by
    refine le_antisymm ?_ ?_
    · by_contra h
      have := midpoints_histEdges nBins range nBins
      rw [if_neg (lt_irrefl _), List.getElem?_eq_none_iff] at this
      omega
    · by_contra h
      have := midpoints_histEdges nBins range (midpoints (histEdges nBins range)).length
      rw [if_pos (by omega)] at this
      simp at this
  refine ⟨?_, hlen⟩
  rw [List.pairwise_map, List.pairwise_iff_getElem]
  intro i j hi hj hij
  have h1 := midpoints_histEdges nBins range i
  have h2 := midpoints_histEdges nBins range j
  rw [if_pos (by omega), List.getElem?_eq_getElem hi, Option.some.injEq] at h1
  rw [if_pos (by omega), List.getElem?_eq_getElem hj, Option.some.injEq] at h2
  rw [h1, h2]
  have hn : (0 : ℚ) < nBins := by exact_mod_cast (by omega : 0 < nBins)
  have hij' : (i : ℚ) < j := by exact_mod_cast hij
  have : range.1 + ((i : ℚ) + 1 / 2) * (range.2 - range.1) / nBins < range.1 + ((j : ℚ) + 1 / 2) * (range.2 - range.1) / nBins := by
    have : ((i : ℚ) + 1 / 2) * (range.2 - range.1) / nBins < ((j : ℚ) + 1 / 2) * (range.2 - range.1) / nBins :=
      div_lt_div_of_pos_right (mul_lt_mul_of_pos_right (by linarith) (by linarith)) hn
    linarith
  exact_mod_cast this

theorem outer_lt (range : ℚ × ℚ) (h : range.1 ≤ range.2) : (outerEdges range).1 < (outerEdges range).2 := by
  unfold outerEdges
  split
  · rename_i e
    simp only
    linarith
  · rename_i e
    exact lt_of_le_of_ne h e

theorem histCounts_nat (nBins : Nat) (range : ℚ × ℚ) (qs : List ℚ) : ∃ counts : List Nat, counts.length = nBins ∧
    histCounts nBins range qs = counts.map fun (k : Nat) => (k : ℚ) := by
  refine ⟨(binsOf (histEdges nBins range)).map fun bin => (qs.filter fun x => inBin bin x).length, ?_, ?_⟩
  · have hb : ∀ l : List ℚ, (binsOf l).length = l.length - 1 := by
      intro l
      induction l with
      | nil => rfl
      | cons a l ih =>
        cases l with
        | nil => rfl
        | cons b l => rw [binsOf, List.length_cons, ih]; simp
    rw [List.length_map, hb]
    simp [histEdges]
  · unfold histCounts
    rw [List.map_map]
    rfl

theorem sum_coe (l : List Nat) (g : Nat → WithTop ℝ) (P : Nat → ℝ → Prop) (h : ∀ i ∈ l, ∃ x : ℝ, g i = (x : WithTop ℝ) ∧ P i x) :
    ∃ ls : Nat → ℝ, (l.map g).sum = ((l.map ls).sum : ℝ) ∧ ∀ i ∈ l, P i (ls i) := by
  refine ⟨fun i => (g i).untopD 0, ?_, ?_⟩
  · induction l with
    | nil => simp
    | cons a l ih =>
      obtain ⟨x, hx, -⟩ := h a List.mem_cons_self
      rw [List.map_cons, List.sum_cons, ih fun i hi => h i (List.mem_cons_of_mem _ hi), List.map_cons, List.sum_cons, hx]
      simp
  · intro i hi
    obtain ⟨x, hx, hp⟩ := h i hi
    simp only [hx, WithTop.untopD_coe]
    exact hp

/-- the value the minimiser is given: a finite number, the sum over the illuminations of minus twice the logarithm of the probability of the counts -/
def IsObjective (q : FitRequest) (n : Nat) (spectrum : Nat → ℝ → ℝ) (value : Except Err (WithTop ℝ)) : Prop :=
  ∃ (counts : List (List Nat)) (ls : Nat → ℝ), q.histY = counts.map (fun ks => ks.map fun (k : Nat) => (k : ℚ)) ∧ counts.length = n ∧
    value = .ok (((List.range n).map ls).sum : ℝ) ∧
    ∀ i < n, IsLikelihood (q.histX.map fun (x : ℚ) => (x : ℝ)) (counts.getD i []) ((q.histX.map fun (x : ℚ) => (x : ℝ)).map (spectrum i)) (ls i)

theorem objective_of_positive (f : Fitter) (n : Nat) (q : FitRequest) (charges : List (List ℚ)) (hlen : charges.length = n)
    (hx : q.histX = midpoints (histEdges f.nBins (outerEdges f.range))) (hy : q.histY = charges.map (histCounts f.nBins (outerEdges f.range)))
    (h2 : 2 ≤ f.nBins) (hr : 0 < n → f.range.1 ≤ f.range.2) (spectrum : Nat → ℝ → ℝ) (hpos : ∀ i < n, ∀ x, 0 < spectrum i x) :
    IsObjective q n spectrum (.ok (((List.range n).map fun i =>
      illuminationCost (q.histX.map fun (x : ℚ) => (x : ℝ)) ((q.histY.getD i []).map fun (y : ℚ) => (y : ℝ))
        ((q.histX.map fun (x : ℚ) => (x : ℝ)).map (spectrum i))).sum)) := by
  choose counts hcl hc using fun qs : List ℚ => histCounts_nat f.nBins (outerEdges f.range) qs
  have hyi : ∀ i < n, q.histY.getD i [] = (counts (charges.getD i [])).map fun (k : Nat) => (k : ℚ) := by
    intro i hi
    rw [hy, List.getD_eq_getElem _ _ (by rw [List.length_map]; omega), List.getElem_map, hc, List.getD_eq_getElem _ _ (by omega)]
  obtain ⟨ls, e1, e2⟩ := sum_coe (List.range n) (fun i => illuminationCost (q.histX.map fun (x : ℚ) => (x : ℝ)) ((q.histY.getD i []).map fun (y : ℚ) => (y : ℝ))
      ((q.histX.map fun (x : ℚ) => (x : ℝ)).map (spectrum i)))
    (fun i l => IsLikelihood (q.histX.map fun (x : ℚ) => (x : ℝ)) (counts (charges.getD i [])) ((q.histX.map fun (x : ℚ) => (x : ℝ)).map (spectrum i)) l) (by
      intro i hi
      have hi' := List.mem_range.1 hi
      obtain ⟨c1, c2⟩ := centres_lt f.nBins (outerEdges f.range) (outer_lt _ (hr (by omega)))
      have e : (q.histY.getD i []).map (fun (y : ℚ) => (y : ℝ)) = (counts (charges.getD i [])).map fun (k : Nat) => (k : ℝ) := by
        rw [hyi i hi', List.map_map]
        refine List.map_congr_left fun k _ => ?_
        simp
      rw [e]
      rw [hx]
      refine cost_likelihood _ _ _ c1 (by rw [List.length_map, c2]; exact h2) (by rw [List.length_map]) (by rw [hcl, List.length_map, c2]) ?_
      intro s hs
      obtain ⟨x, -, rfl⟩ := List.mem_map.1 hs
      exact hpos i hi' x)
  refine ⟨charges.map counts, ls, ?_, by rw [List.length_map, hlen], by rw [e1], ?_⟩
  · rw [hy, List.map_map]
    exact List.map_congr_left fun qs _ => hc qs
  · intro i hi
    have := e2 i (List.mem_range.2 hi)
    rwa [List.getD_eq_getElem _ _ (by rw [List.length_map]; omega), List.getElem_map, ← List.getD_eq_getElem _ []]

/-- **C144** the function the minimiser of the MAPM fit is given, at all values of the parameters inside their limits (no width being zero) -/
theorem C144_mapm (n : Nat) (f : Fitter) (h : Used (mapmFitter n) f) (m : FitRequest → Except Err (Dict String ℚ)) (charges : List (List ℚ)) (q : FitRequest)
    (hq : (f.apply m charges).2 = .ok q) (h2 : 2 ≤ f.nBins) (v : String → ℝ) (hs : 0 < v "eped_sigma") (_hl : ∀ i < n, 0 < v (lambdaName i)) :
    IsObjective q n (fun i => mapmSpe (v "eped") (v "eped_sigma") (v "spe") (v "spe_sigma") (v (lambdaName i))) (objective mapmCalculate q v) := by
  obtain ⟨a1, -, -, a4, a5, a6⟩ := used_request _ _ (Reached.new _ _) h m charges q hq
  rw [mapm_objective n f h m charges q hq v]
  exact objective_of_positive f n q charges a1 a4 a5 h2 (fun hn => (a6 hn).2) _ fun i _ x => spectrum_nonneg _ (fun k => (Real.exp_pos _).le) _ _ _ _ _ _ hs

/-- the same for the SiPM fit -/
theorem C144_gentile (n : Nat) (f : Fitter) (h : Used (gentileFitter n) f) (m : FitRequest → Except Err (Dict String ℚ)) (charges : List (List ℚ)) (q : FitRequest)
    (hq : (f.apply m charges).2 = .ok q) (h2 : 2 ≤ f.nBins) (v : String → ℝ) (hs : 0 < v "eped_sigma") (_hl : ∀ i < n, 0 < v (lambdaName i))
    (h0 : 0 ≤ v "opct") (h1 : v "opct" ≤ 1) :
    IsObjective q n (fun i => gentileSpe (v "eped") (v "eped_sigma") (v "spe") (v "spe_sigma") (v "opct") (v (lambdaName i))) (objective gentileCalculate q v) := by
  obtain ⟨a1, -, -, a4, a5, a6⟩ := used_request _ _ (Reached.new _ _) h m charges q hq
  rw [gentile_objective n f h m charges q hq v]
  exact objective_of_positive f n q charges a1 a4 a5 h2 (fun hn => (a6 hn).2) _ fun i _ x =>
    spectrum_nonneg _ (fun k => gentileWeight_nonneg _ _ h0 h1 k) _ _ _ _ _ _ hs

/-- a histogram of a single bin: the minimiser is told infinity whatever the parameters -/
theorem C144_single (n : Nat) (hn : 0 < n) (f : Fitter) (m : FitRequest → Except Err (Dict String ℚ)) (charges : List (List ℚ)) (q : FitRequest)
    (hq : (f.apply m charges).2 = .ok q) (h1 : f.nBins = 1) (v : String → ℝ) :
    (Used (mapmFitter n) f → objective mapmCalculate q v = .ok ⊤) ∧ (Used (gentileFitter n) f → objective gentileCalculate q v = .ok ⊤) := by
  have key : ∀ (sp : Nat → ℝ → ℝ), q.histX.length = 1 → (((List.range n).map fun i =>
      illuminationCost (q.histX.map fun (x : ℚ) => (x : ℝ)) ((q.histY.getD i []).map fun (y : ℚ) => (y : ℝ))
        ((q.histX.map fun (x : ℚ) => (x : ℝ)).map (sp i))).sum) = ⊤ := by
    intro sp hx
    obtain ⟨k, rfl⟩ : ∃ k, n = k + 1 := ⟨n - 1, by omega⟩
    rw [List.range_succ_eq_map, List.map_cons, List.sum_cons]
    have : illuminationCost (q.histX.map fun (x : ℚ) => (x : ℝ)) ((q.histY.getD 0 []).map fun (y : ℚ) => (y : ℝ))
        ((q.histX.map fun (x : ℚ) => (x : ℝ)).map (sp 0)) = ⊤ := by
      unfold illuminationCost
      rw [if_pos]
      unfold polygonArea
      simp [hx]
    rw [this, top_add]
  constructor
  · intro h
    obtain ⟨a1, -, -, a4, a5, a6⟩ := used_request _ _ (Reached.new _ _) h m charges q hq
    rw [mapm_objective n f h m charges q hq v]
    exact congrArg _ (key _ (by rw [a4, (centres_lt f.nBins _ (outer_lt _ (a6 hn).2)).2, h1]))
  · intro h
    obtain ⟨a1, -, -, a4, a5, a6⟩ := used_request _ _ (Reached.new _ _) h m charges q hq
    rw [gentile_objective n f h m charges q hq v]
    exact congrArg _ (key _ (by rw [a4, (centres_lt f.nBins _ (outer_lt _ (a6 hn).2)).2, h1]))

/-- a fitter just made, with three charges for each of two illuminations -/
example : ∃ q, ((mapmFitter 2).apply (fun _ => .ok []) [[1, 2, 30], [5, 500, 31]]).2 = .ok q ∧ 2 ≤ (mapmFitter 2).nBins ∧ Used (mapmFitter 2) (mapmFitter 2) :=
  ⟨_, rfl, by decide, fun _ => .ok [], [], by simp, rfl⟩

/-! ## C145 -/

theorem normalPdf_affine (a b x m s : ℝ) (ha : 0 < a) : normalPdf (a * x + b) (a * m + b) (a * s) = normalPdf x m s / a := by
  unfold normalPdf
  simp only
  by_cases hs : s = 0
  · subst hs; simp
  · have : (a * x + b - (a * m + b)) / (a * s) = (x - m) / s := by
      have := ha.ne'
      field_simp
      ring
    rw [this, div_div]
    congr 1
    ring

theorem spectrumOf_affine (w : Nat → ℝ) (a b e es s ss lam x : ℝ) (ha : 0 < a) :
    spectrumOf w (a * e + b) (a * es) (a * s) (a * ss) lam (a * x + b) = spectrumOf w e es s ss lam x / a := by
  unfold spectrumOf
  rw [normalPdf_affine _ _ _ _ _ ha, add_div, mul_div_assoc]
  congr 1
  induction peakLoop w cells 0 with
  | nil => simp
  | cons kp l ih =>
    rw [List.map_cons, List.sum_cons, ih, List.map_cons, List.sum_cons, add_div]
    congr 1
    have e1 : Real.sqrt ((kp.1 : ℝ) * (a * ss) ^ 2 + (a * es) ^ 2) = a * Real.sqrt ((kp.1 : ℝ) * ss ^ 2 + es ^ 2) := by
      rw [show (kp.1 : ℝ) * (a * ss) ^ 2 + (a * es) ^ 2 = a ^ 2 * ((kp.1 : ℝ) * ss ^ 2 + es ^ 2) by ring, Real.sqrt_mul (by positivity), Real.sqrt_sq ha.le]
    rw [e1, show a * e + b + (kp.1 : ℝ) * (a * s) = a * (e + (kp.1 : ℝ) * s) + b by ring, normalPdf_affine _ _ _ _ _ ha, mul_div_assoc]

theorem polygonArea_affine (a b : ℝ) (ys xs : List ℝ) : polygonArea ys (xs.map fun x => a * x + b) = a * polygonArea ys xs := by
  unfold polygonArea
  rw [List.length_map, Finset.mul_sum]
  refine Finset.sum_congr rfl fun i hi => ?_
  have hi' := Finset.mem_range.1 hi
  rw [List.getD_eq_getElem (xs.map _) _ (by rw [List.length_map]; omega), List.getD_eq_getElem (xs.map _) _ (by rw [List.length_map]; omega),
    List.getElem_map, List.getElem_map, List.getD_eq_getElem xs _ (by omega), List.getD_eq_getElem xs _ (by omega)]
  ring

theorem cost_affine (a b : ℝ) (ha : 0 < a) (xs ys sp : List ℝ) :
    illuminationCost (xs.map fun x => a * x + b) ys (sp.map fun s => s / a) = illuminationCost xs ys sp := by
  have e1 : polygonArea (sp.map fun s => s / a) (xs.map fun x => a * x + b) = polygonArea sp xs := by
    have : (sp.map fun s => s / a) = sp.map fun s => s * a⁻¹ := rfl
    rw [polygonArea_affine, this, polygonArea_scale]
    field_simp
  unfold illuminationCost
  rw [e1, polygonArea_affine]
  by_cases h0 : polygonArea sp xs = 0
  · rw [if_pos h0, if_pos h0]
  · rw [if_neg h0, if_neg h0, List.zipWith_map_right]
    congr 3
    funext y s
    have : s / a * (a * polygonArea ys xs / polygonArea sp xs) = s * (polygonArea ys xs / polygonArea sp xs) := by
      have := ha.ne'
      field_simp
    rw [this]

/-- the values of the parameters for charges measured in other units and from another origin -/
noncomputable def rescaled (a b : ℝ) (v : String → ℝ) (name : String) : ℝ :=
  if name = "eped" then a * v name + b else if name = "eped_sigma" ∨ name = "spe" ∨ name = "spe_sigma" then a * v name else v name

theorem rescaled_lambda (a b : ℝ) (v : String → ℝ) (i : Nat) : rescaled a b v (lambdaName i) = v (lambdaName i) := by
  have h : ∀ t : String, t.toList.head? ≠ some 'l' → lambdaName i ≠ t := by
    intro t ht e
    rw [← e] at ht
    simp [lambdaName] at ht
  unfold rescaled
  rw [if_neg (h _ (by decide)), if_neg]
  rintro (e | e | e)
  · exact h _ (by decide) e
  · exact h _ (by decide) e
  · exact h _ (by decide) e

theorem centres_affine (a b : ℚ) (nBins : Nat) (range : ℚ × ℚ) :
    midpoints (histEdges nBins (a * range.1 + b, a * range.2 + b)) = (midpoints (histEdges nBins range)).map fun x => a * x + b := by
  refine List.ext_getElem? fun k => ?_
  rw [List.getElem?_map, midpoints_histEdges, midpoints_histEdges]
  by_cases h : k < nBins
  · rw [if_pos h, if_pos h, Option.map_some]
    congr 1
    ring
  · rw [if_neg h, if_neg h, Option.map_none]

theorem counts_affine (a b : ℚ) (ha : 0 < a) (nBins : Nat) (range : ℚ × ℚ) (qs : List ℚ) :
    histCounts nBins (a * range.1 + b, a * range.2 + b) (qs.map fun x => a * x + b) = histCounts nBins range qs := by
  have he : histEdges nBins (a * range.1 + b, a * range.2 + b) = (histEdges nBins range).map fun x => a * x + b := by
    unfold histEdges
    rw [List.map_map]
    refine List.map_congr_left fun k _ => ?_
    simp only [Function.comp]
    ring
  have hb : ∀ l : List ℚ, binsOf (l.map fun x => a * x + b) = (binsOf l).map fun t => (a * t.1 + b, a * t.2.1 + b, t.2.2) := by
    intro l
    induction l with
    | nil => rfl
    | cons x l ih =>
      cases l with
      | nil => rfl
      | cons y l =>
        rw [List.map_cons, List.map_cons, binsOf, binsOf, List.map_cons, ← ih, List.map_cons]
        simp
  unfold histCounts
  rw [he, hb, List.map_map]
  refine List.map_congr_left fun t _ => ?_
  simp only [Function.comp]
  rw [List.filter_map, List.length_map]
  refine congrArg (fun l : List ℚ => (l.length : ℚ)) (List.filter_congr fun x _ => ?_)
  unfold inBin
  have h1 : a * t.1 + b ≤ a * x + b ↔ t.1 ≤ x := by
    rw [add_le_add_iff_right, mul_le_mul_iff_right₀ ha]
  have h2 : a * x + b < a * t.2.1 + b ↔ x < t.2.1 := by
    rw [add_lt_add_iff_right, mul_lt_mul_iff_right₀ ha]
  have h3 : a * x + b = a * t.2.1 + b ↔ x = t.2.1 := by
    rw [add_left_inj, mul_right_inj' ha.ne']
  simp only [Function.comp, h1, h2, h3]

theorem request_affine (a b : ℚ) (ha : 0 < a) (f f' : Fitter) (hb : f'.nBins = f.nBins) (hr : f'.range = (a * f.range.1 + b, a * f.range.2 + b))
    (hw : f.range.1 ≠ f.range.2) (charges : List (List ℚ)) (q q' : FitRequest) (hx : q.histX = midpoints (histEdges f.nBins (outerEdges f.range)))
    (hy : q.histY = charges.map (histCounts f.nBins (outerEdges f.range))) (hx' : q'.histX = midpoints (histEdges f'.nBins (outerEdges f'.range)))
    (hy' : q'.histY = (charges.map fun qs => qs.map fun x => a * x + b).map (histCounts f'.nBins (outerEdges f'.range))) :
    q'.histX = q.histX.map (fun x => a * x + b) ∧ q'.histY = q.histY := by
  have e : outerEdges f.range = f.range := by unfold outerEdges; rw [if_neg hw]
  have e' : outerEdges f'.range = f'.range := by
    unfold outerEdges
    rw [if_neg]
    rw [hr]
    simp only
    rw [add_left_inj, mul_right_inj' ha.ne']
    exact hw
  rw [hx, hy, hx', hy', e, e', hb, hr]
  refine ⟨centres_affine a b _ _, ?_⟩
  rw [List.map_map]
  exact List.map_congr_left fun qs _ => counts_affine a b ha _ _ qs

/-- **C145** charges in other units and with another origin, with the range of the histogram moved along: the function minimised takes the same values at
the parameters expressed in those units -/
theorem C145_mapm (n : Nat) (a b : ℚ) (ha : 0 < a) (f f' : Fitter) (h : Used (mapmFitter n) f) (h' : Used (mapmFitter n) f') (hb : f'.nBins = f.nBins)
    (hr : f'.range = (a * f.range.1 + b, a * f.range.2 + b)) (hw : f.range.1 ≠ f.range.2) (m m' : FitRequest → Except Err (Dict String ℚ))
    (charges : List (List ℚ)) (q q' : FitRequest) (hq : (f.apply m charges).2 = .ok q) (hq' : (f'.apply m' (charges.map fun qs => qs.map fun x => a * x + b)).2 = .ok q')
    (v : String → ℝ) : objective mapmCalculate q' (rescaled a b v) = objective mapmCalculate q v := by
  obtain ⟨-, -, -, a4, a5, -⟩ := used_request _ _ (Reached.new _ _) h m charges q hq
  obtain ⟨-, -, -, b4, b5, -⟩ := used_request _ _ (Reached.new _ _) h' m' _ q' hq'
  obtain ⟨e1, e2⟩ := request_affine a b ha f f' hb hr hw charges q q' a4 a5 b4 b5
  rw [mapm_objective n f h m charges q hq v, mapm_objective n f' h' m' _ q' hq' (rescaled a b v), e1, e2]
  refine congrArg (fun l => Except.ok (List.sum l)) (List.map_congr_left fun i _ => ?_)
  have e3 : ((q.histX.map fun x => a * x + b).map fun (x : ℚ) => (x : ℝ)) = (q.histX.map fun (x : ℚ) => (x : ℝ)).map fun x => (a : ℝ) * x + b := by
    rw [List.map_map, List.map_map]
    refine List.map_congr_left fun x _ => ?_
    simp
  rw [e3]
  refine Eq.trans ?_ (cost_affine (a : ℝ) (b : ℝ) (by exact_mod_cast ha) _ _ _)
  congr 1
  simp only [List.map_map]
  refine List.map_congr_left fun x _ => ?_
  rw [rescaled_lambda]
  simp only [Function.comp, mapmSpe, rescaled]
  exact spectrumOf_affine _ _ _ _ _ _ _ _ _ (by exact_mod_cast ha)

/-- the same for the SiPM fit -/
theorem C145_gentile (n : Nat) (a b : ℚ) (ha : 0 < a) (f f' : Fitter) (h : Used (gentileFitter n) f) (h' : Used (gentileFitter n) f') (hb : f'.nBins = f.nBins)
    (hr : f'.range = (a * f.range.1 + b, a * f.range.2 + b)) (hw : f.range.1 ≠ f.range.2) (m m' : FitRequest → Except Err (Dict String ℚ))
    (charges : List (List ℚ)) (q q' : FitRequest) (hq : (f.apply m charges).2 = .ok q) (hq' : (f'.apply m' (charges.map fun qs => qs.map fun x => a * x + b)).2 = .ok q')
    (v : String → ℝ) : objective gentileCalculate q' (rescaled a b v) = objective gentileCalculate q v := by
  obtain ⟨-, -, -, a4, a5, -⟩ := used_request _ _ (Reached.new _ _) h m charges q hq
  obtain ⟨-, -, -, b4, b5, -⟩ := used_request _ _ (Reached.new _ _) h' m' _ q' hq'
  obtain ⟨e1, e2⟩ := request_affine a b ha f f' hb hr hw charges q q' a4 a5 b4 b5
  rw [gentile_objective n f h m charges q hq v, gentile_objective n f' h' m' _ q' hq' (rescaled a b v), e1, e2]
  refine congrArg (fun l => Except.ok (List.sum l)) (List.map_congr_left fun i _ => ?_)
  have e3 : ((q.histX.map fun x => a * x + b).map fun (x : ℚ) => (x : ℝ)) = (q.histX.map fun (x : ℚ) => (x : ℝ)).map fun x => (a : ℝ) * x + b := by
    rw [List.map_map, List.map_map]
    refine List.map_congr_left fun x _ => ?_
    simp
  rw [e3]
  refine Eq.trans ?_ (cost_affine (a : ℝ) (b : ℝ) (by exact_mod_cast ha) _ _ _)
  congr 1
  simp only [List.map_map]
  refine List.map_congr_left fun x _ => ?_
  rw [rescaled_lambda]
  simp only [Function.comp, gentileSpe, rescaled]
  exact spectrumOf_affine _ _ _ _ _ _ _ _ _ (by exact_mod_cast ha)

/-- `v` is the best choice among `S` -/
def BestIn (o : (String → ℝ) → Except Err (WithTop ℝ)) (S : Set (String → ℝ)) (v : String → ℝ) : Prop :=
  v ∈ S ∧ ∃ l, o v = .ok l ∧ ∀ w ∈ S, ∃ l', o w = .ok l' ∧ l ≤ l'

/-- so a choice of the parameters is the best one for the charges exactly if it is, in the new units, the best one for the charges in those units -/
theorem C145_best (a b : ℚ) (o o' : (String → ℝ) → Except Err (WithTop ℝ)) (heq : ∀ v, o' (rescaled a b v) = o v) (ha : 0 < a)
    (S : Set (String → ℝ)) (v : String → ℝ) : BestIn o' (rescaled a b '' S) (rescaled a b v) ↔ BestIn o S v := by
  have hinj : Function.Injective (rescaled (a : ℝ) (b : ℝ)) := by
    intro u w huw
    funext name
    have := congrFun huw name
    have ha' : (a : ℝ) ≠ 0 := by exact_mod_cast ha.ne'
    unfold rescaled at this
    split at this
    · rwa [add_left_inj, mul_right_inj' ha'] at this
    · split at this
      · rwa [mul_right_inj' ha'] at this
      · exact this
  unfold BestIn
  rw [heq, hinj.mem_set_image]
  constructor
  · rintro ⟨h1, l, h2, h3⟩
    refine ⟨h1, l, h2, fun w hw => ?_⟩
    have := h3 _ (Set.mem_image_of_mem _ hw)
    rwa [heq] at this
  · rintro ⟨h1, l, h2, h3⟩
    refine ⟨h1, l, h2, ?_⟩
    rintro _ ⟨w, hw, rfl⟩
    rw [heq]
    exact h3 w hw

/-- charges in units of a tenth, with a configuration for the range -/
example : ∃ f' q q', Used (mapmFitter 1) f' ∧ f'.nBins = (mapmFitter 1).nBins ∧ f'.range = (10 * (mapmFitter 1).range.1 + 3, 10 * (mapmFitter 1).range.2 + 3) ∧
    ((mapmFitter 1).apply (fun _ => .ok []) [[1, 2, 30]]).2 = .ok q ∧ (f'.apply (fun _ => .ok []) ([[1, 2, 30]].map fun qs => qs.map fun x => 10 * x + 3)).2 = .ok q' := by
  obtain ⟨q', hq'⟩ : ∃ q', (((mapmFitter 1).loadConfig (some ⟨none, some (-397, 1503), none, none, none⟩)).1.apply (fun _ => .ok [])
      ([[1, 2, 30]].map fun qs => qs.map fun x => 10 * x + 3)).2 = .ok q' := ⟨_, rfl⟩
  exact ⟨_, _, q', ⟨fun _ => .ok [], [.load (some ⟨none, some (-397, 1503), none, none, none⟩)], by simp [KeepsParams], rfl⟩, rfl, by decide +kernel, rfl, hq'⟩

/-! ## C146 -/

theorem binom_same (n : ℤ) : binom n n = 1 := by
  unfold binom lgamma
  simp

theorem gentileWeight_no_crosstalk (lam : ℝ) (k : Nat) :
    gentileWeight 0 lam (k + 1) = if poisson ((k + 1 : Nat) : ℤ) lam < 1e-4 then 0 else poisson ((k + 1 : Nat) : ℤ) lam := by
  unfold gentileWeight
  rw [List.range_succ, List.map_append, List.sum_append, List.map_singleton, List.sum_singleton]
  have : ((List.range k).map fun i => gentileTerm 0 lam (k + 1) (i + 1)).sum = 0 := by
    refine List.sum_eq_zero fun y hy => ?_
    obtain ⟨i, hi, rfl⟩ := List.mem_map.1 hy
    have hi' := List.mem_range.1 hi
    unfold gentileTerm
    split
    · rfl
    · rw [zero_pow (by omega : k + 1 - (i + 1) ≠ 0)]
      ring
  rw [this, zero_add]
  unfold gentileTerm
  split
  · rfl
  · rw [binom_same]
    simp

theorem peakLoop_floor (w w' : Nat → ℝ) (ks : List Nat) (m : ℝ) (hm : 1e-4 ≤ m) (h : ∀ k ∈ ks, w' k = if w k < 1e-4 then 0 else w k) :
    peakLoop w' ks m = peakLoop w ks m := by
  induction ks generalizing m with
  | nil => rfl
  | cons k ks ih =>
    have hk := h k List.mem_cons_self
    have ht : ∀ j ∈ ks, w' j = if w j < 1e-4 then 0 else w j := fun j hj => h j (List.mem_cons_of_mem _ hj)
    unfold peakLoop
    by_cases hw : w k < 1e-4
    · rw [if_pos hw] at hk
      rw [hk, if_neg (by norm_num at hm ⊢; linarith), if_pos (by norm_num), if_neg (by linarith), if_pos hw]
    · rw [if_neg hw] at hk
      rw [hk]
      by_cases hg : w k > m
      · rw [if_pos hg, if_pos hg, ih _ (not_lt.1 hw) ht]
      · rw [if_neg hg, if_neg hg, if_neg hw, if_neg hw, ih _ hm ht]

theorem cells_cons : cells = 1 :: (List.range 98).map (· + 2) := by decide

/-- **C146** without optical crosstalk the spectrum of the SiPM is that of the MAPM, exactly if the probability of a single photo-electron, `λ exp(-λ)`, is at least
`1e-4`; otherwise it lacks all peaks but the pedestal and is smaller everywhere -/
theorem C146_no_crosstalk (eped epedSigma spe speSigma lam : ℝ) (hs : 0 < epedSigma) (hl : 0 < lam) :
    (1e-4 ≤ lam * Real.exp (-lam) → ∀ x, gentileSpe eped epedSigma spe speSigma 0 lam x = mapmSpe eped epedSigma spe speSigma lam x) ∧
    (lam * Real.exp (-lam) < 1e-4 → ∀ x, gentileSpe eped epedSigma spe speSigma 0 lam x = Real.exp (-lam) * normalPdf x eped epedSigma ∧
      gentileSpe eped epedSigma spe speSigma 0 lam x < mapmSpe eped epedSigma spe speSigma lam x) := by
  have hp : poisson ((1 : Nat) : ℤ) lam = lam * Real.exp (-lam) := by
    rw [C43_poisson 1 lam hl]; simp
  have hw : ∀ k, 1 ≤ k → gentileWeight 0 lam k = if poisson (k : ℤ) lam < 1e-4 then 0 else poisson (k : ℤ) lam := by
    intro k hk
    obtain ⟨j, rfl⟩ : ∃ j, k = j + 1 := ⟨k - 1, by omega⟩
    exact gentileWeight_no_crosstalk lam j
  constructor
  · intro h x
    unfold gentileSpe mapmSpe spectrumOf
    rw [← hp] at h
    have e : peakLoop (gentileWeight 0 lam) cells 0 = peakLoop (fun k => poisson (k : ℤ) lam) cells 0 := by
      rw [cells_cons]
      have e1 : gentileWeight 0 lam 1 = poisson ((1 : Nat) : ℤ) lam := by rw [hw 1 (le_refl _), if_neg (not_lt.2 h)]
      have hpos : poisson ((1 : Nat) : ℤ) lam > 0 := by norm_num at h ⊢; linarith
      rw [peakLoop, peakLoop, e1, if_pos hpos, if_pos hpos, peakLoop_floor (fun k => poisson (k : ℤ) lam) (gentileWeight 0 lam) _ _ h]
      intro k hk
      obtain ⟨j, -, rfl⟩ := List.mem_map.1 hk
      exact hw _ (by omega)
    rw [e]
  · intro h x
    rw [← hp] at h
    have e : peakLoop (gentileWeight 0 lam) cells 0 = [] := by
      rw [cells_cons, peakLoop, hw 1 (le_refl _), if_pos h, if_neg (lt_irrefl _), if_pos (by norm_num)]
    have e0 : gentileSpe eped epedSigma spe speSigma 0 lam x = Real.exp (-lam) * normalPdf x eped epedSigma := by
      unfold gentileSpe spectrumOf
      rw [e]
      simp
    refine ⟨e0, ?_⟩
    rw [e0]
    unfold mapmSpe spectrumOf
    have hpos : poisson ((1 : Nat) : ℤ) lam > 0 := by unfold poisson; exact Real.exp_pos _
    rw [cells_cons, peakLoop, if_pos hpos, List.map_cons, List.sum_cons]
    have h1 : 0 < poisson ((1 : Nat) : ℤ) lam * normalPdf x (eped + ((1 : Nat) : ℝ) * spe) (Real.sqrt (((1 : Nat) : ℝ) * speSigma ^ 2 + epedSigma ^ 2)) :=
      mul_pos hpos ((C43_normal_integral _ _ (Real.sqrt_pos.2 (by positivity))).2.1 x)
    have h2 : 0 ≤ ((peakLoop (fun k => poisson (k : ℤ) lam) ((List.range 98).map (· + 2)) (poisson ((1 : Nat) : ℤ) lam)).map fun kp =>
        kp.2 * normalPdf x (eped + (kp.1 : ℝ) * spe) (Real.sqrt ((kp.1 : ℝ) * speSigma ^ 2 + epedSigma ^ 2))).sum := by
      refine List.sum_nonneg fun y hy => ?_
      obtain ⟨kp, hkp, rfl⟩ := List.mem_map.1 hy
      have hk : 0 ≤ kp.2 := by
        obtain ⟨t, -, e, -⟩ := peak_prefix (fun k => poisson (k : ℤ) lam) ((List.range 98).map (· + 2)) (poisson ((1 : Nat) : ℤ) lam)
        rw [e] at hkp
        obtain ⟨i, -, rfl⟩ := List.mem_map.1 hkp
        exact (Real.exp_pos _).le
      exact mul_nonneg hk ((C43_normal_integral _ _ (Real.sqrt_pos.2 (by positivity))).2.1 x).le
    linarith

/-- both cases occur: the starting value of the light level, and a hundred thousandth -/
example : (1e-4 : ℝ) ≤ 7 / 10 * Real.exp (-(7 / 10)) ∧ (1e-5 : ℝ) * Real.exp (-1e-5) < 1e-4 := by
  constructor
  · have := Real.add_one_le_exp (-(7 / 10) : ℝ)
    norm_num at this ⊢
    linarith
  · have := Real.exp_le_one_iff.2 (by norm_num : (-1e-5 : ℝ) ≤ 0)
    nlinarith [Real.exp_pos (-1e-5 : ℝ)]

/-! ## C147 -/

/-- the parameters of a fit of illumination `i` alone -/
def alone (v : String → ℝ) (i : Nat) (name : String) : ℝ := if name = lambdaName 0 then v (lambdaName i) else v name

/-- **C147** the function minimised for several illuminations is the sum of those for each illumination alone, with the shared parameters and its own light level -/
theorem C147_sum_mapm (n : Nat) (f : Fitter) (h : Used (mapmFitter n) f) (m : FitRequest → Except Err (Dict String ℚ)) (charges : List (List ℚ)) (q : FitRequest)
    (hq : (f.apply m charges).2 = .ok q) (f₁ : Fitter) (h₁ : Used (mapmFitter 1) f₁) (hb : f₁.nBins = f.nBins) (hr : f₁.range = f.range) (v : String → ℝ) :
    ∃ l : Nat → WithTop ℝ, objective mapmCalculate q v = .ok (((List.range n).map l).sum) ∧
      ∀ i < n, ∀ m₁ q₁, (f₁.apply m₁ [charges.getD i []]).2 = .ok q₁ → objective mapmCalculate q₁ (alone v i) = .ok (l i) := by
  obtain ⟨a1, -, -, a4, a5, -⟩ := used_request _ _ (Reached.new _ _) h m charges q hq
  refine ⟨_, mapm_objective n f h m charges q hq v, fun i hi m₁ q₁ hq₁ => ?_⟩
  obtain ⟨-, -, -, b4, b5, -⟩ := used_request _ _ (Reached.new _ _) h₁ m₁ _ q₁ hq₁
  rw [mapm_objective 1 f₁ h₁ m₁ _ q₁ hq₁ (alone v i)]
  have ex : q₁.histX = q.histX := by rw [b4, a4, hb, hr]
  have ey : q₁.histY.getD 0 [] = q.histY.getD i [] := by
    have hi' : i < charges.length := by rw [a1]; exact hi
    rw [b5, a5, hb, hr, List.map_singleton, List.getD_cons_zero, List.getD_eq_getElem (charges.map _) _ (by rw [List.length_map]; exact hi'), List.getElem_map,
      List.getD_eq_getElem _ _ hi']
  have hne : ∀ t : String, t.toList.head? ≠ some 'l' → t ≠ lambdaName 0 := by
    intro t ht e
    rw [e] at ht
    simp [lambdaName] at ht
  have f1 : alone v i "eped" = v "eped" := if_neg (hne _ (by decide))
  have f2 : alone v i "eped_sigma" = v "eped_sigma" := if_neg (hne _ (by decide))
  have f3 : alone v i "spe" = v "spe" := if_neg (hne _ (by decide))
  have f4 : alone v i "spe_sigma" = v "spe_sigma" := if_neg (hne _ (by decide))
  have f5 : alone v i (lambdaName 0) = v (lambdaName i) := if_pos rfl
  rw [show List.range 1 = [0] from rfl, List.map_singleton, List.sum_singleton, ex, ey, f1, f2, f3, f4, f5]

theorem C147_sum_gentile (n : Nat) (f : Fitter) (h : Used (gentileFitter n) f) (m : FitRequest → Except Err (Dict String ℚ)) (charges : List (List ℚ)) (q : FitRequest)
    (hq : (f.apply m charges).2 = .ok q) (f₁ : Fitter) (h₁ : Used (gentileFitter 1) f₁) (hb : f₁.nBins = f.nBins) (hr : f₁.range = f.range) (v : String → ℝ) :
    ∃ l : Nat → WithTop ℝ, objective gentileCalculate q v = .ok (((List.range n).map l).sum) ∧
      ∀ i < n, ∀ m₁ q₁, (f₁.apply m₁ [charges.getD i []]).2 = .ok q₁ → objective gentileCalculate q₁ (alone v i) = .ok (l i) := by
  obtain ⟨a1, -, -, a4, a5, -⟩ := used_request _ _ (Reached.new _ _) h m charges q hq
  refine ⟨_, gentile_objective n f h m charges q hq v, fun i hi m₁ q₁ hq₁ => ?_⟩
  obtain ⟨-, -, -, b4, b5, -⟩ := used_request _ _ (Reached.new _ _) h₁ m₁ _ q₁ hq₁
  rw [gentile_objective 1 f₁ h₁ m₁ _ q₁ hq₁ (alone v i)]
  have ex : q₁.histX = q.histX := by rw [b4, a4, hb, hr]
  have ey : q₁.histY.getD 0 [] = q.histY.getD i [] := by
    have hi' : i < charges.length := by rw [a1]; exact hi
    rw [b5, a5, hb, hr, List.map_singleton, List.getD_cons_zero, List.getD_eq_getElem (charges.map _) _ (by rw [List.length_map]; exact hi'), List.getElem_map,
      List.getD_eq_getElem _ _ hi']
  have hne : ∀ t : String, t.toList.head? ≠ some 'l' → t ≠ lambdaName 0 := by
    intro t ht e
    rw [e] at ht
    simp [lambdaName] at ht
  have f1 : alone v i "eped" = v "eped" := if_neg (hne _ (by decide))
  have f2 : alone v i "eped_sigma" = v "eped_sigma" := if_neg (hne _ (by decide))
  have f3 : alone v i "spe" = v "spe" := if_neg (hne _ (by decide))
  have f4 : alone v i "spe_sigma" = v "spe_sigma" := if_neg (hne _ (by decide))
  have f6 : alone v i "opct" = v "opct" := if_neg (hne _ (by decide))
  have f5 : alone v i (lambdaName 0) = v (lambdaName i) := if_pos rfl
  rw [show List.range 1 = [0] from rfl, List.map_singleton, List.sum_singleton, ex, ey, f1, f2, f3, f4, f5, f6]

/-- two illuminations together and the second alone -/
example : ∃ q q₁, ((gentileFitter 2).apply (fun _ => .ok []) [[1, 2, 30], [5, 500, 31]]).2 = .ok q ∧
    ((gentileFitter 1).apply (fun _ => .ok []) [[[1, 2, 30], [5, 500, 31]].getD 1 []]).2 = .ok q₁ ∧
    (gentileFitter 1).nBins = (gentileFitter 2).nBins ∧ (gentileFitter 1).range = (gentileFitter 2).range ∧ Used (gentileFitter 2) (gentileFitter 2) :=
  ⟨_, _, rfl, rfl, rfl, rfl, fun _ => .ok [], [], by simp, rfl⟩

/-- the parameters when the illuminations are given in another order -/
def reordered (n : Nat) (perm : Nat → Nat) (v v' : String → ℝ) : Prop :=
  (∀ i < n, v' (lambdaName i) = v (lambdaName (perm i))) ∧ ∀ name ∈ ["eped", "eped_sigma", "spe", "spe_sigma", "opct"], v' name = v name

/-- the order of the illuminations does not matter -/
theorem C147_order (n : Nat) (perm : Nat → Nat) (hp : List.Perm ((List.range n).map perm) (List.range n)) (f : Fitter) (m m' : FitRequest → Except Err (Dict String ℚ))
    (charges charges' : List (List ℚ)) (hc : ∀ i < n, charges'.getD i [] = charges.getD (perm i) []) (q q' : FitRequest)
    (hq : (f.apply m charges).2 = .ok q) (hq' : (f.apply m' charges').2 = .ok q') (v v' : String → ℝ) (hv : reordered n perm v v') :
    (Used (mapmFitter n) f → objective mapmCalculate q' v' = objective mapmCalculate q v) ∧
    (Used (gentileFitter n) f → objective gentileCalculate q' v' = objective gentileCalculate q v) := by
  have hlt : ∀ i < n, perm i < n := fun i hi =>
    List.mem_range.1 (hp.mem_iff.1 (List.mem_map_of_mem (List.mem_range.2 hi)))
  obtain ⟨hv1, hv2⟩ := hv
  have g1 := hv2 "eped" (by simp)
  have g2 := hv2 "eped_sigma" (by simp)
  have g3 := hv2 "spe" (by simp)
  have g4 := hv2 "spe_sigma" (by simp)
  have g5 := hv2 "opct" (by simp)
  have key : ∀ G G' : Nat → WithTop ℝ, (∀ i < n, G' i = G (perm i)) → ((List.range n).map G').sum = ((List.range n).map G).sum := by
    intro G G' hG
    have e : (List.range n).map G' = ((List.range n).map perm).map G := by
      rw [List.map_map]
      exact List.map_congr_left fun i hi => hG i (List.mem_range.1 hi)
    rw [e]
    exact (hp.map G).sum_eq
  constructor
  · intro h
    obtain ⟨a1, -, -, a4, a5, -⟩ := used_request _ _ (Reached.new _ _) h m charges q hq
    obtain ⟨b1, -, -, b4, b5, -⟩ := used_request _ _ (Reached.new _ _) h m' charges' q' hq'
    rw [mapm_objective n f h m charges q hq v, mapm_objective n f h m' charges' q' hq' v']
    refine congrArg _ (key _ _ fun i hi => ?_)
    have hi1 : i < charges'.length := by rw [b1]; exact hi
    have hi2 : perm i < charges.length := by rw [a1]; exact hlt i hi
    have := hc i hi
    rw [List.getD_eq_getElem _ _ hi1, List.getD_eq_getElem _ _ hi2] at this
    rw [hv1 i hi, g1, g2, g3, g4, b4, ← a4, b5, a5, List.getD_eq_getElem _ _ (by rw [List.length_map]; exact hi1), List.getElem_map, this,
      List.getD_eq_getElem _ _ (by rw [List.length_map]; exact hi2), List.getElem_map]
  · intro h
    obtain ⟨a1, -, -, a4, a5, -⟩ := used_request _ _ (Reached.new _ _) h m charges q hq
    obtain ⟨b1, -, -, b4, b5, -⟩ := used_request _ _ (Reached.new _ _) h m' charges' q' hq'
    rw [gentile_objective n f h m charges q hq v, gentile_objective n f h m' charges' q' hq' v']
    refine congrArg _ (key _ _ fun i hi => ?_)
    have hi1 : i < charges'.length := by rw [b1]; exact hi
    have hi2 : perm i < charges.length := by rw [a1]; exact hlt i hi
    have := hc i hi
    rw [List.getD_eq_getElem _ _ hi1, List.getD_eq_getElem _ _ hi2] at this
    rw [hv1 i hi, g1, g2, g3, g4, g5, b4, ← a4, b5, a5, List.getD_eq_getElem _ _ (by rw [List.length_map]; exact hi1), List.getElem_map, this,
      List.getD_eq_getElem _ _ (by rw [List.length_map]; exact hi2), List.getElem_map]

/-- three illuminations, the first going last -/
example : List.Perm ((List.range 3).map fun i => (i + 1) % 3) (List.range 3) := by decide

/-- C144: a parameter without a place in the list raises `KeyError`; if all have one but the list is too short for one of them, it is `IndexError`. -/
theorem C144_errors (xs : List ℝ) (lookup : Dict String Nat) (values : List ℝ) :
    (lookup.get? "eped" = none → mapmCalculate xs lookup values = .error .keyError ∧ gentileCalculate xs lookup values = .error .keyError) ∧
    (∀ place : String → Nat, (∀ name ∈ ["eped", "eped_sigma", "spe", "spe_sigma", "lambda_"], lookup.get? name = some (place name)) →
      (∃ name ∈ ["eped", "eped_sigma", "spe", "spe_sigma", "lambda_"], values.length ≤ place name) → mapmCalculate xs lookup values = .error .indexError) ∧
    (∀ place : String → Nat, (∀ name ∈ ["eped", "eped_sigma", "spe", "spe_sigma", "opct", "lambda_"], lookup.get? name = some (place name)) →
      (∃ name ∈ ["eped", "eped_sigma", "spe", "spe_sigma", "opct", "lambda_"], values.length ≤ place name) → gentileCalculate xs lookup values = .error .indexError) := by
  have hp : ∀ (name : String) (k : Nat), lookup.get? name = some k →
      (values.length ≤ k → paramValue lookup values name = .error .indexError) ∧ (¬ values.length ≤ k → ∃ v, paramValue lookup values name = .ok v) := by
    intro name k hk
    unfold paramValue
    rw [hk]
    simp only
    constructor
    · intro h
      rw [List.getElem?_eq_none h]
    · intro h
      rw [List.getElem?_eq_getElem (by omega)]
      exact ⟨_, rfl⟩
  refine ⟨fun h => ?_, fun place hl => ?_, fun place hl => ?_⟩
  · have : paramValue lookup values "eped" = .error .keyError := by unfold paramValue; rw [h]
    unfold mapmCalculate gentileCalculate
    rw [this]
    exact ⟨rfl, rfl⟩
  · rintro ⟨name, hn, hlen⟩
    unfold mapmCalculate
    simp only [List.mem_cons, List.not_mem_nil, or_false, forall_eq_or_imp, forall_eq] at hl hn
    obtain ⟨l1, l2, l3, l4, l5⟩ := hl
    have key : ∀ (a : String) (k : Nat), lookup.get? a = some k → paramValue lookup values a = .error .indexError ∨ (¬ values.length ≤ k ∧ ∃ v, paramValue lookup values a = .ok v) := by
      intro a k hk
      by_cases h : values.length ≤ k
      · exact Or.inl ((hp a k hk).1 h)
      · exact Or.inr ⟨h, (hp a k hk).2 h⟩
    rcases key _ _ l1 with h1 | ⟨g1, v1, h1⟩ <;> rw [h1] <;> [rfl; skip]
    rcases key _ _ l2 with h2 | ⟨g2, v2, h2⟩ <;> rw [h2] <;> [rfl; skip]
    rcases key _ _ l3 with h3 | ⟨g3, v3, h3⟩ <;> rw [h3] <;> [rfl; skip]
    rcases key _ _ l4 with h4 | ⟨g4, v4, h4⟩ <;> rw [h4] <;> [rfl; skip]
    rcases key _ _ l5 with h5 | ⟨g5, v5, h5⟩ <;> rw [h5] <;> [rfl; skip]
    rcases hn with rfl | rfl | rfl | rfl | rfl <;> contradiction
  · rintro ⟨name, hn, hlen⟩
    unfold gentileCalculate
    simp only [List.mem_cons, List.not_mem_nil, or_false, forall_eq_or_imp, forall_eq] at hl hn
    obtain ⟨l1, l2, l3, l4, l6, l5⟩ := hl
    have key : ∀ (a : String) (k : Nat), lookup.get? a = some k → paramValue lookup values a = .error .indexError ∨ (¬ values.length ≤ k ∧ ∃ v, paramValue lookup values a = .ok v) := by
      intro a k hk
      by_cases h : values.length ≤ k
      · exact Or.inl ((hp a k hk).1 h)
      · exact Or.inr ⟨h, (hp a k hk).2 h⟩
    rcases key _ _ l1 with h1 | ⟨g1, v1, h1⟩ <;> rw [h1] <;> [rfl; skip]
    rcases key _ _ l2 with h2 | ⟨g2, v2, h2⟩ <;> rw [h2] <;> [rfl; skip]
    rcases key _ _ l3 with h3 | ⟨g3, v3, h3⟩ <;> rw [h3] <;> [rfl; skip]
    rcases key _ _ l4 with h4 | ⟨g4, v4, h4⟩ <;> rw [h4] <;> [rfl; skip]
    rcases key _ _ l6 with h6 | ⟨g6, v6, h6⟩ <;> rw [h6] <;> [rfl; skip]
    rcases key _ _ l5 with h5 | ⟨g5, v5, h5⟩ <;> rw [h5] <;> [rfl; skip]
    rcases hn with rfl | rfl | rfl | rfl | rfl | rfl <;> contradiction

/-- four values for five parameters -/
example : mapmCalculate [0] [("eped", 0), ("eped_sigma", 1), ("spe", 2), ("spe_sigma", 3), ("lambda_", 4)] [0, 1, 2, 3] = .error .indexError :=
  (C144_errors [0] [("eped", 0), ("eped_sigma", 1), ("spe", 2), ("spe_sigma", 3), ("lambda_", 4)] [0, 1, 2, 3]).2.1
    (fun n => if n = "eped" then 0 else if n = "eped_sigma" then 1 else if n = "spe" then 2 else if n = "spe_sigma" then 3 else 4)
    (by decide) ⟨"lambda_", by decide, by decide⟩

/-- C64 for the SiPM spectrum without crosstalk: it integrates to at least 0.99 for up to 11 photo-electrons. (From 12 on it is the pedestal only, `C64_false`.
Missing from the full claim: spectra with crosstalk.) -/
theorem C64_no_crosstalk_partial (eped epedSigma spe speSigma lam : ℝ) (hs : 0 < epedSigma) (hl : 0 < lam) (hl' : lam ≤ 11) :
    0.99 ≤ ∫ x, gentileSpe eped epedSigma spe speSigma 0 lam x := by
  obtain ⟨h1, h2⟩ := C146_no_crosstalk eped epedSigma spe speSigma lam hs hl
  by_cases hc : 1e-4 ≤ lam * Real.exp (-lam)
  · simp only [h1 hc]
    exact C64_partial eped epedSigma spe speSigma lam hs hl (by linarith)
  · simp only [fun x => (h2 (not_le.1 hc) x).1]
    rw [MeasureTheory.integral_const_mul, (C43_normal_integral _ _ hs).1, mul_one]
    have hpow : ∀ n : Nat, Real.exp n < (2.7182818286 : ℝ) ^ n ∨ n = 0 := by
      intro n
      rcases Nat.eq_zero_or_pos n with h | h
      · exact Or.inr h
      · refine Or.inl ?_
        have e : Real.exp n = Real.exp 1 ^ n := by rw [← Real.exp_nat_mul, mul_one]
        rw [e]
        exact pow_lt_pow_left₀ Real.exp_one_lt_d9 (Real.exp_pos _).le (by omega)
    have hsmall : lam < 1 / 100 := by
      by_contra hge
      have hge := not_lt.1 hge
      apply hc
      rw [Real.exp_neg, ← div_eq_mul_inv, le_div_iff₀ (Real.exp_pos _)]
      have hup : ∀ n : Nat, lam ≤ n → n ≠ 0 → Real.exp lam ≤ (2.7182818286 : ℝ) ^ n := by
        intro n hn h0
        exact (Real.exp_le_exp.2 hn).trans ((hpow n).resolve_right h0).le
      by_cases ha : lam ≤ 1
      · have := hup 1 (by exact_mod_cast ha) (by decide)
        norm_num at this ⊢
        linarith
      · by_cases hb : lam ≤ 7
        · have := hup 7 (by exact_mod_cast hb) (by decide)
          norm_num at this ⊢
          linarith
        · have := hup 11 (by exact_mod_cast hl') (by decide)
          norm_num at this ⊢
          linarith
    have := Real.add_one_le_exp (-lam)
    norm_num
    linarith

example : 0.99 ≤ ∫ x, gentileSpe 0 9 25 2 0 (1 / 2) x := C64_no_crosstalk_partial 0 9 25 2 _ (by norm_num) (by norm_num) (by norm_num)

end Verif.Props
