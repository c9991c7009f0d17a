import Verif.Lemmas.Nnls
import Mathlib.Tactic.Linarith
import Mathlib.Tactic.Ring
import Mathlib.Tactic.FieldSimp
import Mathlib.Tactic.NormNum

/-! # C173: the unfolding of amplified waveforms -/

namespace Verif.Props

open Verif.Py Verif.Model Verif.Lemmas

/-- a number or NaN times `g` -/
def timesO (g : ℚ) (v : Option ℚ) : Option ℚ := v.map (g * ·)

/-- a state whose solution is multiplied by `g` -/
def timesState (g : ℚ) (s : NnlsState) : NnlsState := ⟨s.F, s.G, fun i => timesO g (s.x i)⟩

/-- pulses whose charges are multiplied by `g` -/
def timesPulses (g : ℚ) (ps : List (ℚ × ℚ)) : List (ℚ × ℚ) := ps.map fun p => (p.1, g * p.2)

/-- the four charges multiplied by `g`, the number of pulses kept -/
def timesCharges (g : ℚ) (c : NnlsCharges) : NnlsCharges := ⟨g * c.charge, g * c.tcharge, g * c.tmcharge, g * c.tccharge, c.npulses⟩

theorem timesO_none (g : ℚ) (v : Option ℚ) : timesO g v = none ↔ v = none := by unfold timesO; simp

theorem timesO_getD (g : ℚ) (v : Option ℚ) : (timesO g v).getD 0 = g * v.getD 0 := by cases v <;> simp [timesO]

theorem argminNaN_times (g : ℚ) (hg : 0 < g) (l : List (Option ℚ)) : argminNaN (l.map (timesO g)) = argminNaN l := by
  cases l with
  | nil => rfl
  | cons a l =>
    have e1 : (a :: l).map (timesO g) = timesO g a :: l.map (timesO g) := rfl
    have key : ∀ l : List (Option ℚ), (l.map (timesO g)).findIdx? (· = none) = l.findIdx? (· = none) := by
      intro l
      rw [List.findIdx?_map]
      congr 1
      funext v
      simp [timesO_none]
    have key2 : ∀ (l m : List (Option ℚ)), ((l.map (timesO g)).findIdx fun v => (m.map (timesO g)).all fun w => (v.getD 0) ≤ (w.getD 0)) =
        l.findIdx fun v => m.all fun w => (v.getD 0) ≤ (w.getD 0) := by
      intro l m
      rw [List.findIdx_map]
      congr 1
      funext v
      simp only [Function.comp_def, List.all_map, timesO_getD, mul_le_mul_iff_right₀ hg]
    unfold argminNaN
    rw [e1]
    simp only
    rw [← e1, key, key2]

theorem theta_times (g : ℚ) (hg : 0 < g) (x : Option ℚ) (v : ℚ) : theta (timesO g x) (g * v) = theta x v := by
  cases x with
  | none => rfl
  | some a =>
    simp only [timesO, Option.map_some, theta, ← mul_sub]
    by_cases h : a - v = 0
    · simp [h]
    · rw [if_neg (mul_ne_zero hg.ne' h), if_neg h, mul_div_mul_left _ _ hg.ne']

theorem blend_times (g : ℚ) (x alpha : Option ℚ) (v : ℚ) : blend (timesO g x) alpha (g * v) = timesO g (blend x alpha v) := by
  cases x with
  | none => rfl
  | some a =>
    cases alpha with
    | none => rfl
    | some al =>
      simp only [timesO, Option.map_some, blend]
      congr 1
      ring

theorem solved_times (g : ℚ) (F : List Nat) (xF : List ℚ) (f : Nat) : solved F (xF.map (g * ·)) f = g * solved F xF f := by
  unfold solved
  rw [List.getD_eq_getElem?_getD, List.getD_eq_getElem?_getD, List.getElem?_map]
  cases xF[F.idxOf f]? <;> simp

theorem innerStep_times (g : ℚ) (hg : 0 < g) (solve : List Nat → List ℚ) (s : NnlsState) :
    innerStep (fun F => (solve F).map (g * ·)) (timesState g s) = (timesState g (innerStep solve s).1, (innerStep solve s).2) := by
  have hall : ((solve s.F).map (g * ·)).all (0 ≤ ·) = (solve s.F).all (0 ≤ ·) := by
    rw [List.all_map]
    congr 1
    funext v
    simp only [Function.comp_def, mul_nonneg_iff_of_pos_left hg]
  have hle : ∀ f, solved s.F ((solve s.F).map (g * ·)) f ≤ 0 ↔ solved s.F (solve s.F) f ≤ 0 := fun f => by
    rw [solved_times]
    constructor
    · intro h; by_contra hc; exact absurd (mul_pos hg (not_le.1 hc)) (not_lt.2 h)
    · intro h; exact mul_nonpos_of_nonneg_of_nonpos hg.le h
  have hf : (s.F.filter fun f => decide (solved s.F ((solve s.F).map (g * ·)) f ≤ 0)) = s.F.filter fun f => decide (solved s.F (solve s.F) f ≤ 0) :=
    List.filter_congr fun f _ => by rw [decide_eq_decide]; exact hle f
  obtain ⟨F, G, x⟩ := s
  unfold innerStep timesState
  simp only [hall] at hf ⊢
  by_cases hc : (solve F).all (0 ≤ ·)
  · simp only [if_pos hc, Prod.mk.injEq, and_true, NnlsState.mk.injEq, true_and]
    funext i
    by_cases hi : i ∈ F
    · simp only [if_pos hi, solved_times]; rfl
    · simp only [if_neg hi]
  · simp only [if_neg hc, hf]
    simp only [solved_times, theta_times g hg]
    cases argminNaN (List.map (fun f => theta (x f) (solved F (solve F) f)) (List.filter (fun f => decide (solved F (solve F) f ≤ 0)) F)) with
    | none => rfl
    | some k =>
      simp only [Prod.mk.injEq, and_true, NnlsState.mk.injEq, true_and]
      funext i
      by_cases hi : i ∈ F
      · simp only [if_pos hi, blend_times]
      · simp only [if_neg hi]

theorem innerLoop_times (g : ℚ) (hg : 0 < g) (solve : List Nat → List ℚ) (fuel : Nat) (s : NnlsState) :
    innerLoop (fun F => (solve F).map (g * ·)) fuel (timesState g s) = (timesState g (innerLoop solve fuel s).1, (innerLoop solve fuel s).2) := by
  induction fuel generalizing s with
  | zero => rfl
  | succ fuel ih =>
    simp only [innerLoop, innerStep_times g hg]
    obtain ⟨s', b⟩ := innerStep solve s
    cases b with
    | true => rfl
    | false => exact ih s'

theorem sum_map_mul (g : ℚ) (l : List Nat) (f : Nat → ℚ) : (l.map fun i => g * f i).sum = g * (l.map f).sum := by
  induction l with
  | nil => simp
  | cons a l ih => simp only [List.map_cons, List.sum_cons, ih]; ring

theorem gradient_times (g : ℚ) (A : Nat → Nat → ℚ) (b : List ℚ) (s : NnlsState) (j : Nat) :
    gradient A (b.map (g * ·)) (timesState g s) j = timesO g (gradient A b s j) := by
  unfold gradient
  have h1 : (timesState g s).F.any (fun f => (timesState g s).x f = none) = s.F.any (fun f => s.x f = none) := by
    simp [timesState, timesO_none]
  rw [h1]
  split
  · rfl
  · simp only [timesO, Option.map_some, List.length_map]
    rw [← sum_map_mul]
    congr 2
    refine List.map_congr_left fun m _ => ?_
    have h2 : ((timesState g s).F.map fun f => A m f * ((timesState g s).x f).getD 0).sum = g * (s.F.map fun f => A m f * (s.x f).getD 0).sum := by
      rw [← sum_map_mul]
      simp only [timesState, timesO_getD]
      congr 1
      exact List.map_congr_left fun f _ => by ring
    have h3 : (b.map (g * ·)).getD m 0 = g * b.getD m 0 := by
      rw [List.getD_eq_getElem?_getD, List.getD_eq_getElem?_getD, List.getElem?_map]
      cases b[m]? <;> simp
    rw [h2, h3]
    ring

theorem outerStep_times (g : ℚ) (hg : 0 < g) (A : Nat → Nat → ℚ) (b : List ℚ) (tol : ℚ) (solve : List Nat → List ℚ) (s : NnlsState) :
    outerStep A (b.map (g * ·)) (g * tol) (fun F => (solve F).map (g * ·)) (timesState g s) =
      (outerStep A b tol solve s).map fun r => (timesState g r.1, r.2) := by
  have e : (timesState g s).G.map (gradient A (b.map (g * ·)) (timesState g s)) = (s.G.map (gradient A b s)).map (timesO g) := by
    rw [List.map_map]
    exact List.map_congr_left fun j _ => gradient_times g A b s j
  unfold outerStep
  rw [e, argminNaN_times g hg]
  cases argminNaN (s.G.map (gradient A b s)) with
  | none => rfl
  | some k =>
    simp only [gradient_times]
    have hG : (timesState g s).G = s.G := rfl
    have hF : (timesState g s).F = s.F := rfl
    rw [hG, hF]
    cases gradient A b s (s.G.getD k 0) with
    | none =>
      simp only [timesO, Option.map_none, Bool.false_eq_true, if_false, Option.map_some]
      rw [← innerLoop_times g hg]
      rfl
    | some v =>
      simp only [timesO, Option.map_some, mul_le_mul_iff_right₀ hg]
      by_cases hc : tol ≤ v
      · simp only [hc, decide_true, if_true, Option.map_none]
      · simp only [hc, decide_false, Bool.false_eq_true, if_false, Option.map_some]
        rw [← innerLoop_times g hg]
        rfl

theorem nnlsLoop_times (g : ℚ) (hg : 0 < g) (A : Nat → Nat → ℚ) (b : List ℚ) (tol : ℚ) (solve : List Nat → List ℚ) (k : Nat) (s : NnlsState) :
    nnlsLoop A (b.map (g * ·)) (g * tol) (fun F => (solve F).map (g * ·)) k (timesState g s) =
      (timesState g (nnlsLoop A b tol solve k s).1, (nnlsLoop A b tol solve k s).2) := by
  induction k generalizing s with
  | zero => rfl
  | succ k ih =>
    unfold nnlsLoop
    rw [outerStep_times g hg]
    cases outerStep A b tol solve s with
    | none => rfl
    | some r =>
      obtain ⟨s', c⟩ := r
      cases c with
      | true => exact ih s'
      | false => rfl

theorem nnls_times (g : ℚ) (hg : 0 < g) (n : Nat) (A : Nat → Nat → ℚ) (b : List ℚ) (maxit : Option Nat) (tol : ℚ) (solve : List Nat → List ℚ) :
    nnls n A (b.map (g * ·)) maxit (g * tol) (fun F => (solve F).map (g * ·)) = (nnls n A b maxit tol solve).map (timesO g) := by
  have hi : timesState g (nnlsInit n) = nnlsInit n := by
    simp [timesState, nnlsInit, timesO]
  have := nnlsLoop_times g hg A b tol solve (maxit.getD b.length) (nnlsInit n)
  rw [hi] at this
  unfold nnls
  rw [List.length_map, this, List.map_map]
  rfl

theorem extractPulses_times (g : ℚ) (hg : 0 < g) (basisT : Nat → ℚ) (sol : List (Option ℚ)) :
    extractPulses basisT (sol.map (timesO g)) = timesPulses g (extractPulses basisT sol) := by
  unfold extractPulses timesPulses
  rw [List.zipIdx_map, List.filterMap_map, List.map_filterMap]
  congr 1
  funext p
  obtain ⟨v, i⟩ := p
  cases v with
  | none => rfl
  | some q =>
    simp only [Function.comp_def, Prod.map, timesO, Option.map_some, id_eq, mul_assoc]
    by_cases h : 0 < q * 7
    · rw [if_pos h, if_pos (mul_pos hg h)]; rfl
    · rw [if_neg h, if_neg (fun hc => h ((mul_pos_iff_of_pos_left hg).1 hc))]; rfl

theorem sum_snd_times (g : ℚ) (ps : List (ℚ × ℚ)) : ((timesPulses g ps).map (·.2)).sum = g * (ps.map (·.2)).sum := by
  induction ps with
  | nil => simp [timesPulses]
  | cons p ps ih =>
    simp only [timesPulses, List.map_cons, List.sum_cons, List.map_map] at ih ⊢
    rw [ih]; ring

theorem roughTime_times (g : ℚ) (hg : 0 < g) (ps : List (ℚ × ℚ)) : roughTime (timesPulses g ps) = roughTime ps := by
  cases ps with
  | nil => rfl
  | cons p ps =>
    have h : ∀ ps : List (ℚ × ℚ), ((timesPulses g ps).map fun p => p.1 * p.2).sum = g * (ps.map fun p => p.1 * p.2).sum := by
      intro ps
      induction ps with
      | nil => simp [timesPulses]
      | cons p ps ih =>
        simp only [timesPulses, List.map_cons, List.sum_cons, List.map_map] at ih ⊢
        rw [ih]; ring
    have e : timesPulses g (p :: ps) = (p.1, g * p.2) :: timesPulses g ps := rfl
    unfold roughTime
    rw [e]
    simp only
    rw [← e, h, sum_snd_times, mul_div_mul_left _ _ hg.ne']

theorem filter_times (g : ℚ) (P Q : ℚ × ℚ → Bool) (h : ∀ p, P (p.1, g * p.2) = Q p) (ps : List (ℚ × ℚ)) :
    (timesPulses g ps).filter P = timesPulses g (ps.filter Q) := by
  unfold timesPulses
  rw [List.filter_map]
  congr 2
  funext p
  exact h p

theorem maxOf_times (g : ℚ) (hg : 0 < g) (ps : List (ℚ × ℚ)) : maxOf ((timesPulses g ps).map (·.2)) = g * maxOf (ps.map (·.2)) := by
  cases ps with
  | nil => simp [timesPulses, maxOf]
  | cons p ps =>
    simp only [timesPulses, List.map_cons, List.map_map, maxOf]
    generalize p.2 = m
    induction ps generalizing m with
    | nil => simp
    | cons q ps ih =>
      simp only [List.map_cons, List.foldl_cons, Function.comp_def] at ih ⊢
      rw [← mul_max_of_nonneg _ _ hg.le]
      exact ih _

theorem pixelCharges_times (g : ℚ) (hg : 0 < g) (av : ℚ) (ps : List (ℚ × ℚ)) : pixelCharges av (timesPulses g ps) = timesCharges g (pixelCharges av ps) := by
  have hpos : ∀ x : ℚ, 0 < g * x ↔ 0 < x := fun x => mul_pos_iff_of_pos_left hg
  unfold pixelCharges
  simp only
  rw [filter_times g _ (fun p => decide (0 < p.2)) (fun p => by simp only [hpos]),
    filter_times g _ (fun p => decide (|p.1 - av| ≤ 5 ∧ 0 < p.2)) (fun p => by simp only [hpos]),
    filter_times g _ (fun p => decide (¬ (|p.1 - av| ≤ 5 ∧ 0 < p.2))) (fun p => by simp only [hpos])]
  rw [sum_snd_times, sum_snd_times, sum_snd_times, maxOf_times g hg]
  simp only [hpos, timesCharges, NnlsCharges.mk.injEq, true_and]
  refine ⟨by split <;> simp, by simp [timesPulses]⟩

theorem nnlsPrepare_times (g : ℚ) (hg : 0 < g) (ex : List (List (ℚ × ℚ))) : nnlsPrepare (ex.map (timesPulses g)) = (nnlsPrepare ex).map (timesCharges g) := by
  unfold nnlsPrepare
  rw [List.map_map, List.map_map, List.map_map]
  have : (roughTime ∘ timesPulses g) = roughTime := funext fun ps => roughTime_times g hg ps
  rw [this]
  exact List.map_congr_left fun ps _ => pixelCharges_times g hg _ ps

/-! ## C173 -/

/-- the columns of `NNLSPulseExtraction` for an event (`waveform_reducers/nnls_pulse_extraction.py:78-97`, `118-159`): every waveform unfolded on its
own; `solve w F` is the least-squares solution for the columns `F` and the waveform `w` -/
def unfoldEvent (n : Nat) (A : Nat → Nat → ℚ) (basisT : Nat → ℚ) (tol : ℚ) (solve : List ℚ → List Nat → List ℚ) (ws : List (List ℚ)) : List NnlsCharges :=
  nnlsPrepare (ws.map fun w => extractPulses basisT (nnls n A w none tol (solve w)))

/-- the waveforms multiplied by `g` -/
def amplifiedEvent (g : ℚ) (ws : List (List ℚ)) : List (List ℚ) := ws.map (List.map (g * ·))

/-- the solution of the least-squares problem is proportional to the waveform -/
def Proportional (solve : List ℚ → List Nat → List ℚ) : Prop := ∀ (g : ℚ) (w : List ℚ) (F : List Nat), 0 < g → solve (w.map (g * ·)) F = (solve w F).map (g * ·)

/-- C173 as a user would state it: amplified waveforms give amplified charges and the same number of pulses -/
def AmplifiedCharges (tol : ℚ) : Prop :=
  ∀ (n : Nat) (A : Nat → Nat → ℚ) (basisT : Nat → ℚ) (solve : List ℚ → List Nat → List ℚ) (ws : List (List ℚ)) (g : ℚ), Proportional solve → 0 < g →
    unfoldEvent n A basisT tol solve (amplifiedEvent g ws) = (unfoldEvent n A basisT tol solve ws).map (timesCharges g)

theorem unfoldEvent_times (n : Nat) (A : Nat → Nat → ℚ) (basisT : Nat → ℚ) (tol : ℚ) (solve : List ℚ → List Nat → List ℚ) (hs : Proportional solve)
    (ws : List (List ℚ)) (g : ℚ) (hg : 0 < g) :
    unfoldEvent n A basisT (g * tol) solve (amplifiedEvent g ws) = (unfoldEvent n A basisT tol solve ws).map (timesCharges g) := by
  unfold unfoldEvent amplifiedEvent
  rw [← nnlsPrepare_times g hg, List.map_map, List.map_map]
  congr 1
  refine List.map_congr_left fun w _ => ?_
  simp only [Function.comp_def]
  rw [← extractPulses_times g hg, ← nnls_times g hg, show solve (w.map (g * ·)) = fun F => (solve w F).map (g * ·) from funext fun F => hs g w F hg]

theorem timesCharges_injective (g : ℚ) (hg : 0 < g) (a b : NnlsCharges) (h : timesCharges g a = timesCharges g b) : a = b := by
  obtain ⟨a1, a2, a3, a4, a5⟩ := a
  obtain ⟨b1, b2, b3, b4, b5⟩ := b
  simpa [timesCharges, hg.ne'] using h

/-- C173 is false of the reducer: with the tolerance -14.5 one sample of 10 gives no charge, the same sample at twice the gain gives the charge 140. -/
theorem C173_false : ¬ AmplifiedCharges (-29 / 2) := by
  intro h
  have := h 1 (fun _ _ => 1) (fun _ => 0) (fun w F => F.map fun _ => w.getD 0 0) [[10]] 2 (by
    intro g w F _
    rw [List.map_map]
    refine List.map_congr_left fun _ _ => ?_
    simp only [Function.comp_def, List.getD_eq_getElem?_getD, List.getElem?_map]
    cases w[0]? <;> simp) (by norm_num)
  revert this
  decide +kernel

/-- C173, what holds of every waveform: the reducer with a tolerance gives at the gain `g` what it gives at the gain 1 with that tolerance divided by
`g`, with the charges times `g`, the same pulses in the same order. -/
theorem C173_tolerance_partial (n : Nat) (A : Nat → Nat → ℚ) (basisT : Nat → ℚ) (tol : ℚ) (solve : List ℚ → List Nat → List ℚ) (hs : Proportional solve)
    (ws : List (List ℚ)) (g : ℚ) (hg : 0 < g) :
    unfoldEvent n A basisT tol solve (amplifiedEvent g ws) = (unfoldEvent n A basisT (tol / g) solve ws).map (timesCharges g) ∧
    ∀ w ∈ ws, extractPulses basisT (nnls n A (w.map (g * ·)) none tol (solve (w.map (g * ·)))) =
      (extractPulses basisT (nnls n A w none (tol / g) (solve w))).map fun p => (p.1, g * p.2) := by
  have e : g * (tol / g) = tol := mul_div_cancel₀ tol hg.ne'
  constructor
  · have := unfoldEvent_times n A basisT (tol / g) solve hs ws g hg
    rw [e] at this
    exact this
  · intro w _
    have := nnls_times g hg n A w none (tol / g) (solve w)
    rw [e] at this
    rw [show solve (w.map (g * ·)) = fun F => (solve w F).map (g * ·) from funext fun F => hs g w F hg, this, extractPulses_times g hg]
    rfl

/-- C173, the exact condition: the charges follow the gain if and only if the tolerance divided by the gain gives the same charges. -/
theorem C173_exactly_partial (n : Nat) (A : Nat → Nat → ℚ) (basisT : Nat → ℚ) (tol : ℚ) (solve : List ℚ → List Nat → List ℚ) (hs : Proportional solve)
    (ws : List (List ℚ)) (g : ℚ) (hg : 0 < g) :
    unfoldEvent n A basisT tol solve (amplifiedEvent g ws) = (unfoldEvent n A basisT tol solve ws).map (timesCharges g) ↔
      unfoldEvent n A basisT (tol / g) solve ws = unfoldEvent n A basisT tol solve ws := by
  rw [(C173_tolerance_partial n A basisT tol solve hs ws g hg).1]
  refine ⟨fun h => ?_, fun h => by rw [h]⟩
  exact List.map_injective_iff.2 (timesCharges_injective g hg) h

/-- C173 holds of the algorithm with the tolerance 0. -/
theorem C173_zero_tolerance : AmplifiedCharges 0 := by
  intro n A basisT solve ws g hs hg
  have := unfoldEvent_times n A basisT 0 solve hs ws g hg
  rw [mul_zero] at this
  exact this

/-- C173, what is lost: a waveform whose product with every template is at most 14.5 in its own units gives no charge at all. -/
theorem C173_lost (n : Nat) (A : Nat → Nat → ℚ) (w : List ℚ) (tol : ℚ) (solve : List Nat → List ℚ)
    (h : ∀ i < n, ((List.range w.length).map fun m => A m i * w.getD m 0).sum ≤ -tol) : nnls n A w none tol solve = List.replicate n (some 0) := by
  have hg : ∀ i, gradient A w (nnlsInit n) i = some (-((List.range w.length).map fun m => A m i * w.getD m 0).sum) := by
    intro i
    unfold gradient nnlsInit
    simp only [List.any_nil, Bool.false_eq_true, if_false, List.map_nil, List.sum_nil, zero_sub, Option.some.injEq]
    rw [← neg_one_mul, ← sum_map_mul]
    congr 1
    exact List.map_congr_left fun m _ => by ring
  have hstop : outerStep A w tol solve (nnlsInit n) = none := by
    unfold outerStep
    cases hk : argminNaN ((nnlsInit n).G.map (gradient A w (nnlsInit n))) with
    | none => rfl
    | some k =>
      simp only [hg]
      obtain ⟨hk, -⟩ := argminNaN_spec _ _ hk
      rw [List.length_map, show (nnlsInit n).G = List.range n from rfl, List.length_range] at hk
      rw [if_pos]
      have e : (nnlsInit n).G.getD k 0 = k := by
        rw [show (nnlsInit n).G = List.range n from rfl, List.getD_eq_getElem?_getD, List.getElem?_range hk]; rfl
      rw [e, decide_eq_true_iff]
      have := h k hk
      linarith
  unfold nnls
  have : (nnlsLoop A w tol solve w.length (nnlsInit n)).1 = nnlsInit n := by
    cases w.length with
    | zero => rfl
    | succ k => simp only [nnlsLoop, hstop]
  rw [Option.getD_none, this]
  simp [nnlsInit]

/-- a waveform of two pulses on the unit basis: the smaller one is missed at the gain 1 and found at the gain 2 -/
example : unfoldEvent 2 (fun m i => if m = i then 1 else 0) (fun i => i) (-29 / 2) (fun w F => F.map fun i => w.getD i 0) [[20, 10]] =
      [⟨140, 140, 140, 0, 1⟩] ∧
    unfoldEvent 2 (fun m i => if m = i then 1 else 0) (fun i => i) (-29 / 2) (fun w F => F.map fun i => w.getD i 0) (amplifiedEvent 2 [[20, 10]]) =
      [⟨420, 420, 280, 0, 2⟩] := by
  decide +kernel

/-- and both charges follow a further gain of 3 -/
example : unfoldEvent 2 (fun m i => if m = i then 1 else 0) (fun i => i) (-29 / 2) (fun w F => F.map fun i => w.getD i 0) (amplifiedEvent 3 (amplifiedEvent 2 [[20, 10]])) =
    (unfoldEvent 2 (fun m i => if m = i then 1 else 0) (fun i => i) (-29 / 2) (fun w F => F.map fun i => w.getD i 0) (amplifiedEvent 2 [[20, 10]])).map (timesCharges 3) := by
  refine (C173_exactly_partial 2 _ _ _ _ ?_ _ 3 (by norm_num)).2 (by decide +kernel)
  intro g w F _
  rw [List.map_map]
  refine List.map_congr_left fun i _ => ?_
  simp only [Function.comp_def, List.getD_eq_getElem?_getD, List.getElem?_map]
  cases w[i]? <;> simp

end Verif.Props
