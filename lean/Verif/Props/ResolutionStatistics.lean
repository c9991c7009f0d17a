import Verif.Props.Resolutions
import Verif.Model.LimitCurves
import Mathlib.Tactic.Linarith

/-! # C165: charge resolution and charge statistics of the same charges -/

namespace Verif.Props

open Verif.Py Verif.Model Verif.Spec Verif.Lemmas

/-- every entry has a measured charge (no NaN) -/
def AllMeasured (E : List ChargeEntry) : Prop := ∀ e ∈ E, e.measured ≠ none

/-- the square of a resolution made of the spread, the bias and, for simulations, the photon statistics -/
structure Decomposes (mc : Bool) (r : ResolutionRow) (q : StatisticsRow) : Prop where
  pixel : q.row.pixel = r.row.pixel
  key : q.row.key = r.row.key
  n : q.row.n = r.row.n
  square : ∃ a d, r.abs = some a ∧ 0 ≤ a ∧ q.std = some d ∧ 0 ≤ d ∧
    a ^ 2 = d ^ 2 + ((q.mean : ℝ) - (r.row.key : ℝ)) ^ 2 + if mc then (r.row.key : ℝ) else 0

/-- spread and bias of a group of entries of one true charge -/
theorem meanSquare_identity (G : List ChargeEntry) (t : ℚ) (hne : G ≠ []) (hm : AllMeasured G) (ht : ∀ e ∈ G, e.key = t) :
    meanSquare G = measuredVariance G + (measuredMean G - t) ^ 2 := by
  have hn : (G.length : ℚ) ≠ 0 := by
    have := List.length_pos_iff.2 hne
    exact_mod_cast Nat.pos_iff_ne_zero.1 this
  have key : ∀ G : List ChargeEntry, AllMeasured G → (∀ e ∈ G, e.key = t) →
      (G.map fun e => (e.measured.getD e.key - e.key) ^ 2).sum =
      (G.map fun e => e.measured.getD 0 ^ 2).sum - 2 * t * (G.map fun e => e.measured.getD 0).sum + G.length * t ^ 2 := by
    intro G
    induction G with
    | nil => intros; simp
    | cons a G ih =>
      intro hm ht
      have h1 := ih (fun e h => hm e (by simp [h])) (fun e h => ht e (by simp [h]))
      have h2 := ht a (by simp)
      obtain ⟨x, hx⟩ := Option.ne_none_iff_exists'.1 (hm a (by simp))
      simp only [List.map_cons, List.sum_cons, List.length_cons, h1, hx, h2, Option.getD_some]
      push_cast
      ring
  rw [← variance_identity G hne]
  unfold meanSquare measuredMean
  rw [key G hm ht]
  field_simp
  ring

theorem meanSquare_nonneg (G : List ChargeEntry) : 0 ≤ meanSquare G := by
  unfold meanSquare
  refine div_nonneg (List.sum_nonneg ?_) (by positivity)
  intro x hx
  obtain ⟨e, _, rfl⟩ := List.mem_map.1 hx
  positivity

theorem decomposes_of (mc : Bool) (G : List ChargeEntry) (t : ℚ) (hne : G ≠ []) (hm : AllMeasured G) (ht : ∀ e ∈ G, e.key = t)
    (h0 : mc = true → 0 ≤ t) :
    ∃ a d : ℝ, npSqrt (meanSquare G + if mc then t else 0) = some a ∧ 0 ≤ a ∧ some (Real.sqrt (measuredVariance G)) = some d ∧ 0 ≤ d ∧
      a ^ 2 = d ^ 2 + ((measuredMean G : ℝ) - (t : ℝ)) ^ 2 + if mc then (t : ℝ) else 0 := by
  have h1 := meanSquare_nonneg G
  have h2 : (0 : ℚ) ≤ meanSquare G + if mc then t else 0 := by
    cases mc
    · simpa using h1
    · have := h0 rfl
      simp only [if_true]
      linarith
  have h3 : (0 : ℝ) ≤ ((meanSquare G + if mc then t else 0 : ℚ) : ℝ) := by exact_mod_cast h2
  have h4 : (0 : ℝ) ≤ ((measuredVariance G : ℚ) : ℝ) := by exact_mod_cast variance_nonneg G
  refine ⟨_, _, by rw [npSqrt, if_neg (not_lt.2 h2)], Real.sqrt_nonneg _, rfl, Real.sqrt_nonneg _, ?_⟩
  rw [Real.sq_sqrt h3, Real.sq_sqrt h4, meanSquare_identity G t hne hm ht]
  cases mc <;> push_cast <;> simp

/-- **C165**: a `ChargeResolution` and a `ChargeStatistics` filled with the same charges, in any portions and order, agree: every row of the table of the
pixels has its row in the other table, with the same number of entries, and the square of the absolute resolution is the square of the
standard deviation plus that of the bias (plus the true charge for simulations) -/
theorem C165_pixel_tables (mem mem' : List ResRow → Nat) (mc : Bool) (ops ops' : List ResOp) (s s' t t' : ResState)
    (P C : List ResolutionRow) (P' C' : List StatisticsRow) (hrun : runResolution mem mc ResState.init ops = .ok s)
    (hfin : finishResolution mc s = .ok (s', P, C)) (hrun' : runStatistics mem' ResState.init ops' = .ok t)
    (hfin' : finishStatistics t = .ok (t', P', C')) (hperm : (entries ops).Perm (entries ops')) (hm : AllMeasured (entries ops))
    (hpos : mc = true → ∀ e ∈ entries ops, 0 ≤ e.key) :
    (∀ r ∈ P, ∃ q ∈ P', Decomposes mc r q) ∧ ∀ q ∈ P', q.row.key ≠ 0 → ∃ r ∈ P, Decomposes mc r q := by
  obtain ⟨-, a1, a2⟩ := C40_pixel_table mem mc ops s s' P C hrun hfin
  obtain ⟨-, b1, b2⟩ := C41_pixel_table mem' ops' t t' P' C' hrun' hfin'
  have hg : ∀ p k, (groupOf (entries ops') p k).Perm (groupOf (entries ops) p k) := fun p k => (hperm.symm.filter _)
  have hmean : ∀ p k, measuredMean (groupOf (entries ops') p k) = measuredMean (groupOf (entries ops) p k) := fun p k => by
    unfold measuredMean; rw [((hg p k).map _).sum_eq, (hg p k).length_eq]
  have hvar : ∀ p k, measuredVariance (groupOf (entries ops') p k) = measuredVariance (groupOf (entries ops) p k) := fun p k => by
    unfold measuredVariance; rw [hmean, ((hg p k).map _).sum_eq, (hg p k).length_eq]
  have main : ∀ r ∈ P, ∀ q ∈ P', q.row.pixel = r.row.pixel → q.row.key = r.row.key → Decomposes mc r q := by
    intro r hr q hq hp hk
    obtain ⟨r1, r2, -⟩ := a2 r hr
    obtain ⟨q1, q2, q3⟩ := b2 q hq
    obtain ⟨-, e, he, hep, hek⟩ := (a1 r.row.pixel r.row.key).1 ⟨r, hr, rfl, rfl⟩
    have hne : groupOf (entries ops) r.row.pixel r.row.key ≠ [] := List.ne_nil_of_mem (List.mem_filter.2 ⟨he, by simp [hep, hek]⟩)
    obtain ⟨a, d, ha, ha0, hd, hd0, hsq⟩ := decomposes_of mc (groupOf (entries ops) r.row.pixel r.row.key) r.row.key hne
      (fun e he => hm e (List.mem_of_mem_filter he)) (fun e he => by have := (List.mem_filter.1 he).2; simp at this; exact this.2)
      (fun h => hek ▸ hpos h e he)
    rw [hp, hk, hmean] at q2
    rw [hp, hk, hvar] at q3
    rw [hp, hk, (hg _ _).length_eq] at q1
    exact ⟨hp, hk, by rw [q1, r1], a, d, r2.trans ha, ha0, q3.trans hd, hd0, by rw [q2]; exact hsq⟩
  constructor
  · intro r hr
    obtain ⟨-, e, he, hep, hek⟩ := (a1 r.row.pixel r.row.key).1 ⟨r, hr, rfl, rfl⟩
    obtain ⟨q, hq, hqp, hqk⟩ := (b1 r.row.pixel r.row.key).2 ⟨e, hperm.mem_iff.1 he, hep, hek⟩
    exact ⟨q, hq, main r hr q hq hqp hqk⟩
  · intro q hq h0
    obtain ⟨e, he, hep, hek⟩ := (b1 q.row.pixel q.row.key).1 ⟨q, hq, rfl, rfl⟩
    obtain ⟨r, hr, hrp, hrk⟩ := (a1 q.row.pixel q.row.key).2 ⟨h0, e, hperm.mem_iff.2 he, hep, hek⟩
    exact ⟨r, hr, main r hr q hq hrp.symm hrk.symm⟩

/-- **C165**: the tables of the camera, likewise (they have no column of pixels) -/
theorem C165_camera_tables (mem mem' : List ResRow → Nat) (mc : Bool) (ops ops' : List ResOp) (s s' t t' : ResState)
    (P C : List ResolutionRow) (P' C' : List StatisticsRow) (hrun : runResolution mem mc ResState.init ops = .ok s)
    (hfin : finishResolution mc s = .ok (s', P, C)) (hrun' : runStatistics mem' ResState.init ops' = .ok t)
    (hfin' : finishStatistics t = .ok (t', P', C')) (hperm : (entries ops).Perm (entries ops')) (hm : AllMeasured (entries ops))
    (hpos : mc = true → ∀ e ∈ entries ops, 0 ≤ e.key) :
    (∀ r ∈ C, ∃ q ∈ C', q.row.key = r.row.key ∧ q.row.n = r.row.n ∧ ∃ a d, r.abs = some a ∧ 0 ≤ a ∧ q.std = some d ∧ 0 ≤ d ∧
      a ^ 2 = d ^ 2 + ((q.mean : ℝ) - (r.row.key : ℝ)) ^ 2 + if mc then (r.row.key : ℝ) else 0) ∧
    ∀ q ∈ C', q.row.key ≠ 0 → ∃ r ∈ C, r.row.key = q.row.key := by
  obtain ⟨-, a1, a2⟩ := C40_camera_table mem mc ops s s' P C hrun hfin
  obtain ⟨-, b1, b2⟩ := C41_camera_table mem' ops' t t' P' C' hrun' hfin'
  have hg : ∀ k, (cameraGroupOf (entries ops') k).Perm (cameraGroupOf (entries ops) k) := fun k => (hperm.symm.filter _)
  have hmean : ∀ k, measuredMean (cameraGroupOf (entries ops') k) = measuredMean (cameraGroupOf (entries ops) k) := fun k => by
    unfold measuredMean; rw [((hg k).map _).sum_eq, (hg k).length_eq]
  have hvar : ∀ k, measuredVariance (cameraGroupOf (entries ops') k) = measuredVariance (cameraGroupOf (entries ops) k) := fun k => by
    unfold measuredVariance; rw [hmean, ((hg k).map _).sum_eq, (hg k).length_eq]
  refine ⟨?_, fun q hq h0 => ?_⟩
  swap
  · obtain ⟨e, he, hek⟩ := (b1 q.row.key).1 ⟨q, hq, rfl⟩
    exact (a1 q.row.key).2 ⟨h0, e, hperm.mem_iff.2 he, hek⟩
  intro r hr
  obtain ⟨-, e, he, hek⟩ := (a1 r.row.key).1 ⟨r, hr, rfl⟩
  obtain ⟨q, hq, hk⟩ := (b1 r.row.key).2 ⟨e, hperm.mem_iff.1 he, hek⟩
  obtain ⟨r1, r2, -⟩ := a2 r hr
  obtain ⟨q1, q2, q3⟩ := b2 q hq
  have hne : cameraGroupOf (entries ops) r.row.key ≠ [] := List.ne_nil_of_mem (List.mem_filter.2 ⟨he, by simp [hek]⟩)
  obtain ⟨a, d, ha, ha0, hd, hd0, hsq⟩ := decomposes_of mc (cameraGroupOf (entries ops) r.row.key) r.row.key hne
    (fun e he => hm e (List.mem_of_mem_filter he)) (fun e he => by have := (List.mem_filter.1 he).2; simpa using this)
    (fun h => hek ▸ hpos h e he)
  rw [hk, hmean] at q2
  rw [hk, hvar] at q3
  rw [hk, (hg _).length_eq] at q1
  exact ⟨q, hq, hk, by rw [q1, r1], a, d, r2.trans ha, ha0, q3.trans hd, hd0, by rw [q2]; exact hsq⟩

theorem meanSquare_zero (G : List ChargeEntry) (hne : G ≠ []) : meanSquare G = 0 ↔ ∀ e ∈ G, ∀ x, e.measured = some x → x = e.key := by
  have hn : (G.length : ℚ) ≠ 0 := by
    have := List.length_pos_iff.2 hne
    exact_mod_cast Nat.pos_iff_ne_zero.1 this
  unfold meanSquare
  rw [div_eq_zero_iff, or_iff_left hn]
  clear hne hn
  induction G with
  | nil => simp
  | cons a G ih =>
    have h1 : 0 ≤ (G.map fun e => (e.measured.getD e.key - e.key) ^ 2).sum := by
      refine List.sum_nonneg ?_
      intro x hx
      obtain ⟨e, _, rfl⟩ := List.mem_map.1 hx
      positivity
    rw [List.map_cons, List.sum_cons, add_eq_zero_iff_of_nonneg (by positivity) h1, List.forall_mem_cons]
    refine (and_congr_right fun _ => ih).trans ?_
    refine and_congr_left fun _ => ?_
    cases a.measured with
    | none => simp
    | some x => simp [sub_eq_zero]

theorem poisson_floor (G : List ChargeEntry) (t : ℚ) (hne : G ≠ []) (ht : 0 < t) (a : ℝ) (ha : (npSqrt (meanSquare G + t)).map (fun x => x / |(t : ℝ)|) = some a)
    (p : ℝ) (hp : poissonLimit [(t : ℝ)] = [p]) : p ≤ a ∧ (a = p ↔ ∀ e ∈ G, ∀ x, e.measured = some x → x = e.key) := by
  have h1 := meanSquare_nonneg G
  have ht' : (0 : ℝ) < t := by exact_mod_cast ht
  have h2 : (0 : ℝ) ≤ (meanSquare G : ℚ) := by exact_mod_cast h1
  rw [npSqrt, if_neg (not_lt.2 (by linarith)), Option.map_some] at ha
  obtain rfl := Option.some.inj ha
  unfold poissonLimit at hp
  obtain rfl := (List.cons.inj hp).1
  rw [abs_of_pos ht', ← meanSquare_zero G hne]
  constructor
  · exact div_le_div_of_nonneg_right (Real.sqrt_le_sqrt (by push_cast; linarith)) ht'.le
  · rw [div_left_inj' ht'.ne', Real.sqrt_inj (by push_cast; linarith) ht'.le]
    push_cast
    rw [add_eq_right]
    exact Rat.cast_eq_zero

/-- **C165**: for simulations no resolution is below the limit of photon statistics which the plots draw, and it is at that limit exactly if
every measured charge is the true one -/
theorem C165_poisson_floor (mem : List ResRow → Nat) (ops : List ResOp) (s s' : ResState) (P C : List ResolutionRow)
    (hrun : runResolution mem true ResState.init ops = .ok s) (hfin : finishResolution true s = .ok (s', P, C)) :
    (∀ r ∈ P, 0 < r.row.key → ∃ a p, r.rel = some a ∧ poissonLimit [(r.row.key : ℝ)] = [p] ∧ p ≤ a ∧
      (a = p ↔ ∀ e ∈ entries ops, e.pixel = r.row.pixel → e.key = r.row.key → ∀ x, e.measured = some x → x = r.row.key)) ∧
    ∀ r ∈ C, 0 < r.row.key → ∃ a p, r.rel = some a ∧ poissonLimit [(r.row.key : ℝ)] = [p] ∧ p ≤ a ∧
      (a = p ↔ ∀ e ∈ entries ops, e.key = r.row.key → ∀ x, e.measured = some x → x = r.row.key) := by
  obtain ⟨-, a1, a2⟩ := C40_pixel_table mem true ops s s' P C hrun hfin
  obtain ⟨-, b1, b2⟩ := C40_camera_table mem true ops s s' P C hrun hfin
  constructor
  · intro r hr h0
    obtain ⟨-, r2, r3⟩ := a2 r hr
    obtain ⟨-, e, he, hep, hek⟩ := (a1 r.row.pixel r.row.key).1 ⟨r, hr, rfl, rfl⟩
    have hne : groupOf (entries ops) r.row.pixel r.row.key ≠ [] := List.ne_nil_of_mem (List.mem_filter.2 ⟨he, by simp [hep, hek]⟩)
    rw [r2, if_pos rfl] at r3
    have h1 := meanSquare_nonneg (groupOf (entries ops) r.row.pixel r.row.key)
    obtain ⟨a, ha⟩ : ∃ a, (npSqrt (meanSquare (groupOf (entries ops) r.row.pixel r.row.key) + r.row.key)).map (fun x => x / |(r.row.key : ℝ)|) = some a :=
      ⟨_, by rw [npSqrt, if_neg (not_lt.2 (by linarith)), Option.map_some]⟩
    obtain ⟨f1, f2⟩ := poisson_floor _ _ hne h0 a ha _ rfl
    refine ⟨a, _, r3.trans ha, rfl, f1, f2.trans ?_⟩
    simp only [groupOf, List.mem_filter, decide_eq_true_eq]
    exact ⟨fun h e he hp hk x hx => (h e ⟨he, hp, hk⟩ x hx).trans hk, fun h e ⟨he, hp, hk⟩ x hx => (h e he hp hk x hx).trans hk.symm⟩
  · intro r hr h0
    obtain ⟨-, r2, r3⟩ := b2 r hr
    obtain ⟨-, e, he, hek⟩ := (b1 r.row.key).1 ⟨r, hr, rfl⟩
    have hne : cameraGroupOf (entries ops) r.row.key ≠ [] := List.ne_nil_of_mem (List.mem_filter.2 ⟨he, by simp [hek]⟩)
    rw [r2, if_pos rfl] at r3
    have h1 := meanSquare_nonneg (cameraGroupOf (entries ops) r.row.key)
    obtain ⟨a, ha⟩ : ∃ a, (npSqrt (meanSquare (cameraGroupOf (entries ops) r.row.key) + r.row.key)).map (fun x => x / |(r.row.key : ℝ)|) = some a :=
      ⟨_, by rw [npSqrt, if_neg (not_lt.2 (by linarith)), Option.map_some]⟩
    obtain ⟨f1, f2⟩ := poisson_floor _ _ hne h0 a ha _ rfl
    refine ⟨a, _, r3.trans ha, rfl, f1, f2.trans ?_⟩
    simp only [cameraGroupOf, List.mem_filter, decide_eq_true_eq]
    exact ⟨fun h e he hk x hx => (h e ⟨he, hk⟩ x hx).trans hk, fun h e ⟨he, hk⟩ x hx => (h e he hk x hx).trans hk.symm⟩

/-- sessions which meet the hypotheses: the same charges in other portions and order -/
def resolutionSession : List ResOp := [.add [⟨0, 4, some 5⟩, ⟨1, 4, some 3⟩], .finish, .add [⟨0, 4, some 1⟩]]
def statisticsSession : List ResOp := [.add [⟨0, 4, some 1⟩, ⟨0, 4, some 5⟩], .add [⟨1, 4, some 3⟩]]

example : (entries resolutionSession).Perm (entries statisticsSession) ∧ AllMeasured (entries resolutionSession) ∧
    ∀ e ∈ entries resolutionSession, 0 ≤ e.key := by
  refine ⟨by decide +kernel, ?_, ?_⟩
  · intro e he
    simp only [resolutionSession, entries, List.cons_append, List.nil_append, List.append_nil, List.mem_cons, List.not_mem_nil, or_false] at he
    rcases he with rfl | rfl | rfl <;> simp
  · decide +kernel

example (mem mem' : List ResRow → Nat) (mc : Bool) : (∃ s r, runResolution mem mc ResState.init resolutionSession = .ok s ∧ finishResolution mc s = .ok r) ∧
    ∃ s r, runStatistics mem' ResState.init statisticsSession = .ok s ∧ finishStatistics s = .ok r :=
  ⟨C40_total mem mc _ _, (C41_total mem' _ _).1⟩

/-- the numbers of pixel 0: mean 3 and variance 4 against the true charge 4, mean square 5 -/
example : meanSquare (groupOf (entries resolutionSession) 0 4) = 5 ∧ measuredVariance (groupOf (entries resolutionSession) 0 4) = 4 ∧
    (measuredMean (groupOf (entries resolutionSession) 0 4) - 4) ^ 2 = 1 := by decide +kernel

/-- **C165**, the limit of the claim: a missing measurement counts as exact in the resolution but as no charge in the statistics -/
theorem C165_missing : meanSquare [⟨0, 4, none⟩] = 0 ∧ measuredVariance [⟨0, 4, none⟩] + (measuredMean [⟨0, 4, none⟩] - 4) ^ 2 = 16 ∧
    ∀ mem mem' : List ResRow → Nat, ∃ s s' P C t t' P' C', runResolution mem false ResState.init [.add [⟨0, 4, none⟩]] = .ok s ∧
      finishResolution false s = .ok (s', P, C) ∧ runStatistics mem' ResState.init [.add [⟨0, 4, none⟩]] = .ok t ∧
      finishStatistics t = .ok (t', P', C') ∧ ∃ r ∈ P, ∀ q ∈ P', ¬ Decomposes false r q := by
  have m1 : meanSquare [⟨0, 4, none⟩] = 0 := by decide +kernel
  refine ⟨m1, by decide +kernel, ?_⟩
  intro mem mem'
  obtain ⟨s, ⟨s', P, C⟩, hs, hf⟩ := C40_total mem false [⟨0, 4, none⟩] []
  obtain ⟨⟨t, ⟨t', P', C'⟩, ht, hg⟩, -⟩ := C41_total mem' [⟨0, 4, none⟩] []
  refine ⟨s, s', P, C, t, t', P', C', hs, hf, ht, hg, ?_⟩
  obtain ⟨-, a1, a2⟩ := C40_pixel_table mem false _ s s' P C hs hf
  obtain ⟨-, b1, b2⟩ := C41_pixel_table mem' _ t t' P' C' ht hg
  obtain ⟨r, hr, hp, hk⟩ := (a1 0 4).2 ⟨by norm_num, ⟨0, 4, none⟩, by simp [entries], rfl, rfl⟩
  refine ⟨r, hr, ?_⟩
  intro q hq hd
  obtain ⟨-, r2, -⟩ := a2 r hr
  obtain ⟨-, q2, q3⟩ := b2 q hq
  rw [hd.pixel, hd.key, hp, hk] at q2 q3
  rw [hp, hk] at r2
  have g1 : groupOf (entries [.add [⟨0, 4, none⟩]]) 0 4 = [⟨0, 4, none⟩] := by decide +kernel
  have g2 : measuredMean [⟨0, 4, none⟩] = 0 := by decide +kernel
  rw [g1, g2] at q2
  rw [g1, m1] at r2
  obtain ⟨a, d, ha, -, -, -, hsq⟩ := hd.square
  rw [r2] at ha
  simp [npSqrt] at ha
  subst ha
  rw [q2, hk] at hsq
  simp at hsq
  nlinarith [sq_nonneg d]

end Verif.Props
