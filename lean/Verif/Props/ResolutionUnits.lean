import Verif.Props.Resolutions

/-! # C175: units of the charges in charge resolutions and charge statistics -/

namespace Verif.Props

open Verif.Py Verif.Model Verif.Spec Verif.Lemmas

/-- an entry whose true and measured charges are in other units -/
def chargeTimes (g : ℚ) (e : ChargeEntry) : ChargeEntry := ⟨e.pixel, g * e.key, e.measured.map (g * ·)⟩

/-- an entry measured with another gain and zero, the amplitude of the light kept -/
def measuredTimes (g c : ℚ) (e : ChargeEntry) : ChargeEntry := ⟨e.pixel, e.key, e.measured.map fun m => g * m + c⟩

theorem rows_match {α β γ : Type} (A : List α) (B : List β) (k : α → γ) (k' : β → γ) (R : α → β → Prop) (h : B.map k' = A.map k)
    (hR : ∀ a ∈ A, ∀ b ∈ B, k' b = k a → R a b) : List.Forall₂ R A B := by
  induction A generalizing B with
  | nil =>
    cases B with
    | nil => exact List.Forall₂.nil
    | cons b B => cases h
  | cons a A ih =>
    cases B with
    | nil => cases h
    | cons b B =>
      simp only [List.map_cons, List.cons.injEq] at h
      exact List.Forall₂.cons (hR a List.mem_cons_self b List.mem_cons_self h.1)
        (ih B h.2 fun a ha b hb => hR a (List.mem_cons_of_mem _ ha) b (List.mem_cons_of_mem _ hb))

theorem groupOf_times (g : ℚ) (hg : 0 < g) (E E' : List ChargeEntry) (h : E'.Perm (E.map (chargeTimes g))) (p : Int) (t : ℚ) :
    (groupOf E' p (g * t)).Perm ((groupOf E p t).map (chargeTimes g)) := by
  unfold groupOf
  refine (h.filter _).trans ?_
  rw [List.filter_map]
  refine List.Perm.of_eq (congrArg _ (List.filter_congr fun e _ => ?_))
  exact decide_eq_decide.2 (and_congr_right fun _ => mul_right_inj' hg.ne')

theorem cameraGroupOf_times (g : ℚ) (hg : 0 < g) (E E' : List ChargeEntry) (h : E'.Perm (E.map (chargeTimes g))) (t : ℚ) :
    (cameraGroupOf E' (g * t)).Perm ((cameraGroupOf E t).map (chargeTimes g)) := by
  unfold cameraGroupOf
  refine (h.filter _).trans ?_
  rw [List.filter_map]
  refine List.Perm.of_eq (congrArg _ (List.filter_congr fun e _ => ?_))
  exact decide_eq_decide.2 (mul_right_inj' hg.ne')

theorem meanSquare_times (g : ℚ) (G G' : List ChargeEntry) (h : G'.Perm (G.map (chargeTimes g))) : meanSquare G' = g ^ 2 * meanSquare G := by
  unfold meanSquare
  rw [(h.map _).sum_eq, h.length_eq, List.length_map, List.map_map, ← mul_div_assoc]
  congr 1
  clear h
  induction G with
  | nil => simp
  | cons e G ih =>
    rw [List.map_cons, List.map_cons, List.sum_cons, List.sum_cons, ih, mul_add]
    congr 1
    have : (chargeTimes g e).measured.getD (chargeTimes g e).key - (chargeTimes g e).key = g * (e.measured.getD e.key - e.key) := by
      unfold chargeTimes
      cases e.measured <;> simp [mul_sub]
    rw [Function.comp_apply, this, mul_pow]

theorem npSqrt_times (g : ℚ) (hg : 0 < g) (q : ℚ) : npSqrt (g ^ 2 * q) = (npSqrt q).map ((g : ℝ) * ·) := by
  unfold npSqrt
  have h2 : 0 < g ^ 2 := by positivity
  have hg' : (0 : ℝ) ≤ g := by exact_mod_cast hg.le
  by_cases h : q < 0
  · rw [if_pos (mul_neg_of_pos_of_neg h2 h), if_pos h]; rfl
  · rw [if_neg (not_lt.2 (mul_nonneg h2.le (not_lt.1 h))), if_neg h, Option.map_some]
    push_cast
    rw [Real.sqrt_mul (by positivity), Real.sqrt_sq hg']

theorem entry_times (g : ℚ) (hg : 0 < g) (E E' : List ChargeEntry) (h : E'.Perm (E.map (chargeTimes g))) (p : Int) (t : ℚ) :
    (∃ e ∈ E', e.pixel = p ∧ e.key = g * t) ↔ ∃ e ∈ E, e.pixel = p ∧ e.key = t := by
  constructor
  · rintro ⟨e, he, h1, h2⟩
    obtain ⟨e0, he0, rfl⟩ := List.mem_map.1 (h.mem_iff.1 he)
    exact ⟨e0, he0, h1, mul_left_cancel₀ hg.ne' h2⟩
  · rintro ⟨e, he, h1, h2⟩
    exact ⟨chargeTimes g e, h.mem_iff.2 (List.mem_map_of_mem he), h1, by rw [← h2]; rfl⟩

theorem camera_entry_times (g : ℚ) (hg : 0 < g) (E E' : List ChargeEntry) (h : E'.Perm (E.map (chargeTimes g))) (t : ℚ) :
    (∃ e ∈ E', e.key = g * t) ↔ ∃ e ∈ E, e.key = t := by
  constructor
  · rintro ⟨e, he, h2⟩
    obtain ⟨e0, he0, rfl⟩ := List.mem_map.1 (h.mem_iff.1 he)
    exact ⟨e0, he0, mul_left_cancel₀ hg.ne' h2⟩
  · rintro ⟨e, he, h2⟩
    exact ⟨chargeTimes g e, h.mem_iff.2 (List.mem_map_of_mem he), by rw [← h2]; rfl⟩

/-- tables sorted by pixel and charge with the same pixels and, up to units, the same charges -/
theorem pixel_keys_match {α : Type} (p : α → Int) (k : α → ℚ) (g : ℚ) (hg : 0 < g) (A B : List α)
    (hA : A.Pairwise fun a b => p a < p b ∨ (p a = p b ∧ k a < k b)) (hB : B.Pairwise fun a b => p a < p b ∨ (p a = p b ∧ k a < k b))
    (h : ∀ q t, (∃ b ∈ B, p b = q ∧ k b = g * t) ↔ ∃ a ∈ A, p a = q ∧ k a = t) :
    B.map (fun r => toLex (p r, k r)) = A.map fun r => toLex (p r, g * k r) := by
  refine List.Pairwise.eq_of_mem_iff (r := (· < ·)) (List.pairwise_map.2 (hB.imp fun {a b} hab => Prod.Lex.lt_iff.2 hab))
    (List.pairwise_map.2 (hA.imp fun {a b} hab => Prod.Lex.lt_iff.2 ?_)) ?_
  · rcases hab with h | ⟨h, h'⟩
    · exact Or.inl h
    · exact Or.inr ⟨h, mul_lt_mul_of_pos_left h' hg⟩
  · intro x
    obtain ⟨⟨q, u⟩, rfl⟩ := toLex.surjective x
    have hu : u = g * (u / g) := (mul_div_cancel₀ u hg.ne').symm
    have e1 : toLex (q, u) ∈ B.map (fun r => toLex (p r, k r)) ↔ ∃ b ∈ B, p b = q ∧ k b = u := by
      simp [List.mem_map]
    have e2 : toLex (q, u) ∈ A.map (fun r => toLex (p r, g * k r)) ↔ ∃ a ∈ A, p a = q ∧ k a = u / g := by
      simp only [List.mem_map, EmbeddingLike.apply_eq_iff_eq, Prod.mk.injEq]
      constructor
      · rintro ⟨r, hr, h1, h2⟩; exact ⟨r, hr, h1, by rw [← h2, mul_div_cancel_left₀ _ hg.ne']⟩
      · rintro ⟨r, hr, h1, h2⟩; exact ⟨r, hr, h1, by rw [h2, ← hu]⟩
    rw [e1, e2, ← h, ← hu]

theorem camera_keys_match {α : Type} (k : α → ℚ) (g : ℚ) (hg : 0 < g) (A B : List α) (hA : A.Pairwise fun a b => k a < k b)
    (hB : B.Pairwise fun a b => k a < k b) (h : ∀ t, (∃ b ∈ B, k b = g * t) ↔ ∃ a ∈ A, k a = t) : B.map k = A.map fun r => g * k r := by
  refine List.Pairwise.eq_of_mem_iff (r := (· < ·)) (List.pairwise_map.2 hB) (List.pairwise_map.2 (hA.imp fun {a b} hab => mul_lt_mul_of_pos_left hab hg)) ?_
  intro u
  have hu : u = g * (u / g) := (mul_div_cancel₀ u hg.ne').symm
  have e2 : u ∈ A.map (fun r => g * k r) ↔ ∃ a ∈ A, k a = u / g := by
    simp only [List.mem_map]
    constructor
    · rintro ⟨r, hr, h2⟩; exact ⟨r, hr, by rw [← h2, mul_div_cancel_left₀ _ hg.ne']⟩
    · rintro ⟨r, hr, h2⟩; exact ⟨r, hr, by rw [h2, ← hu]⟩
  rw [List.mem_map, e2, ← h, ← hu]

/-- rows of two resolution tables, the second in other units: the charge and the absolute resolution times `g`, the number of entries and the
relative resolution the same -/
def ResolutionTimes (g : ℚ) (a b : ResolutionRow) : Prop :=
  b.row.key = g * a.row.key ∧ b.row.n = a.row.n ∧ b.abs = a.abs.map ((g : ℝ) * ·) ∧ b.rel = a.rel

theorem resolutionTimes_of (g : ℚ) (hg : 0 < g) (a b : ResolutionRow) (G G' : List ChargeEntry) (hG : G'.Perm (G.map (chargeTimes g)))
    (hk : b.row.key = g * a.row.key)
    (ha : a.row.n = G.length ∧ a.abs = npSqrt (meanSquare G + if false then a.row.key else 0) ∧ a.rel = a.abs.map fun x => x / |(a.row.key : ℝ)|)
    (hb : b.row.n = G'.length ∧ b.abs = npSqrt (meanSquare G' + if false then b.row.key else 0) ∧ b.rel = b.abs.map fun x => x / |(b.row.key : ℝ)|) :
    ResolutionTimes g a b := by
  obtain ⟨a1, a2, a3⟩ := ha
  obtain ⟨b1, b2, b3⟩ := hb
  have habs : b.abs = a.abs.map ((g : ℝ) * ·) := by
    rw [a2, b2]
    simp only [Bool.false_eq_true, if_false, add_zero]
    rw [meanSquare_times g _ _ hG, npSqrt_times g hg]
  refine ⟨hk, by rw [a1, b1, hG.length_eq, List.length_map], habs, ?_⟩
  have hg' : (0 : ℝ) < g := by exact_mod_cast hg
  rw [a3, b3, habs, hk, Option.map_map]
  congr 1
  funext x
  simp only [Function.comp_def]
  push_cast
  rw [abs_mul, abs_of_pos hg', mul_div_mul_left _ _ hg'.ne']

/-- C175: however the charges are fed, in whatever portions and order, the charge resolution of measured data in other units has the same rows in
the same order: the charges and the absolute resolutions times the gain, the same relative resolutions, per pixel and for the camera. Missing
measurements stay missing. -/
theorem C175_resolution (mem mem' : List ResRow → Nat) (ops ops' : List ResOp) (s t s' t' : ResState) (P C P' C' : List ResolutionRow)
    (hrun : runResolution mem false ResState.init ops = .ok s) (hfin : finishResolution false s = .ok (s', P, C))
    (hrun' : runResolution mem' false ResState.init ops' = .ok t) (hfin' : finishResolution false t = .ok (t', P', C')) (g : ℚ) (hg : 0 < g)
    (hunits : (entries ops').Perm ((entries ops).map (chargeTimes g))) :
    List.Forall₂ (fun a b => b.row.pixel = a.row.pixel ∧ ResolutionTimes g a b) P P' ∧ List.Forall₂ (ResolutionTimes g) C C' := by
  obtain ⟨p1, p2, p3⟩ := C40_pixel_table mem false ops s s' P C hrun hfin
  obtain ⟨q1, q2, q3⟩ := C40_pixel_table mem' false ops' t t' P' C' hrun' hfin'
  obtain ⟨c1, c2, c3⟩ := C40_camera_table mem false ops s s' P C hrun hfin
  obtain ⟨d1, d2, d3⟩ := C40_camera_table mem' false ops' t t' P' C' hrun' hfin'
  constructor
  · refine rows_match P P' _ _ _ (pixel_keys_match (fun r => r.row.pixel) (fun r => r.row.key) g hg P P' p1 q1 fun q u => ?_) ?_
    · rw [q2, p2, entry_times g hg _ _ hunits]
      exact and_congr_left fun _ => by simp [hg.ne']
    · intro a ha b hb hab
      simp only [EmbeddingLike.apply_eq_iff_eq, Prod.mk.injEq] at hab
      obtain ⟨h1, h2⟩ := hab
      have hgrp := groupOf_times g hg _ _ hunits a.row.pixel a.row.key
      rw [← h2] at hgrp
      have hb' := q3 b hb
      rw [h1] at hb'
      exact ⟨h1, resolutionTimes_of g hg a b _ _ hgrp h2 (p3 a ha) hb'⟩
  · refine rows_match C C' _ _ _ (camera_keys_match (fun r => r.row.key) g hg C C' c1 d1 fun u => ?_) ?_
    · rw [d2, c2, camera_entry_times g hg _ _ hunits]
      exact and_congr_left fun _ => by simp [hg.ne']
    · intro a ha b hb h2
      have hgrp := cameraGroupOf_times g hg _ _ hunits a.row.key
      rw [← h2] at hgrp
      exact resolutionTimes_of g hg a b _ _ hgrp h2 (c3 a ha) (d3 b hb)

/-- two runs, the second in units of a quarter and split and ordered otherwise -/
example : ∃ s s' P C t t' P' C',
    runResolution (fun _ => 0) false ResState.init [.add [⟨0, 4, some 5⟩, ⟨1, 4, some 3⟩, ⟨0, 8, none⟩]] = .ok s ∧
    finishResolution false s = .ok (s', P, C) ∧
    runResolution (fun _ => 2000000000) false ResState.init [.add [⟨0, 2, none⟩], .finish, .add [⟨0, 1, some (5 / 4)⟩, ⟨1, 1, some (3 / 4)⟩]] = .ok t ∧
    finishResolution false t = .ok (t', P', C') ∧
    (entries [.add [⟨0, 2, none⟩], .finish, .add [⟨0, 1, some (5 / 4)⟩, ⟨1, 1, some (3 / 4)⟩]]).Perm
      ((entries [.add [⟨0, 4, some 5⟩, ⟨1, 4, some 3⟩, ⟨0, 8, none⟩]]).map (chargeTimes (1 / 4))) := by
  obtain ⟨s, ⟨s', P, C⟩, h1, h2⟩ := C40_total (fun _ => 0) false [⟨0, 4, some 5⟩, ⟨1, 4, some 3⟩, ⟨0, 8, none⟩] []
  obtain ⟨t, ⟨t', P', C'⟩, h3, h4⟩ := C40_total (fun _ => 2000000000) false [⟨0, 2, none⟩] [.finish, .add [⟨0, 1, some (5 / 4)⟩, ⟨1, 1, some (3 / 4)⟩]]
  refine ⟨s, s', P, C, t, t', P', C', h1, h2, h3, h4, ?_⟩
  have e : (entries [.add [⟨0, 4, some 5⟩, ⟨1, 4, some 3⟩, ⟨0, 8, none⟩]]).map (chargeTimes (1 / 4)) =
      [⟨0, 1, some (5 / 4)⟩, ⟨1, 1, some (3 / 4)⟩, ⟨0, 2, none⟩] := by
    simp only [entries, chargeTimes, List.map_cons, List.map_nil, List.append_nil, Option.map_some, Option.map_none]
    norm_num
  rw [e]
  exact List.perm_append_comm (α := ChargeEntry) (l₁ := [⟨0, 2, none⟩]) (l₂ := [⟨0, 1, some (5 / 4)⟩, ⟨1, 1, some (3 / 4)⟩])

theorem rel_square (G : List ChargeEntry) (k : ℚ) (hk : 0 < k) (o : Option ℝ) (h : o = (npSqrt (meanSquare G + k)).map fun x => x / |(k : ℝ)|) :
    ∃ x, o = some x ∧ 0 ≤ x ∧ x ^ 2 = ((meanSquare G / k ^ 2 + 1 / k : ℚ) : ℝ) := by
  have hm : 0 ≤ meanSquare G := by
    unfold meanSquare
    refine div_nonneg (List.sum_nonneg ?_) (by positivity)
    intro x hx
    obtain ⟨e, _, rfl⟩ := List.mem_map.1 hx
    positivity
  have hk' : (0 : ℝ) < k := by exact_mod_cast hk
  have hs : (0 : ℝ) ≤ ((meanSquare G + k : ℚ) : ℝ) := by exact_mod_cast (by linarith)
  refine ⟨Real.sqrt ((meanSquare G + k : ℚ) : ℝ) / |(k : ℝ)|, ?_, by positivity, ?_⟩
  · rw [h, npSqrt, if_neg (by linarith)]
    rfl
  · rw [div_pow, Real.sq_sqrt hs, sq_abs]
    push_cast
    field_simp

/-- C175: for simulations the variance of the number of photoelectrons is added, which is the true charge only in photoelectrons: in other units the
square of the resolution of each pixel and true charge changes by `(1 / g - 1) / charge`. -/
theorem C175_simulated (mem mem' : List ResRow → Nat) (ops ops' : List ResOp) (s t s' t' : ResState) (P C P' C' : List ResolutionRow)
    (hrun : runResolution mem true ResState.init ops = .ok s) (hfin : finishResolution true s = .ok (s', P, C))
    (hrun' : runResolution mem' true ResState.init ops' = .ok t) (hfin' : finishResolution true t = .ok (t', P', C')) (g : ℚ) (hg : 0 < g)
    (hunits : (entries ops').Perm ((entries ops).map (chargeTimes g))) :
    ∀ a ∈ P, 0 < a.row.key → ∃ b ∈ P', b.row.pixel = a.row.pixel ∧ b.row.key = g * a.row.key ∧
      ∃ x y, a.rel = some x ∧ b.rel = some y ∧ 0 ≤ x ∧ 0 ≤ y ∧ y ^ 2 = x ^ 2 + (1 / g - 1) / a.row.key := by
  obtain ⟨-, p2, p3⟩ := C40_pixel_table mem true ops s s' P C hrun hfin
  obtain ⟨-, q2, q3⟩ := C40_pixel_table mem' true ops' t t' P' C' hrun' hfin'
  intro a ha hpos
  obtain ⟨h0, he⟩ := (p2 _ _).1 ⟨a, ha, rfl, rfl⟩
  obtain ⟨b, hb, h1, h2⟩ := (q2 a.row.pixel (g * a.row.key)).2 ⟨mul_ne_zero hg.ne' h0, (entry_times g hg _ _ hunits _ _).2 he⟩
  refine ⟨b, hb, h1, h2, ?_⟩
  obtain ⟨-, a2, a3⟩ := p3 a ha
  obtain ⟨-, b2, b3⟩ := q3 b hb
  rw [if_pos rfl] at a2 b2
  rw [a2] at a3
  rw [b2, h1, h2] at b3
  obtain ⟨x, hx, hx0, hx2⟩ := rel_square _ _ hpos _ a3
  obtain ⟨y, hy, hy0, hy2⟩ := rel_square _ _ (mul_pos hg hpos) _ b3
  refine ⟨x, y, hx, hy, hx0, hy0, ?_⟩
  have hgrp := groupOf_times g hg _ _ hunits a.row.pixel a.row.key
  have hg' : (g : ℝ) ≠ 0 := by exact_mod_cast hg.ne'
  have hk' : (a.row.key : ℝ) ≠ 0 := by exact_mod_cast hpos.ne'
  rw [hy2, hx2, meanSquare_times g _ _ hgrp]
  push_cast
  field_simp
  ring

/-- rows of two tables of statistics, the second with another gain and zero -/
def StatisticsTimes (g c : ℚ) (a b : StatisticsRow) : Prop :=
  b.row.key = a.row.key ∧ b.row.n = a.row.n ∧ b.mean = g * a.mean + c ∧ b.std = a.std.map (|(g : ℝ)| * ·)

theorem measured_getD (g c : ℚ) (e : ChargeEntry) (h : c = 0 ∨ e.measured ≠ none) :
    (measuredTimes g c e).measured.getD 0 = g * e.measured.getD 0 + c := by
  unfold measuredTimes
  cases hm : e.measured with
  | none => rcases h with h | h
            · simp [h]
            · exact absurd hm h
  | some m => simp

theorem measuredMean_times (g c : ℚ) (G G' : List ChargeEntry) (hG : G'.Perm (G.map (measuredTimes g c))) (hne : G ≠ [])
    (hc : ∀ e ∈ G, c = 0 ∨ e.measured ≠ none) : measuredMean G' = g * measuredMean G + c := by
  unfold measuredMean
  rw [(hG.map _).sum_eq, hG.length_eq, List.length_map, List.map_map]
  have hn : (G.length : ℚ) ≠ 0 := by simpa using hne
  have hsum : (G.map ((fun e => e.measured.getD 0) ∘ measuredTimes g c)).sum = g * (G.map fun e => e.measured.getD 0).sum + c * G.length := by
    clear hG hne hn
    induction G with
    | nil => simp
    | cons e G ih =>
      rw [List.map_cons, List.map_cons, List.sum_cons, List.sum_cons, ih fun e he => hc e (List.mem_cons_of_mem _ he), Function.comp_apply,
        measured_getD g c e (hc e List.mem_cons_self), List.length_cons]
      push_cast
      ring
  rw [hsum]
  field_simp

theorem measuredVariance_times (g c : ℚ) (G G' : List ChargeEntry) (hG : G'.Perm (G.map (measuredTimes g c))) (hne : G ≠ [])
    (hc : ∀ e ∈ G, c = 0 ∨ e.measured ≠ none) : measuredVariance G' = g ^ 2 * measuredVariance G := by
  have hm := measuredMean_times g c G G' hG hne hc
  unfold measuredVariance
  rw [(hG.map _).sum_eq, hG.length_eq, List.length_map, List.map_map, ← mul_div_assoc, hm]
  congr 1
  generalize measuredMean G = m
  clear hG hm hne
  induction G with
  | nil => simp
  | cons e G ih =>
    rw [List.map_cons, List.map_cons, List.sum_cons, List.sum_cons, ih fun e he => hc e (List.mem_cons_of_mem _ he), mul_add, Function.comp_apply,
      measured_getD g c e (hc e List.mem_cons_self)]
    congr 1
    ring

theorem statisticsTimes_of (g c : ℚ) (a b : StatisticsRow) (G G' : List ChargeEntry) (hG : G'.Perm (G.map (measuredTimes g c))) (hne : G ≠ [])
    (hc : ∀ e ∈ G, c = 0 ∨ e.measured ≠ none) (hk : b.row.key = a.row.key)
    (ha : a.row.n = G.length ∧ a.mean = measuredMean G ∧ a.std = some (Real.sqrt (measuredVariance G)))
    (hb : b.row.n = G'.length ∧ b.mean = measuredMean G' ∧ b.std = some (Real.sqrt (measuredVariance G'))) : StatisticsTimes g c a b := by
  obtain ⟨a1, a2, a3⟩ := ha
  obtain ⟨b1, b2, b3⟩ := hb
  refine ⟨hk, by rw [a1, b1, hG.length_eq, List.length_map], by rw [a2, b2, measuredMean_times g c G G' hG hne hc], ?_⟩
  rw [a3, b3, measuredVariance_times g c G G' hG hne hc, Option.map_some]
  push_cast
  rw [Real.sqrt_mul (by positivity), Real.sqrt_sq_eq_abs]

theorem filter_measured (g c : ℚ) (E E' : List ChargeEntry) (h : E'.Perm (E.map (measuredTimes g c))) (f : ChargeEntry → Bool)
    (hf : ∀ e, f (measuredTimes g c e) = f e) : (E'.filter f).Perm ((E.filter f).map (measuredTimes g c)) := by
  refine (h.filter _).trans ?_
  rw [List.filter_map]
  exact List.Perm.of_eq (congrArg _ (List.filter_congr fun e _ => hf e))

/-- C175: the statistics of charges measured with another gain and zero have the same rows in the same order: the means with that gain and zero, the
standard deviations times the size of the gain. With another zero every charge must be a number: a missing one counts as 0 before and after. -/
theorem C175_statistics (mem mem' : List ResRow → Nat) (ops ops' : List ResOp) (s t s' t' : ResState) (P C P' C' : List StatisticsRow)
    (hrun : runStatistics mem ResState.init ops = .ok s) (hfin : finishStatistics s = .ok (s', P, C))
    (hrun' : runStatistics mem' ResState.init ops' = .ok t) (hfin' : finishStatistics t = .ok (t', P', C')) (g c : ℚ)
    (hunits : (entries ops').Perm ((entries ops).map (measuredTimes g c))) (hc : c = 0 ∨ ∀ e ∈ entries ops, e.measured ≠ none) :
    List.Forall₂ (fun a b => b.row.pixel = a.row.pixel ∧ StatisticsTimes g c a b) P P' ∧ List.Forall₂ (StatisticsTimes g c) C C' := by
  obtain ⟨p1, p2, p3⟩ := C41_pixel_table mem ops s s' P C hrun hfin
  obtain ⟨q1, q2, q3⟩ := C41_pixel_table mem' ops' t t' P' C' hrun' hfin'
  obtain ⟨c1, c2, c3⟩ := C41_camera_table mem ops s s' P C hrun hfin
  obtain ⟨d1, d2, d3⟩ := C41_camera_table mem' ops' t t' P' C' hrun' hfin'
  have hc' : ∀ e ∈ entries ops, c = 0 ∨ e.measured ≠ none := fun e he => hc.imp id fun h => h e he
  constructor
  · refine rows_match P P' _ _ _ (pixel_keys_match (fun r => r.row.pixel) (fun r => r.row.key) 1 one_pos P P' p1 q1 fun q u => ?_) ?_
    · rw [q2, p2, one_mul]
      constructor
      · rintro ⟨e, he, h1, h2⟩
        obtain ⟨e0, he0, rfl⟩ := List.mem_map.1 (hunits.mem_iff.1 he)
        exact ⟨e0, he0, h1, h2⟩
      · rintro ⟨e, he, h1, h2⟩
        exact ⟨measuredTimes g c e, hunits.mem_iff.2 (List.mem_map_of_mem he), h1, h2⟩
    · intro a ha b hb hab
      simp only [EmbeddingLike.apply_eq_iff_eq, Prod.mk.injEq, one_mul] at hab
      obtain ⟨h1, h2⟩ := hab
      have hb' := q3 b hb
      rw [h1, h2] at hb'
      obtain ⟨e, he, e1, e2⟩ := (p2 _ _).1 ⟨a, ha, rfl, rfl⟩
      exact ⟨h1, statisticsTimes_of g c a b _ _ (filter_measured g c _ _ hunits _ fun _ => rfl)
        (List.ne_nil_of_mem (List.mem_filter.2 ⟨he, by simp [e1, e2]⟩)) (fun e he => hc' e (List.mem_filter.1 he).1) h2 (p3 a ha) hb'⟩
  · refine rows_match C C' _ _ _ (camera_keys_match (fun r => r.row.key) 1 one_pos C C' c1 d1 fun u => ?_) ?_
    · rw [d2, c2, one_mul]
      constructor
      · rintro ⟨e, he, h2⟩
        obtain ⟨e0, he0, rfl⟩ := List.mem_map.1 (hunits.mem_iff.1 he)
        exact ⟨e0, he0, h2⟩
      · rintro ⟨e, he, h2⟩
        exact ⟨measuredTimes g c e, hunits.mem_iff.2 (List.mem_map_of_mem he), h2⟩
    · intro a ha b hb h2
      simp only [one_mul] at h2
      have hb' := d3 b hb
      rw [h2] at hb'
      obtain ⟨e, he, e2⟩ := (c2 _).1 ⟨a, ha, rfl⟩
      exact statisticsTimes_of g c a b _ _ (filter_measured g c _ _ hunits _ fun _ => rfl)
        (List.ne_nil_of_mem (List.mem_filter.2 ⟨he, by simp [e2]⟩)) (fun e he => hc' e (List.mem_filter.1 he).1) h2 (c3 a ha) hb'

/-- a missing charge does not move with the zero: the mean of the charge 4 and a missing one goes from 2 to 7/2 when 3 is added, not to 5 -/
example : measuredMean [⟨0, 1, some 4⟩, ⟨0, 1, none⟩] = 2 ∧
    measuredMean ([⟨0, 1, some 4⟩, ⟨0, 1, none⟩].map (measuredTimes 1 3)) = 7 / 2 := by decide +kernel

example : ∃ s s' P C t t' P' C',
    runStatistics (fun _ => 0) ResState.init [.add [⟨0, 4, some 5⟩, ⟨1, 4, some 3⟩]] = .ok s ∧ finishStatistics s = .ok (s', P, C) ∧
    runStatistics (fun _ => 2000000000) ResState.init [.add [⟨1, 4, some (-5)⟩], .finish, .add [⟨0, 4, some (-9)⟩]] = .ok t ∧
    finishStatistics t = .ok (t', P', C') ∧
    (entries [.add [⟨1, 4, some (-5)⟩], .finish, .add [⟨0, 4, some (-9)⟩]]).Perm
      ((entries [.add [⟨0, 4, some 5⟩, ⟨1, 4, some 3⟩]]).map (measuredTimes (-2) 1)) := by
  obtain ⟨s, ⟨s', P, C⟩, h1, h2⟩ := (C41_total (fun _ => 0) [⟨0, 4, some 5⟩, ⟨1, 4, some 3⟩] []).1
  obtain ⟨t, ⟨t', P', C'⟩, h3, h4⟩ := (C41_total (fun _ => 2000000000) [⟨1, 4, some (-5)⟩] [.finish, .add [⟨0, 4, some (-9)⟩]]).1
  refine ⟨s, s', P, C, t, t', P', C', h1, h2, h3, h4, ?_⟩
  have e : (entries [.add [⟨0, 4, some 5⟩, ⟨1, 4, some 3⟩]]).map (measuredTimes (-2) 1) = [⟨0, 4, some (-9)⟩, ⟨1, 4, some (-5)⟩] := by
    simp only [entries, measuredTimes, List.map_cons, List.map_nil, List.append_nil, Option.map_some]
    norm_num
  rw [e]
  exact List.perm_append_comm (α := ChargeEntry) (l₁ := [⟨1, 4, some (-5)⟩]) (l₂ := [⟨0, 4, some (-9)⟩])

end Verif.Props
