import Verif.Lemmas.CrossCorr
import Mathlib.Tactic.NormNum
import Mathlib.Algebra.BigOperators.Ring.List
import Mathlib.Algebra.Order.Field.Basic

/-! # C53, C54, C55, C56, C74: cross correlation and sliding window -/

namespace Verif.Props

open Verif.Py Verif.Model Verif.Spec Verif.Lemmas

/-! ## C53 -/

/-- C53: whatever is read behind the row, the time is inside the waveform. -/
theorem C53_range (beyond : Option ℚ) (row : List ℚ) (p : Nat) (hp : p < row.length) :
    0 ≤ extractPulseTime beyond row p ∧ extractPulseTime beyond row p < row.length := by
  have h0 : (0 : ℚ) ≤ p := by positivity
  have h1 : (p : ℚ) < row.length := by exact_mod_cast hp
  unfold extractPulseTime
  simp only
  generalize (if p = 0 then row.getD (row.length - 1) 0 else row.getD (p - 1) 0) = y0
  generalize (if p + 1 < row.length then some (row.getD (p + 1) 0) else beyond) = o
  cases o with
  | none => exact ⟨h0, h1⟩
  | some y2 =>
    simp only
    split_ifs with hb hr
    · exact ⟨h0, h1⟩
    · exact hr
    · exact ⟨h0, h1⟩

theorem extract_interior (beyond : Option ℚ) (row : List ℚ) (p : Nat) (h0 : 0 < p) (h1 : p + 1 < row.length) :
    extractPulseTime beyond row p =
      if row.getD (p - 1) 0 - 2 * row.getD p 0 + row.getD (p + 1) 0 = 0 then (p : ℚ)
      else if 0 ≤ (1 / 2) * (row.getD (p - 1) 0 - row.getD (p + 1) 0) / (row.getD (p - 1) 0 - 2 * row.getD p 0 + row.getD (p + 1) 0) + p ∧
        (1 / 2) * (row.getD (p - 1) 0 - row.getD (p + 1) 0) / (row.getD (p - 1) 0 - 2 * row.getD p 0 + row.getD (p + 1) 0) + p < row.length
      then (1 / 2) * (row.getD (p - 1) 0 - row.getD (p + 1) 0) / (row.getD (p - 1) 0 - 2 * row.getD p 0 + row.getD (p + 1) 0) + p
      else p := by
  unfold extractPulseTime
  simp only [if_pos h1, if_neg (show ¬ p = 0 by omega)]

/-- C53: at an interior sample that is not below its neighbours, the time is at most half a sample away. -/
theorem C53_near (beyond : Option ℚ) (row : List ℚ) (p : Nat) (h0 : 0 < p) (h1 : p + 1 < row.length)
    (hl : row.getD (p - 1) 0 ≤ row.getD p 0) (hr : row.getD (p + 1) 0 ≤ row.getD p 0) :
    |extractPulseTime beyond row p - p| ≤ 1 / 2 := by
  rw [extract_interior beyond row p h0 h1]
  generalize row.getD (p - 1) 0 = y0 at *
  generalize row.getD p 0 = y1 at *
  generalize row.getD (p + 1) 0 = y2 at *
  split_ifs with hb hr'
  · simp
  · have hneg : y0 - 2 * y1 + y2 < 0 := lt_of_le_of_ne (by linarith) hb
    rw [add_sub_cancel_right, abs_div, abs_of_neg hneg, div_le_iff₀ (by linarith), abs_le]
    constructor <;> linarith
  · simp

/-- C53: three samples of a parabola give its vertex, if the vertex is inside the waveform. -/
theorem C53_vertex (beyond : Option ℚ) (row : List ℚ) (p : Nat) (h0 : 0 < p) (h1 : p + 1 < row.length) (k c v : ℚ) (hk : k ≠ 0)
    (e0 : row.getD (p - 1) 0 = k * ((p : ℚ) - 1 - v) ^ 2 + c) (e1 : row.getD p 0 = k * ((p : ℚ) - v) ^ 2 + c)
    (e2 : row.getD (p + 1) 0 = k * ((p : ℚ) + 1 - v) ^ 2 + c) (hv : 0 ≤ v ∧ v < row.length) :
    extractPulseTime beyond row p = v := by
  have hb : k * ((p : ℚ) - 1 - v) ^ 2 + c - 2 * (k * ((p : ℚ) - v) ^ 2 + c) + (k * ((p : ℚ) + 1 - v) ^ 2 + c) = 2 * k := by ring
  have ha : k * ((p : ℚ) - 1 - v) ^ 2 + c - (k * ((p : ℚ) + 1 - v) ^ 2 + c) = 4 * k * (v - p) := by ring
  have hb0 : 2 * k ≠ 0 := mul_ne_zero two_ne_zero hk
  have ht : 1 / 2 * (4 * k * (v - p)) / (2 * k) + (p : ℚ) = v := by field_simp; ring
  rw [extract_interior beyond row p h0 h1, e0, e1, e2, hb, ha, if_neg hb0, ht, if_pos hv]

/-- Outside the second and third part of C53: for a peak in the last sample the value behind the row enters; depending on it the time can be any
inside the waveform (apart from one). -/
theorem C53_edge (row : List ℚ) (hn : 2 ≤ row.length) (hne : row.getD (row.length - 2) 0 ≠ row.getD (row.length - 1) 0)
    (t : ℚ) (ht : 0 ≤ t ∧ t < row.length) (hex : t ≠ row.length - 3 / 2) :
    ∃ z, extractPulseTime (some z) row (row.length - 1) = t := by
  have hp : ((row.length - 1 : Nat) : ℚ) = row.length - 1 := by rw [Nat.cast_sub (by omega)]; norm_num
  obtain ⟨s, hs⟩ : ∃ s, s = t - (row.length - 1) := ⟨_, rfl⟩
  have hs0 : 1 + 2 * s ≠ 0 := by intro h; apply hex; rw [hs] at h; linarith
  refine ⟨(row.getD (row.length - 2) 0 * (1 - 2 * s) + 4 * s * row.getD (row.length - 1) 0) / (1 + 2 * s), ?_⟩
  unfold extractPulseTime
  simp only [if_neg (show ¬ row.length - 1 + 1 < row.length by omega), if_neg (show ¬ row.length - 1 = 0 by omega),
    show row.length - 1 - 1 = row.length - 2 by omega]
  generalize row.getD (row.length - 2) 0 = y0 at *
  generalize row.getD (row.length - 1) 0 = y1 at *
  have hb : y0 - 2 * y1 + (y0 * (1 - 2 * s) + 4 * s * y1) / (1 + 2 * s) = 2 * (y0 - y1) / (1 + 2 * s) := by field_simp; ring
  have hb0 : 2 * (y0 - y1) / (1 + 2 * s) ≠ 0 := div_ne_zero (mul_ne_zero two_ne_zero (sub_ne_zero.2 hne)) hs0
  have hd : y0 - y1 ≠ 0 := sub_ne_zero.2 hne
  have htt : 1 / 2 * (y0 - (y0 * (1 - 2 * s) + 4 * s * y1) / (1 + 2 * s)) / (2 * (y0 - y1) / (1 + 2 * s)) = s := by field_simp; ring
  rw [hb, if_neg hb0, htt, hp, show s + (row.length - 1 : ℚ) = t by rw [hs]; ring, if_pos ht]

example : extractPulseTime none [0, 1, 4, 3, 0] 2 = 9 / 4 ∧ extractPulseTime (some 3) [0, 0, 0, 1] 3 = 3 / 2 ∧
    extractPulseTime (some 2) [0, 0, 0, 1] 3 = 3 := by decide +kernel

/-! ## C74 -/

theorem pulseTimes_get (after : Option ℚ) (cc : List (List ℚ)) (ps : List Nat) (i : Nat) (r : List ℚ) (p : Nat)
    (hr : cc[i]? = some r) (hp : ps[i]? = some p) :
    ∃ b, (pulseTimes after cc ps)[i]? = some (extractPulseTime b r p) ∧ ∀ next, cc[i + 1]? = some next → b = next.head? := by
  induction cc generalizing i ps with
  | nil => simp at hr
  | cons c cs ih =>
    cases ps with
    | nil => simp at hp
    | cons q qs =>
      cases i with
      | zero =>
        simp only [List.getElem?_cons_zero, Option.some.injEq] at hr hp
        subst hr hp
        cases cs with
        | nil => exact ⟨after, rfl, by simp⟩
        | cons d ds => exact ⟨d.head?, rfl, by simp⟩
      | succ i =>
        simp only [List.getElem?_cons_succ] at hr hp
        obtain ⟨b, h1, h2⟩ := ih qs i hr hp
        exact ⟨b, h1, fun next hn => h2 next (by simpa using hn)⟩

/-- C74 is false: two events that agree in pixel 0, whose correlated waveform peaks in the last sample, have different times in pixel 0 because
they differ in the first sample of pixel 1. -/
theorem C74_false : ∃ (r : CcReducer) (row other other' : List ℚ) (s s' : CcState),
    newCrossCorr "pulse.txt" [0, 1, 0] = .ok r ∧ ccLocalPrepare r [row, other] = .ok s ∧ ccLocalPrepare r [row, other'] = .ok s' ∧
    (timeCc none s)[0]? = some (3 / 2) ∧ (timeCc none s')[0]? = some 3 :=
  ⟨⟨[0, 1, 0], [0, 1, 0], 0⟩, [0, 0, 0, 1], [3, 0, 0, 0], [0, 0, 0, 0], ⟨[[0, 0, 0, 1], [3, 0, 0, 0]], [3, 0], [1, 3]⟩,
    ⟨[[0, 0, 0, 1], [0, 0, 0, 0]], [3, 0], [1, 0]⟩, by decide +kernel, by decide +kernel, by decide +kernel, by decide +kernel, by decide +kernel⟩

theorem correlateRows_get (w : List ℚ) (o : Int) (ws cc : List (List ℚ)) (h : correlateRows w o ws = .ok cc) :
    cc.length = ws.length ∧ ∀ (i : Nat) r, ws[i]? = some r → cc[i]? = some ((List.range r.length).map (correlateAt r w o)) := by
  induction ws generalizing cc with
  | nil => cases h; exact ⟨rfl, by simp⟩
  | cons r rs ih =>
    unfold correlateRows at h
    cases h1 : correlate1d r w o with
    | error e => rw [h1] at h; cases h
    | ok c =>
      rw [h1] at h
      simp only at h
      cases h2 : correlateRows w o rs with
      | error e => rw [h2] at h; cases h
      | ok cs =>
        rw [h2] at h
        cases h
        obtain ⟨hl, hg⟩ := ih cs h2
        refine ⟨by simp [hl], ?_⟩
        intro i r' hi
        cases i with
        | zero =>
          simp only [List.getElem?_cons_zero, Option.some.injEq] at hi ⊢
          subst hi
          unfold correlate1d at h1
          split_ifs at h1
          cases h1
          rfl
        | succ i =>
          simp only [List.getElem?_cons_succ] at hi ⊢
          exact hg i r' hi

theorem argmaxRows_get (cc : List (List ℚ)) (ps : List Nat) (h : argmaxRows cc = .ok ps) :
    ps.length = cc.length ∧ ∀ (i : Nat) r, cc[i]? = some r → ∃ p, ps[i]? = some p ∧ argmax r = .ok p := by
  induction cc generalizing ps with
  | nil => cases h; exact ⟨rfl, by simp⟩
  | cons r rs ih =>
    unfold argmaxRows at h
    cases h1 : argmax r with
    | error e => rw [h1] at h; cases h
    | ok p =>
      rw [h1] at h
      simp only at h
      cases h2 : argmaxRows rs with
      | error e => rw [h2] at h; cases h
      | ok qs =>
        rw [h2] at h
        cases h
        obtain ⟨hl, hg⟩ := ih qs h2
        refine ⟨by simp [hl], ?_⟩
        intro i r' hi
        cases i with
        | zero =>
          simp only [List.getElem?_cons_zero, Option.some.injEq] at hi
          subst hi
          exact ⟨p, rfl, h1⟩
        | succ i =>
          simp only [List.getElem?_cons_succ] at hi ⊢
          exact hg i r' hi

theorem argmaxRows_ok (cc : List (List ℚ)) (h : ∀ r ∈ cc, r ≠ []) : ∃ ps, argmaxRows cc = .ok ps := by
  induction cc with
  | nil => exact ⟨[], rfl⟩
  | cons r rs ih =>
    obtain ⟨p, hp, -⟩ := argmax_ok r (h r (by simp))
    obtain ⟨ps, hps⟩ := ih fun x hx => h x (by simp [hx])
    exact ⟨p :: ps, by unfold argmaxRows; rw [hp, hps]⟩

/-- C74, what holds (missing: pixels whose correlated waveform has its maximum in the last sample): in two events that agree in pixel `i`, the
local time and charge of pixel `i` agree, whatever the other pixels are and whatever is in memory behind the arrays. -/
theorem C74_partial (r : CcReducer) (ws ws' : List (List ℚ)) (s s' : CcState) (after after' : Option ℚ)
    (h : ccLocalPrepare r ws = .ok s) (h' : ccLocalPrepare r ws' = .ok s') (i : Nat) (row : List ℚ)
    (hi : ws[i]? = some row) (hi' : ws'[i]? = some row) (p : Nat) (hp : s.peaks[i]? = some p) (hlast : p + 1 < row.length) :
    (timeCc after s)[i]? = (timeCc after' s')[i]? ∧ (chargeCc s)[i]? = (chargeCc s')[i]? ∧ ∃ t, (timeCc after s)[i]? = some t := by
  have key : ∀ (ws : List (List ℚ)) s, ccLocalPrepare r ws = .ok s → ws[i]? = some row →
      s.cc[i]? = some ((List.range row.length).map (correlateAt row r.reference r.origin)) ∧
      (∃ p, s.peaks[i]? = some p ∧ argmax ((List.range row.length).map (correlateAt row r.reference r.origin)) = .ok p) ∧
      s.charge = takePeaks s.cc s.peaks := by
    intro ws s h hi
    unfold ccLocalPrepare at h
    cases h1 : correlateRows r.reference r.origin ws with
    | error e => rw [h1] at h; cases h
    | ok cc =>
      rw [h1] at h
      simp only at h
      cases h2 : argmaxRows cc with
      | error e => rw [h2] at h; cases h
      | ok ps =>
        rw [h2] at h
        cases h
        have hc := (correlateRows_get _ _ _ _ h1).2 i row hi
        exact ⟨hc, (argmaxRows_get cc ps h2).2 i _ hc, rfl⟩
  obtain ⟨c1, ⟨p1, q1, a1⟩, t1⟩ := key ws s h hi
  obtain ⟨c2, ⟨p2, q2, a2⟩, t2⟩ := key ws' s' h' hi'
  rw [a1, Except.ok.injEq] at a2
  subst a2
  rw [q1, Option.some.injEq] at hp
  subst hp
  obtain ⟨b1, e1, -⟩ := pulseTimes_get after s.cc s.peaks i _ _ c1 q1
  obtain ⟨b2, e2, -⟩ := pulseTimes_get after' s'.cc s'.peaks i _ _ c2 q2
  refine ⟨?_, ?_, _, e1⟩
  · unfold timeCc
    rw [e1, e2]
    unfold extractPulseTime
    simp only [List.length_map, List.length_range, if_pos hlast]
  · unfold chargeCc
    rw [t1, t2]
    unfold takePeaks
    rw [List.getElem?_zipWith, List.getElem?_zipWith, c1, c2, q1, q2]

example : (∃ s, ccLocalPrepare ⟨[0, 1, 0], [0, 1, 0], 0⟩ [[0, 1, 5, 2], [3, 0, 0, 0]] = .ok s ∧ s.peaks[0]? = some 2) ∧
    (∃ s, ccLocalPrepare ⟨[0, 1, 0], [0, 1, 0], 0⟩ [[0, 1, 5, 2], [0, 0, 7, 0], [0, 0, 0, 1]] = .ok s) :=
  ⟨⟨_, rfl, by decide +kernel⟩, ⟨_, rfl⟩⟩

/-! ## C54 -/

theorem rowMax_div (y : List ℚ) (c : ℚ) (x : ℚ) : rowMax (y.map (· / c)) = .ok x ↔ Largest (y.map (· / c)) x := rowMax_spec _ _

/-- C54: pulses of the reference shape and of charges `qs` with positive sum at a common position: the extracted charges are `qs`, the heights
are these times the peak of the unit-area pulse, and the extraction sample is that of the maximum of the pulse. -/
theorem C54_charge (path : String) (hpath : path ≠ "") (y : List ℚ) (hA : 0 < area y) :
    ∃ r, newCrossCorr path y = .ok r ∧ ∀ (n s : Nat) (qs : List ℚ), s + y.length ≤ n → 0 < qs.sum →
      ∃ st peak h, ccPrepare r (qs.map (pulseRow n s y)) = .ok st ∧ chargeCc st = qs ∧
        Largest (y.map (· / area y)) h ∧ heightCc r st = .ok (qs.map (· * h)) ∧
        FirstMax y.length (fun i => y.getD i 0) peak ∧ ∀ p ∈ st.peaks, p = s + peak := by
  have hex := exists_of_area y hA.ne'
  have hR := auto_pos y hex
  obtain ⟨am, ham, hr⟩ := newCrossCorr_ok path hpath y hA
  refine ⟨_, hr, ?_⟩
  intro n s qs hn hq
  have hlen : 0 < y.length := Nat.lt_of_le_of_lt (Nat.zero_le _) ham.1
  have hqne : qs ≠ [] := by rintro rfl; simp at hq
  obtain ⟨cc, hccdef⟩ : ∃ cc, cc = qs.map fun q => (List.range n).map fun (i : Nat) => q * (auto y ((i : Int) - am - s) / auto y 0) := ⟨_, rfl⟩
  have hcorr : correlateRows (y.map (· / (auto y 0 / area y))) ((am : Int) - (y.length / 2 : Nat)) (qs.map (pulseRow n s y)) = .ok cc := by
    rw [correlateRows_ok _ _ (by rw [List.length_map]; omega) (by rw [List.length_map]; have := ham.1; omega), List.map_map, hccdef]
    congr 1
    refine List.map_congr_left fun q _ => ?_
    simp only [Function.comp]
    rw [show (pulseRow n s y q).length = n by simp [pulseRow]]
    refine List.map_congr_left fun i _ => ?_
    rw [correlateAt_pulse n s y q _ am i hn]
    have := hA.ne'
    have := hR.ne'
    field_simp
  have hev : Event n cc := by
    refine ⟨by rw [hccdef]; simpa using hqne, ?_⟩
    intro r hr
    rw [hccdef] at hr
    obtain ⟨q, -, rfl⟩ := List.mem_map.1 hr
    simp
  have hsum : ∀ j < n, cameraSum cc j = qs.sum * (auto y ((j : Int) - am - s) / auto y 0) := by
    intro j hj
    unfold cameraSum
    rw [hccdef, List.map_map, ← List.map_id qs, List.map_map, ← List.sum_map_mul_right]
    congr 1
    refine List.map_congr_left fun q _ => ?_
    simp only [Function.comp]
    rw [List.getD_eq_getElem?_getD, List.getElem?_map, List.getElem?_range hj]
    rfl
  have hpk : s + am < n := by have := ham.1; omega
  have hzero : ((s + am : Nat) : Int) - am - s = 0 := by push_cast; ring
  have hfm : FirstMax n (cameraSum cc) (s + am) := by
    refine ⟨hpk, ?_, ?_⟩
    · intro j hj
      rw [hsum j hj, hsum _ hpk, hzero]
      exact mul_le_mul_of_nonneg_left (div_le_div_of_nonneg_right (auto_le y _) hR.le) hq.le
    · intro j hj
      rw [hsum j (by omega), hsum _ hpk, hzero]
      exact mul_lt_mul_of_pos_left (div_lt_div_of_pos_right (auto_lt y hex _ (by omega)) hR) hq
  have harg : argmax (colMeans (nSamples cc) cc) = .ok (s + am) := by
    rw [nSamples_event n cc hev]
    exact (argmax_colMeans n cc hev.1 _).2 hfm
  obtain ⟨h, hh⟩ := rowMax_ok (y.map (· / area y)) (by simp [List.length_pos_iff.1 hlen])
  have hcharge : takePeaks cc (cc.map fun _ => s + am) = qs := by
    unfold takePeaks
    rw [List.zipWith_map_right, List.zipWith_self, hccdef, List.map_map]
    conv_rhs => rw [← List.map_id qs]
    refine List.map_congr_left fun q _ => ?_
    simp only [Function.comp, id]
    rw [List.getD_eq_getElem?_getD, List.getElem?_map, List.getElem?_range hpk]
    simp only [Option.map_some, Option.getD_some]
    rw [hzero, div_self hR.ne', mul_one]
  refine ⟨⟨cc, cc.map fun _ => s + am, qs⟩, am, h, ?_, rfl, (rowMax_div _ _ _).1 hh, ?_, ham, ?_⟩
  · unfold ccPrepare
    simp only [hcorr, harg, hcharge]
  · unfold heightCc
    simp only [hh]
  · intro p hp
    obtain ⟨x, -, rfl⟩ := List.mem_map.1 hp
    rfl

/-- C54: `get_pulse_height` multiplies a charge by the peak of the unit-area pulse. -/
theorem C54_height (path : String) (hpath : path ≠ "") (y : List ℚ) (hA : 0 < area y) :
    ∃ r h, newCrossCorr path y = .ok r ∧ Largest (y.map (· / area y)) h ∧ ∀ q, pulseHeight r q = .ok (q * h) := by
  obtain ⟨am, ham, hr⟩ := newCrossCorr_ok path hpath y hA
  obtain ⟨h, hh⟩ := rowMax_ok (y.map (· / area y)) (by
    have : 0 < y.length := Nat.lt_of_le_of_lt (Nat.zero_le _) ham.1
    simp [List.length_pos_iff.1 this])
  refine ⟨_, h, hr, (rowMax_div _ _ _).1 hh, fun q => ?_⟩
  unfold pulseHeight
  simp only [hh]

example : 0 < area [0, 2, 1, 0] ∧ pulseHeight ⟨[0, 2, 1, 0], [0, 2 / 3, 1 / 3, 0], 0⟩ 6 = .ok 4 := by decide +kernel

/-- C54: for a fixed extraction sample the charge of a pixel is linear in its waveform. -/
theorem C54_linear (w : List ℚ) (o : Int) (i : Nat) (a b : ℚ) (x y z : List ℚ) (hx : x.length = z.length) (hy : y.length = z.length)
    (hz : ∀ j < z.length, z.getD j 0 = a * x.getD j 0 + b * y.getD j 0) (cx cy cz : List ℚ)
    (ex : correlate1d x w o = .ok cx) (ey : correlate1d y w o = .ok cy) (ez : correlate1d z w o = .ok cz) (hi : i < z.length) :
    cz.getD i 0 = a * cx.getD i 0 + b * cy.getD i 0 := by
  have get : ∀ (r c : List ℚ), correlate1d r w o = .ok c → i < r.length → c.getD i 0 = correlateAt r w o i := by
    intro r c h hi
    unfold correlate1d at h
    split_ifs at h
    cases h
    rw [List.getD_eq_getElem?_getD, List.getElem?_map, List.getElem?_range hi]
    rfl
  rw [get x cx ex (by omega), get y cy ey (by omega), get z cz ez hi]
  unfold correlateAt
  simp only [sum_list_range]
  rw [Finset.mul_sum, Finset.mul_sum, ← Finset.sum_add_distrib]
  refine Finset.sum_congr rfl fun k _ => ?_
  have hp : ∀ j, padded z j = a * padded x j + b * padded y j := by
    intro j
    by_cases h0 : j < 0
    · rw [padded_of_neg _ _ h0, padded_of_neg _ _ h0, padded_of_neg _ _ h0]; ring
    · by_cases hl : (z.length : Int) ≤ j
      · rw [padded_of_ge z j hl, padded_of_ge x j (by omega), padded_of_ge y j (by omega)]; ring
      · unfold padded
        rw [if_pos (by omega), if_pos (by omega), if_pos (by omega)]
        exact hz _ (by omega)
  rw [hp]
  ring

/-- the constructor refuses a missing file, and the neighbour variant a missing mapping -/
theorem C54_refused (y : List ℚ) : newCrossCorr "" y = .error .valueError ∧ newCrossCorrNeighbour "" y true = .error .valueError ∧
    ∀ path r, newCrossCorr path y = .ok r → newCrossCorrNeighbour path y false = .error .valueError := by
  refine ⟨rfl, rfl, ?_⟩
  intro path r h
  unfold newCrossCorrNeighbour
  rw [h]
  rfl

example : 0 < area [0, 2, 1, 0] ∧ newCrossCorr "p" [0, 2, 1, 0] = .ok ⟨[0, 6 / 5, 3 / 5, 0], [0, 2 / 3, 1 / 3, 0], -1⟩ ∧
    (ccPrepare ⟨[0, 6 / 5, 3 / 5, 0], [0, 2 / 3, 1 / 3, 0], -1⟩ ([3, 5].map (pulseRow 8 2 [0, 2, 1, 0]))).map (fun st => (st.charge, st.peaks)) =
      .ok ([3, 5], [3, 3]) := by decide +kernel

/-! ## C55 -/

/-- pointwise `≤` of two lists of the same length -/
def PixelLe (a b : List ℚ) : Prop := a.length = b.length ∧ ∀ (i : Nat) x y, a[i]? = some x → b[i]? = some y → x ≤ y

theorem takePeaks_le (n : Nat) (cc : List (List ℚ)) (hcc : ∀ r ∈ cc, r.length = n) (qs ps : List Nat) (hq : qs.length = cc.length)
    (hqn : ∀ q ∈ qs, q < n) (hps : argmaxRows cc = .ok ps) : PixelLe (takePeaks cc qs) (takePeaks cc ps) := by
  obtain ⟨hl, hg⟩ := argmaxRows_get cc ps hps
  refine ⟨by simp [takePeaks, hq, hl], ?_⟩
  intro i x y hx hy
  unfold takePeaks at hx hy
  rw [List.getElem?_zipWith] at hx hy
  cases hc : cc[i]? with
  | none => rw [hc] at hx; cases hx
  | some r =>
    obtain ⟨p, hp, ha⟩ := hg i r hc
    cases hqi : qs[i]? with
    | none => rw [hc, hqi] at hx; cases hx
    | some q =>
      rw [hc, hqi] at hx
      rw [hc, hp] at hy
      cases hx
      cases hy
      have hr := hcc r (List.mem_of_getElem? hc)
      exact ((argmax_firstMax r p).1 ha).2.1 q (by rw [hr]; exact hqn q (List.mem_of_getElem? hqi))

theorem correlateRows_event (n : Nat) (w : List ℚ) (o : Int) (ws cc : List (List ℚ)) (h : correlateRows w o ws = .ok cc) (hw : Event n ws) :
    Event n cc ∧ cc.length = ws.length := by
  obtain ⟨hl, hg⟩ := correlateRows_get w o ws cc h
  refine ⟨⟨?_, ?_⟩, hl⟩
  · intro he
    exact hw.1 (List.length_eq_zero_iff.1 (by rw [← hl, he]; rfl))
  · intro c hc
    obtain ⟨i, hi, he⟩ := List.getElem_of_mem hc
    have h1 := hg i (ws[i]'(by omega)) (List.getElem?_eq_getElem _)
    rw [List.getElem?_eq_getElem hi, Option.some.injEq, he] at h1
    rw [h1, List.length_map, List.length_range]
    exact hw.2 _ (List.getElem_mem _)

/-- C55: wherever the common search succeeds so does the local one, and in every pixel the local charge is at least the common one. -/
theorem C55_cross_correlation (n : Nat) (hn : 0 < n) (r : CcReducer) (ws : List (List ℚ)) (hw : Event n ws) (st : CcState)
    (h : ccPrepare r ws = .ok st) : ∃ st', ccLocalPrepare r ws = .ok st' ∧ (chargeCc st).length = ws.length ∧ PixelLe (chargeCc st) (chargeCc st') := by
  unfold ccPrepare at h
  cases h1 : correlateRows r.reference r.origin ws with
  | error e => rw [h1] at h; cases h
  | ok cc =>
    rw [h1] at h
    simp only at h
    obtain ⟨hev, hl⟩ := correlateRows_event n _ _ ws cc h1 hw
    cases h2 : argmax (colMeans (nSamples cc) cc) with
    | error e => rw [h2] at h; cases h
    | ok p =>
      rw [h2] at h
      cases h
      rw [nSamples_event n cc hev] at h2
      have hp := ((argmax_colMeans n cc hev.1 p).1 h2).1
      obtain ⟨ps, hps⟩ := argmaxRows_ok cc fun r hr => by
        intro he
        have := hev.2 r hr
        rw [he] at this
        simp at this
        omega
      refine ⟨⟨cc, ps, takePeaks cc ps⟩, by unfold ccLocalPrepare; simp only [h1, hps], by simp [chargeCc, takePeaks, hl], ?_⟩
      exact takePeaks_le n cc hev.2 _ ps (by simp) (fun q hq => by obtain ⟨_, -, rfl⟩ := List.mem_map.1 hq; exact hp) hps

/-- C55: the same for the neighbour search, for every averaging that keeps the shape of the array. -/
theorem C55_neighbour (n : Nat) (avg : List (List ℚ) → List (List ℚ))
    (havg : ∀ cc, Event n cc → Event n (avg cc) ∧ (avg cc).length = cc.length) (r : CcReducer) (ws : List (List ℚ)) (hw : Event n ws) (st st' : CcState)
    (h : ccNeighbourPrepare avg r ws = .ok st) (h' : ccLocalPrepare r ws = .ok st') : PixelLe (chargeCc st) (chargeCc st') := by
  unfold ccNeighbourPrepare at h
  unfold ccLocalPrepare at h'
  cases h1 : correlateRows r.reference r.origin ws with
  | error e => rw [h1] at h; cases h
  | ok cc =>
    rw [h1] at h h'
    simp only at h h'
    obtain ⟨hev, hl⟩ := correlateRows_event n _ _ ws cc h1 hw
    obtain ⟨aev, al⟩ := havg cc hev
    cases h2 : argmaxRows (avg cc) with
    | error e => rw [h2] at h; cases h
    | ok qs =>
      rw [h2] at h
      cases h
      cases h3 : argmaxRows cc with
      | error e => rw [h3] at h'; cases h'
      | ok ps =>
        rw [h3] at h'
        cases h'
        obtain ⟨ql, qg⟩ := argmaxRows_get _ _ h2
        refine takePeaks_le n cc hev.2 qs ps (by omega) ?_ h3
        intro q hq
        obtain ⟨i, hi, he⟩ := List.getElem_of_mem hq
        obtain ⟨p, e1, e2⟩ := qg i ((avg cc)[i]'(by omega)) (List.getElem?_eq_getElem _)
        rw [List.getElem?_eq_getElem hi, Option.some.injEq, he] at e1
        subst e1
        have := ((argmax_firstMax _ _).1 e2).1
        rwa [aev.2 _ (List.getElem_mem _)] at this

example : ∃ st st', ccPrepare ⟨[0, 1, 0], [0, 1, 0], 0⟩ [[0, 1, 5, 2], [3, 0, 1, 0]] = .ok st ∧
    ccLocalPrepare ⟨[0, 1, 0], [0, 1, 0], 0⟩ [[0, 1, 5, 2], [3, 0, 1, 0]] = .ok st' ∧ st.charge = [5, 1] ∧ st'.charge = [5, 3] :=
  ⟨_, _, rfl, rfl, by decide +kernel, by decide +kernel⟩

/-! ## C56 -/

theorem window_valid (size : Nat) (hs : 0 < size) : (slidingWindow size).1.length ≠ 0 ∧
    ¬ ((((slidingWindow size).1.length / 2 : Nat) : Int) + (slidingWindow size).2 < 0 ∨
      ((slidingWindow size).1.length : Int) ≤ (((slidingWindow size).1.length / 2 : Nat) : Int) + (slidingWindow size).2) := by
  simp only [slidingWindow, List.length_replicate]
  omega

theorem correlateAt_window (row : List ℚ) (size i : Nat) :
    correlateAt row (slidingWindow size).1 (slidingWindow size).2 i = windowSum row i size := by
  unfold correlateAt windowSum
  simp only [slidingWindow, List.length_replicate]
  congr 1
  refine List.map_congr_left fun k hk => ?_
  rw [show (i : Int) + k - ((size / 2 : Nat) : Int) - (-((size / 2 : Nat) : Int)) = ((i + k : Nat) : Int) by push_cast; ring, padded_nat,
    List.getD_eq_getElem?_getD, List.getElem?_replicate, if_pos (List.mem_range.1 hk), Option.getD_some, one_mul]

theorem sumAround_window (row : List ℚ) (p k : Nat) : sumAround row p k = windowSum row p k := by
  unfold sumAround
  induction k with
  | zero => simp [windowSum]
  | succ k ih =>
    have e : windowSum row p (k + 1) = windowSum row p k + row.getD (p + k) 0 := by
      unfold windowSum
      rw [List.range_succ, List.map_append, List.sum_append]
      simp
    rw [e, ← ih]
    by_cases h : k < (row.drop p).length
    · rw [List.take_add_one, List.getElem?_eq_getElem h, List.sum_append]
      simp only [Option.toList_some, List.sum_cons, List.sum_nil, add_zero]
      rw [List.getElem_drop, List.getD_eq_getElem?_getD, List.getElem?_eq_getElem (by rw [List.length_drop] at h; omega), Option.getD_some]
    · rw [List.take_of_length_le (by omega), List.take_of_length_le (by omega), List.getD_eq_getElem?_getD,
        List.getElem?_eq_none (by rw [List.length_drop] at h; omega)]
      simp

theorem windowSum_colMeans (n : Nat) (ws : List (List ℚ)) (hw : Event n ws) (size a : Nat) :
    windowSum (colMeans n ws) a size = cameraWindow ws size a / ws.length := by
  have get : ∀ j, (colMeans n ws).getD j 0 = cameraSum ws j / ws.length := by
    intro j
    unfold colMeans
    by_cases hj : j < n
    · rw [List.getD_eq_getElem?_getD, List.getElem?_map, List.getElem?_range hj]
      simp only [Option.map_some, Option.getD_some]
      unfold cameraSum mean column
      simp
    · rw [List.getD_eq_getElem?_getD, List.getElem?_eq_none (by simp; omega)]
      have : cameraSum ws j = 0 := by
        unfold cameraSum
        refine List.sum_eq_zero fun x hx => ?_
        obtain ⟨r, hr, rfl⟩ := List.mem_map.1 hx
        rw [List.getD_eq_getElem?_getD, List.getElem?_eq_none (by rw [hw.2 r hr]; omega)]
        rfl
      rw [this]
      simp
  unfold windowSum
  rw [sum_list_range]
  simp only [get]
  rw [← Finset.sum_div]
  congr 1
  clear get hw
  unfold cameraWindow cameraSum
  induction ws with
  | nil => simp
  | cons r rs ih =>
    simp only [List.map_cons, List.sum_cons]
    rw [Finset.sum_add_distrib, ih]
    rfl

/-- the start of the common window is the first sample at which the window sum over the camera is largest -/
theorem slidingPrepare_firstMax (n : Nat) (hn : 0 < n) (size : Nat) (hs : 0 < size) (ws : List (List ℚ)) (hw : Event n ws) :
    ∃ p, FirstMax n (cameraWindow ws size) p ∧ slidingPrepare size ws = .ok p := by
  obtain ⟨v1, v2⟩ := window_valid size hs
  have hlen : (colMeans n ws).length = n := by simp [colMeans]
  have hpos : (0 : ℚ) < ws.length := by exact_mod_cast List.length_pos_iff.2 hw.1
  obtain ⟨c, hcdef⟩ : ∃ c, c = (List.range n).map fun i => cameraWindow ws size i / ws.length := ⟨_, rfl⟩
  have hcl : c.length = n := by rw [hcdef]; simp
  have hc : correlate1d (colMeans (nSamples ws) ws) (slidingWindow size).1 (slidingWindow size).2 = .ok c := by
    unfold correlate1d
    rw [if_neg v1, if_neg v2, nSamples_event n ws hw, hlen, hcdef]
    congr 1
    exact List.map_congr_left fun i _ => by rw [correlateAt_window, windowSum_colMeans n ws hw]
  obtain ⟨p, hp, -⟩ := argmax_ok c (by intro he; rw [he] at hcl; simp at hcl; omega)
  have get : ∀ j < n, c.getD j 0 = cameraWindow ws size j / ws.length := by
    intro j hj
    rw [hcdef, List.getD_eq_getElem?_getD, List.getElem?_map, List.getElem?_range hj]
    rfl
  have hf := (argmax_firstMax c p).1 hp
  rw [hcl] at hf
  refine ⟨p, ⟨hf.1, ?_, ?_⟩, ?_⟩
  · intro j hj
    have := hf.2.1 j hj
    simp only [get j hj, get p hf.1] at this
    exact (div_le_div_iff_of_pos_right hpos).1 this
  · intro j hj
    have := hf.2.2 j hj
    simp only [get j (by have := hf.1; omega), get p hf.1] at this
    exact (div_lt_div_iff_of_pos_right hpos).1 this
  · unfold slidingPrepare
    simp only [hc, hp]

/-- C56: the sliding-window charge is the sum of the existing ones of the `size` samples from the first sample at which the window sum over the
camera is largest. -/
theorem C56_charge (n : Nat) (hn : 0 < n) (size : Nat) (hs : 0 < size) (ws : List (List ℚ)) (hw : Event n ws) :
    ∃ p, FirstMax n (cameraWindow ws size) p ∧ chargeSliding size ws = .ok (ws.map fun r => windowSum r p size) := by
  obtain ⟨p, hp, h⟩ := slidingPrepare_firstMax n hn size hs ws hw
  refine ⟨p, hp, ?_⟩
  unfold chargeSliding
  simp only [h]
  congr 1
  exact List.map_congr_left fun r _ => sumAround_window r p size

/-- C56: the local charge of a pixel is the largest of its window sums. -/
theorem C56_local (n : Nat) (hn : 0 < n) (size : Nat) (hs : 0 < size) (ws : List (List ℚ)) (hw : Event n ws) :
    ∃ xs, chargeSlidingLocal size ws = .ok xs ∧ xs.length = ws.length ∧ ∀ (i : Nat) r, ws[i]? = some r →
      ∃ p, FirstMax n (fun a => windowSum r a size) p ∧ xs[i]? = some (windowSum r p size) := by
  obtain ⟨v1, v2⟩ := window_valid size hs
  have hc := correlateRows_ok (slidingWindow size).1 (slidingWindow size).2 v1 v2 ws
  obtain ⟨xs, hxs⟩ := perPixel_ok rowMax (ws.map fun r => (List.range r.length).map (correlateAt r (slidingWindow size).1 (slidingWindow size).2))
    fun c hc => rowMax_ok c (by
      obtain ⟨r, hr, rfl⟩ := List.mem_map.1 hc
      intro he
      have := congrArg List.length he
      simp [hw.2 r hr] at this
      omega)
  have hmap := (perPixel_spec _ _ _).1 hxs
  refine ⟨xs, by unfold chargeSlidingLocal; rw [hc]; exact hxs, by have := congrArg List.length hmap; simpa using this.symm, ?_⟩
  intro i r hi
  have hr := hw.2 r (List.mem_of_getElem? hi)
  have hg := congrArg (fun l => l[i]?) hmap
  simp only [List.getElem?_map, hi, Option.map_some] at hg
  cases hx : xs[i]? with
  | none => rw [hx] at hg; cases hg
  | some x =>
    rw [hx, Option.map_some, Option.some.injEq, hr] at hg
    obtain ⟨c, hcdef⟩ : ∃ c, c = (List.range n).map (correlateAt r (slidingWindow size).1 (slidingWindow size).2) := ⟨_, rfl⟩
    rw [← hcdef] at hg
    have hcl : c.length = n := by rw [hcdef]; simp
    have get : ∀ j < n, c.getD j 0 = windowSum r j size := by
      intro j hj
      rw [hcdef, List.getD_eq_getElem?_getD, List.getElem?_map, List.getElem?_range hj, ← correlateAt_window]
      rfl
    obtain ⟨p, hp, -⟩ := argmax_ok c (by intro he; rw [he] at hcl; simp at hcl; omega)
    have hf := (argmax_firstMax c p).1 hp
    rw [hcl] at hf
    have hfm : FirstMax n (fun a => windowSum r a size) p := by
      refine ⟨hf.1, ?_, ?_⟩
      · intro j hj
        have := hf.2.1 j hj
        simpa only [get j hj, get p hf.1] using this
      · intro j hj
        have := hf.2.2 j hj
        simpa only [get j (by have := hf.1; omega), get p hf.1] using this
    refine ⟨p, hfm, ?_⟩
    congr 1
    obtain ⟨m1, m2⟩ := (rowMax_spec _ _).1 hg
    obtain ⟨j, hj, he⟩ := List.getElem_of_mem m1
    rw [hcl] at hj
    refine le_antisymm ?_ ?_
    · have := hfm.2.1 j hj
      simp only [← get j hj] at this
      rwa [List.getD_eq_getElem?_getD, List.getElem?_eq_getElem (by omega), Option.getD_some, he] at this
    · refine m2 _ ?_
      rw [← get p hf.1, List.getD_eq_getElem?_getD, List.getElem?_eq_getElem (by rw [hcl]; exact hf.1), Option.getD_some]
      exact List.getElem_mem _

/-- the starts of the windows of the rows of an array are the first samples at which the window sums of the rows are largest -/
theorem slidingRows_firstMax (n : Nat) (hn : 0 < n) (size : Nat) (hs : 0 < size) (rows : List (List ℚ)) (hr : ∀ r ∈ rows, r.length = n) :
    ∃ c ps, correlateRows (slidingWindow size).1 (slidingWindow size).2 rows = .ok c ∧ argmaxRows c = .ok ps ∧ ps.length = rows.length ∧
      ∀ (i : Nat) a, rows[i]? = some a → ∃ p, ps[i]? = some p ∧ FirstMax n (fun t => windowSum a t size) p := by
  obtain ⟨v1, v2⟩ := window_valid size hs
  have hc := correlateRows_ok (slidingWindow size).1 (slidingWindow size).2 v1 v2 rows
  obtain ⟨ps, hps⟩ := argmaxRows_ok (rows.map fun r => (List.range r.length).map (correlateAt r (slidingWindow size).1 (slidingWindow size).2)) fun c hc => by
    obtain ⟨r, hr', rfl⟩ := List.mem_map.1 hc
    intro he
    have := congrArg List.length he
    simp [hr r hr'] at this
    omega
  obtain ⟨hl, hg⟩ := argmaxRows_get _ _ hps
  rw [List.length_map] at hl
  refine ⟨_, ps, hc, hps, hl, ?_⟩
  intro i a ha
  have har := hr a (List.mem_of_getElem? ha)
  obtain ⟨p, hp, hmax⟩ := hg i _ (by rw [List.getElem?_map, ha]; rfl)
  refine ⟨p, hp, ?_⟩
  have hf := (argmax_firstMax _ p).1 hmax
  rw [List.length_map, List.length_range, har] at hf
  have get : ∀ j < n, ((List.range n).map (correlateAt a (slidingWindow size).1 (slidingWindow size).2)).getD j 0 = windowSum a j size := by
    intro j hj
    rw [List.getD_eq_getElem?_getD, List.getElem?_map, List.getElem?_range hj, ← correlateAt_window]
    rfl
  refine ⟨hf.1, fun j hj => ?_, fun j hj => ?_⟩
  · have := hf.2.1 j hj
    simpa only [har, get j hj, get p hf.1] using this
  · have := hf.2.2 j hj
    simpa only [har, get j (by have := hf.1; omega), get p hf.1] using this

/-- C56: the neighbour charge of a pixel is the sum over its own samples of the window that is the first with the largest sum in the average of the pixel's
neighbours, for every averaging that keeps the shape of the array. -/
theorem C56_neighbour (n : Nat) (hn : 0 < n) (size : Nat) (hs : 0 < size) (avg : List (List ℚ) → List (List ℚ)) (ws : List (List ℚ))
    (havg : Event n (avg ws) ∧ (avg ws).length = ws.length) :
    ∃ xs, chargeSlidingNn avg size ws = .ok xs ∧ xs.length = ws.length ∧ ∀ (i : Nat) r a, ws[i]? = some r → (avg ws)[i]? = some a →
      ∃ p, FirstMax n (fun t => windowSum a t size) p ∧ xs[i]? = some (windowSum r p size) := by
  obtain ⟨c, ps, hc, hps, hl, hg⟩ := slidingRows_firstMax n hn size hs (avg ws) havg.1.2
  rw [havg.2] at hl
  refine ⟨List.zipWith (fun r p => sumAround r p size) ws ps, by unfold chargeSlidingNn; rw [hc]; simp only [hps], by simp [hl], ?_⟩
  intro i r a hi ha
  obtain ⟨p, hp, hmax⟩ := hg i a ha
  refine ⟨p, hmax, ?_⟩
  rw [List.getElem?_zipWith, hi, hp]
  simp only [sumAround_window]

/-- two pixels that are each other's neighbours -/
example : chargeSlidingNn List.reverse 2 [[0, 1, 3, 2, 0], [4, 0, 1, 1, 0]] = .ok [1, 2] := by decide +kernel

/-- C56: an empty window is refused -/
theorem C56_empty (ws : List (List ℚ)) : chargeSliding 0 ws = .error .runtimeError := rfl

/-- C55: the local sliding-window charge is at least the common one, in every pixel. -/
theorem C55_sliding (n : Nat) (hn : 0 < n) (size : Nat) (hs : 0 < size) (ws : List (List ℚ)) (hw : Event n ws) :
    ∃ a b, chargeSliding size ws = .ok a ∧ chargeSlidingLocal size ws = .ok b ∧ a.length = ws.length ∧ PixelLe a b := by
  obtain ⟨p, hp, ha⟩ := C56_charge n hn size hs ws hw
  obtain ⟨b, hb, hl, hg⟩ := C56_local n hn size hs ws hw
  refine ⟨_, b, ha, hb, by simp, by simp [hl], ?_⟩
  intro i x y hx hy
  rw [List.getElem?_map, Option.map_eq_some_iff] at hx
  obtain ⟨r, hr, rfl⟩ := hx
  obtain ⟨q, hq, hy'⟩ := hg i r hr
  rw [hy', Option.some.injEq] at hy
  rw [← hy]
  exact hq.2.1 p hp.1

example : Event 5 [[0, 1, 3, 2, 0], [4, 0, 1, 1, 0]] ∧ chargeSliding 2 [[0, 1, 3, 2, 0], [4, 0, 1, 1, 0]] = .ok [5, 2] ∧
    chargeSlidingLocal 2 [[0, 1, 3, 2, 0], [4, 0, 1, 1, 0]] = .ok [5, 4] ∧ chargeSliding 3 [[0, 0, 0, 0, 7]] = .ok [7] :=
  ⟨⟨by simp, by simp⟩, by decide +kernel, by decide +kernel, by decide +kernel⟩

end Verif.Props
