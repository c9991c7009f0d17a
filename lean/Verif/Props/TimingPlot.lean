import Verif.Model.TimingPlot
import Verif.Props.TimingExact
import Verif.Lemmas.CrossCorr
import Verif.Py.DictLemmas

/-! # C171: the check plot of the timing -/

namespace Verif.Props

open Verif.Py Verif.Model Verif.Spec Verif.Lemmas

/-! ### vocabulary -/

/-- `t` denotes sample `q` of `n`, counted from the start or, if negative, from the end -/
def Denotes (n : Nat) (t : Int) (q : Nat) : Prop := q < n ∧ (t = q ∨ t + n = q)

/-- the first smallest value -/
def FirstMin (n : Nat) (f : Nat → ℚ) (p : Nat) : Prop := p < n ∧ (∀ j < n, f p ≤ f j) ∧ ∀ j < p, f p < f j

/-- the check plot is asked for -/
def PlotAsked (kwargs : Config Setting) : Prop := Dict.get? kwargs "plot_timing" = some (.flag true) ∨ ∃ i : Int, i ≠ 0 ∧ Dict.get? kwargs "plot_timing" = some (.num i)

/-- a panel shows a pixel: its waveform, the event time, the window, and the times reported for it; the dot is at its pulse time and pulse height -/
structure ShowsPixel (kwargs : Config Setting) (t : Int) (r : List ℚ) (p : PulseTiming) (panel : TimingPanel) : Prop where
  curve : panel.curve = r
  tEvent : panel.tEvent = t
  windowStart : panel.window.1 = t - kwNumber kwargs "window_shift" 4
  windowEnd : panel.window.2 = panel.window.1 + kwNumber kwargs "window_size" 8
  tPulse : panel.tPulse = p.tPulse
  dot : panel.dot = (p.tPulse, p.hPulse)
  tL : panel.tL = p.tL
  tR : panel.tR = p.tR
  t10 : panel.t10 = p.t10
  t90 : panel.t90 = p.t90

/-! ### lemmas -/

theorem sampleAt_denotes (n : Nat) (t : Int) (r : List ℚ) (hr : r.length = n) (q : Nat) (h : Denotes n t q) : sampleAt t r = .ok (r.getD q 0) := by
  obtain ⟨h1, h2⟩ := h
  unfold sampleAt
  simp only [hr]
  rcases h2 with rfl | h2
  · have : ¬ (q : Int) < 0 := by omega
    rw [if_neg this, if_pos ⟨by omega, by omega⟩]
    rfl
  · have : t < 0 := by omega
    rw [if_pos this, h2, if_pos ⟨by omega, by omega⟩]
    rfl

theorem sampleAt_outside (n : Nat) (t : Int) (r : List ℚ) (hr : r.length = n) (h : ∀ q, ¬ Denotes n t q) : sampleAt t r = .error .indexError := by
  unfold sampleAt
  simp only [hr]
  split_ifs with h1 h2 h2
  · exact absurd ⟨by omega, Or.inr (by omega)⟩ (h (t + n).toNat)
  · rfl
  · exact absurd ⟨by omega, Or.inl (by omega)⟩ (h t.toNat)
  · rfl

theorem column_denotes (n : Nat) (t : Int) (ws : List (List ℚ)) (hr : ∀ r ∈ ws, r.length = n) (q : Nat) (h : Denotes n t q) :
    ws.mapM (sampleAt t) = .ok (ws.map fun r => r.getD q 0) := by
  induction ws with
  | nil => rfl
  | cons r ws ih =>
    rw [List.mapM_cons, sampleAt_denotes n t r (hr r (by simp)) q h, ih fun r hm => hr r (by simp [hm])]
    rfl

theorem firstMax_column (ws : List (List ℚ)) (q i : Nat) (h : argmax (ws.map fun r => r.getD q 0) = .ok i) :
    FirstMax ws.length (fun k => (ws.getD k []).getD q 0) i := by
  rw [argmax_firstMax, List.length_map] at h
  have hg : ∀ k < ws.length, (ws.map fun r => r.getD q 0).getD k 0 = (ws.getD k []).getD q 0 := by
    intro k hk
    rw [List.getD_eq_getElem?_getD, List.getElem?_map, List.getElem?_eq_getElem hk, List.getD_eq_getElem?_getD (l := ws), List.getElem?_eq_getElem hk]
    rfl
  obtain ⟨h1, h2, h3⟩ := h
  refine ⟨h1, fun j hj => ?_, fun j hj => ?_⟩
  · have := h2 j hj; simp only [hg j hj, hg i h1] at this; exact this
  · have := h3 j hj; simp only [hg j (by omega), hg i h1] at this; exact this

theorem firstMin_column (ws : List (List ℚ)) (q i : Nat) (h : argmin (ws.map fun r => r.getD q 0) = .ok i) :
    FirstMin ws.length (fun k => (ws.getD k []).getD q 0) i := by
  unfold argmin at h
  rw [argmax_firstMax, List.length_map, List.length_map] at h
  have hg : ∀ k < ws.length, ((ws.map fun r => r.getD q 0).map fun x => -x).getD k 0 = -((ws.getD k []).getD q 0) := by
    intro k hk
    rw [List.getD_eq_getElem?_getD, List.getElem?_map, List.getElem?_map, List.getElem?_eq_getElem hk, List.getD_eq_getElem?_getD (l := ws), List.getElem?_eq_getElem hk]
    rfl
  obtain ⟨h1, h2, h3⟩ := h
  refine ⟨h1, fun j hj => ?_, fun j hj => ?_⟩
  · have := h2 j hj; simp only [hg j hj, hg i h1] at this; simp only; linarith
  · have := h3 j hj; simp only [hg j (by omega), hg i h1] at this; simp only; linarith

theorem argmax_some (xs : List ℚ) (h : xs ≠ []) : ∃ i, argmax xs = .ok i := by
  cases xs with
  | nil => exact absurd rfl h
  | cons x xs => exact ⟨_, rfl⟩

theorem asked_plot (kwargs : Config Setting) (h : PlotAsked kwargs) :
    plotTiming kwargs = true := by
  unfold plotTiming
  rcases h with h | ⟨i, hi, h⟩
  · rw [h]; rfl
  · rw [h]
    simp only [Setting.truthy]
    simpa using hi

/-! ### C171 -/

/-- C171 (missing: the height of the dot is above the start of the waveform, see `C171_dot`; other figures are closed, see `C171_figures`; a time outside of the readout, see `C171_outside`): the two
panels show the first pixel with the largest and the first one with the smallest sample at the event time, with the values reported for these pixels, and the reported values are those without a plot. -/
theorem C171_plot_partial (kwargs : Config Setting) (hk : PlotAsked kwargs) (mem : Nat → Option ℚ) (s : Pyplot) (n : Nat) (ws : List (List ℚ)) (hw : Spec.Event n ws) (t : Int)
    (ps : List PulseTiming) (h : timingPrepare kwargs mem ws = .ok (t, ps)) (q : Nat) (hq : Denotes n t q) :
    ∃ i j large low, timingProcess kwargs mem s ws = ({ s with opened := [], count := s.count + 1 }, .ok ((t, ps), some (large, low))) ∧
      FirstMax ws.length (fun k => (ws.getD k []).getD q 0) i ∧ FirstMin ws.length (fun k => (ws.getD k []).getD q 0) j ∧
      (∃ r p, ws[i]? = some r ∧ ps[i]? = some p ∧ ShowsPixel kwargs t r p large) ∧ ∃ r p, ws[j]? = some r ∧ ps[j]? = some p ∧ ShowsPixel kwargs t r p low := by
  obtain ⟨-, hl, -⟩ := timing_get kwargs mem ws t ps h
  have hc := column_denotes n t ws hw.2 q hq
  have hne : (ws.map fun r => r.getD q 0) ≠ [] := by simpa using hw.1
  obtain ⟨i, hi⟩ := argmax_some _ hne
  obtain ⟨j, hj⟩ : ∃ j, argmin (ws.map fun r => r.getD q 0) = .ok j := argmax_some _ (by simpa using hw.1)
  have mi := firstMax_column ws q i hi
  have mj := firstMin_column ws q j hj
  have panel : ∀ i, i < ws.length → ∃ r p x, ws[i]? = some r ∧ ps[i]? = some p ∧ timingPanel kwargs ws t ps i = .ok x ∧ ShowsPixel kwargs t r p x := by
    intro i hi
    have h1 : ws[i]? = some ws[i] := List.getElem?_eq_getElem hi
    have h2 : ps[i]? = some (ps[i]'(by omega)) := List.getElem?_eq_getElem (by omega)
    refine ⟨ws[i], ps[i]'(by omega), ⟨ws[i], t, (t - kwNumber kwargs "window_shift" 4, t - kwNumber kwargs "window_shift" 4 + kwNumber kwargs "window_size" 8), (ps[i]'(by omega)).tPulse,
      ((ps[i]'(by omega)).tPulse, (ps[i]'(by omega)).hPulse), (ps[i]'(by omega)).tL, (ps[i]'(by omega)).tR, (ps[i]'(by omega)).t10, (ps[i]'(by omega)).t90⟩, h1, h2, ?_,
      ⟨rfl, rfl, rfl, rfl, rfl, rfl, rfl, rfl, rfl, rfl⟩⟩
    unfold timingPanel
    rw [h1, h2]
  obtain ⟨r, p, large, a1, a2, a3, a4⟩ := panel i mi.1
  obtain ⟨r', p', low, b1, b2, b3, b4⟩ := panel j mj.1
  refine ⟨i, j, large, low, ?_, mi, mj, ⟨r, p, a1, a2, a4⟩, r', p', b1, b2, b4⟩
  unfold timingProcess
  simp only [asked_plot kwargs hk, h]
  unfold timingPost
  simp only [if_true, hc, hi, hj, a3, b3]
  rfl

/-- At default times, for at least 20 samples, the plot is made for every event whose timing can be measured. -/
theorem C171_default (kwargs : Config Setting) (h1 : Dict.get? kwargs "t_extract" = none) (mem : Nat → Option ℚ) (n : Nat) (hn : 20 ≤ n) (ws : List (List ℚ)) (hw : Spec.Event n ws) (t : Int)
    (ps : List PulseTiming) (h : timingPrepare kwargs mem ws = .ok (t, ps)) : ∃ q : Nat, t = q ∧ Denotes n t q := by
  obtain ⟨p, hp, hdt⟩ := defaultTime_clamped n ws hw hn
  obtain ⟨he, -, -⟩ := timing_get kwargs mem ws t ps h
  unfold extractionTime at he
  rw [h1] at he
  simp only [hdt, Except.ok.injEq] at he
  refine ⟨clampedTime n p, he.symm, ?_, Or.inl he.symm⟩
  unfold clampedTime
  omega

/-- With a time outside of the readout the plot fails with `IndexError`, although the columns could be extracted, and no figure is made or closed. -/
theorem C171_outside (kwargs : Config Setting) (hk : PlotAsked kwargs) (mem : Nat → Option ℚ) (s : Pyplot) (n : Nat) (ws : List (List ℚ)) (hw : Spec.Event n ws) (t : Int)
    (ps : List PulseTiming) (h : timingPrepare kwargs mem ws = .ok (t, ps)) (hq : ∀ q, ¬ Denotes n t q) : timingProcess kwargs mem s ws = (s, .error .indexError) := by
  have hc : ws.mapM (sampleAt t) = .error .indexError := by
    cases hws : ws with
    | nil => exact absurd hws hw.1
    | cons r rs =>
      rw [List.mapM_cons, sampleAt_outside n t r (hw.2 r (by rw [hws]; simp)) hq]
      rfl
  unfold timingProcess
  simp only [asked_plot kwargs hk, h]
  unfold timingPost
  simp only [if_true, hc]

/-- Nothing is drawn, and no figure touched, unless the plot is asked for; and the values are the same. -/
theorem C171_columns (kwargs kwargs' : Config Setting) (hsame : ∀ k, k ≠ "plot_timing" → Dict.get? kwargs' k = Dict.get? kwargs k) (hno : Dict.get? kwargs' "plot_timing" = none)
    (mem : Nat → Option ℚ) (s : Pyplot) (ws : List (List ℚ)) :
    (∀ e, timingPrepare kwargs mem ws = .error e → timingProcess kwargs mem s ws = (s, .error e) ∧ timingProcess kwargs' mem s ws = (s, .error e)) ∧
    ∀ s' x panels, timingProcess kwargs mem s ws = (s', .ok (x, panels)) → timingProcess kwargs' mem s ws = (s, .ok (x, none)) := by
  have hp : timingPrepare kwargs' mem ws = timingPrepare kwargs mem ws := by
    unfold timingPrepare extractionTime kwNumber
    rw [hsame "t_extract" (by decide), hsame "window_shift" (by decide), hsame "window_size" (by decide)]
  unfold timingProcess
  have hn : plotTiming kwargs' = false := by unfold plotTiming; rw [hno]
  simp only [hp, hn]
  refine ⟨fun e he => by rw [he]; exact ⟨rfl, rfl⟩, fun s' x panels => ?_⟩
  cases timingPrepare kwargs mem ws with
  | error e => simp
  | ok y =>
    obtain ⟨t, ps⟩ := y
    simp only
    intro h
    have : x = (t, ps) := by
      revert h
      generalize timingPost _ kwargs s ws t ps = z
      obtain ⟨s1, z⟩ := z
      cases z with
      | error e => simp
      | ok z =>
        simp only [Prod.mk.injEq, Except.ok.injEq]
        rintro ⟨-, h, -⟩
        exact h.symm
    rw [this]
    rfl

/-- The dot is lower than the tip of the drawn pulse by the mean of its first ten samples: with a sample of the window that is a peak, adding this mean gives a height between the sample and an
eighth of the difference of its neighbours above it. -/
theorem C171_dot (kwargs : Config Setting) (mem : Nat → Option ℚ) (ws : List (List ℚ)) (t : Int) (ps : List PulseTiming) (h : timingPrepare kwargs mem ws = .ok (t, ps)) (j : Nat) (r : List ℚ)
    (hr : ws[j]? = some r) (p : PulseTiming) (hp : ps[j]? = some p) (panel : TimingPanel) (hs : ShowsPixel kwargs t r p panel) (a b k : Nat)
    (ha : t - kwNumber kwargs "window_shift" 4 = a) (hb : (a : Int) + kwNumber kwargs "window_size" 8 = b) (hbl : b ≤ r.length)
    (hk : FirstMax (b - a) (fun i => r.getD (a + i) 0) k) (h0 : 0 < a + k) (h1 : a + k + 1 < r.length)
    (hl : r.getD (a + k - 1) 0 ≤ r.getD (a + k) 0) (hrr : r.getD (a + k + 1) 0 ≤ r.getD (a + k) 0)
    (hne : r.getD (a + k - 1) 0 < r.getD (a + k) 0 ∨ r.getD (a + k + 1) 0 < r.getD (a + k) 0) :
    |panel.dot.1 - (a + k : Nat)| ≤ 1 / 2 ∧ panel.curve.getD (a + k) 0 ≤ panel.dot.2 + startLevel panel.curve ∧
      panel.dot.2 + startLevel panel.curve ≤ panel.curve.getD (a + k) 0 + |panel.curve.getD (a + k - 1) 0 - panel.curve.getD (a + k + 1) 0| / 8 := by
  obtain ⟨p', e1, e2, e3, e4⟩ := C77_peak kwargs mem ws t ps h j r hr a b k ha hb hbl hk h0 h1 hl hrr hne
  rw [hp, Option.some.injEq] at e1
  subst e1
  rw [hs.dot, hs.curve]
  exact ⟨e2, by simp only; linarith, by simp only; linarith⟩

/-- Every figure of the user is closed. -/
theorem C171_figures (kwargs : Config Setting) (mem : Nat → Option ℚ) (s s' : Pyplot) (ws : List (List ℚ)) (x : Int × List PulseTiming) (panels : TimingPanel × TimingPanel)
    (h : timingProcess kwargs mem s ws = (s', .ok (x, some panels))) : s'.opened = [] ∧ s'.rc = s.rc := by
  unfold timingProcess at h
  cases hp : timingPrepare kwargs mem ws with
  | error e => rw [hp] at h; simp at h
  | ok y =>
    obtain ⟨t, ps⟩ := y
    rw [hp] at h
    simp only at h
    unfold timingPost at h
    split_ifs at h with hb
    · cases hc : ws.mapM (sampleAt t) with
      | error e => rw [hc] at h; simp at h
      | ok column =>
        rw [hc] at h
        simp only at h
        cases h1 : argmax column with
        | error e => rw [h1] at h; simp at h
        | ok i =>
          cases h2 : argmin column with
          | error e => rw [h1, h2] at h; simp at h
          | ok j =>
            rw [h1, h2] at h
            simp only at h
            cases h3 : timingPanel kwargs ws t ps i with
            | error e => rw [h3] at h; simp at h
            | ok large =>
              cases h4 : timingPanel kwargs ws t ps j with
              | error e => rw [h3, h4] at h; simp at h
              | ok low =>
                rw [h3, h4] at h
                simp only [Prod.mk.injEq] at h
                rw [← h.1]
                exact ⟨rfl, rfl⟩
    · simp at h

/-! ### C171 is false as stated -/

/-- a waveform of 30 samples with a pedestal of 100 and a pulse of 20 above it -/
def pedestalEvent : List (List ℚ) := [List.replicate 15 100 ++ [110, 120, 110] ++ List.replicate 12 100]

/-- the two panels for it -/
theorem pedestal_panels (s : Pyplot) : ∃ large low, timingProcess [("plot_timing", .flag true)] (fun _ => none) s pedestalEvent =
    ({ s with opened := [], count := s.count + 1 }, .ok ((16, [⟨16, 20, some 2, some (8 / 5), 15, 17, 71 / 5, 79 / 5⟩]), some (large, low))) ∧ large.dot = (16, 20) ∧
    large.curve = List.replicate 15 100 ++ [110, 120, 110] ++ List.replicate 12 100 := by
  have hp : timingPrepare [("plot_timing", .flag true)] (fun _ => none) pedestalEvent = .ok (16, [⟨16, 20, some 2, some (8 / 5), 15, 17, 71 / 5, 79 / 5⟩]) := by decide +kernel
  obtain ⟨i, j, large, low, h1, h2, -, ⟨r, p, h3, h4, h5⟩, -⟩ := C171_plot_partial [("plot_timing", .flag true)] (Or.inl rfl) (fun _ => none) s 30 pedestalEvent
    ⟨by simp [pedestalEvent], by decide⟩ _ _ hp 16 ⟨by omega, Or.inl rfl⟩
  have hi : i = 0 := by
    have := h2.1
    simp [pedestalEvent] at this
    exact this
  subst hi
  refine ⟨large, low, h1, ?_, ?_⟩
  · rw [h5.dot]
    simp only [List.getElem?_cons_zero, Option.some.injEq] at h4
    rw [← h4]
  · rw [h5.curve]
    simp only [pedestalEvent, List.getElem?_cons_zero, Option.some.injEq] at h3
    rw [← h3]

/-- C171 is false: with a pedestal the dot is below the whole waveform, and a figure of the user is closed. -/
theorem C171_false : ∃ (kwargs : Config Setting) (mem : Nat → Option ℚ) (s s' : Pyplot) (x : Int × List PulseTiming) (large low : TimingPanel),
    timingProcess kwargs mem s pedestalEvent = (s', .ok (x, some (large, low))) ∧ (∀ y ∈ large.curve, large.dot.2 < y) ∧ Figure.own 0 ∈ s.opened ∧ Figure.own 0 ∉ s'.opened := by
  obtain ⟨large, low, h1, h2, h3⟩ := pedestal_panels ⟨[], [.own 0], 0, []⟩
  refine ⟨_, _, _, _, _, large, low, h1, ?_, by simp, by simp⟩
  rw [h2, h3]
  decide +kernel

/-! ### examples -/

/-- two pixels, the second with the larger pulse; the event time is that of the average -/
def twoPulses : List (List ℚ) := [List.replicate 15 0 ++ [4, 8, 4] ++ List.replicate 12 0, List.replicate 16 0 ++ [10, 20, 10] ++ List.replicate 11 0]

example (s : Pyplot) : ∃ t ps i j large low, timingProcess [("plot_timing", .flag true)] (fun _ => none) s twoPulses =
    ({ s with opened := [], count := s.count + 1 }, .ok ((t, ps), some (large, low))) ∧ FirstMax 2 (fun k => (twoPulses.getD k []).getD 17 0) i ∧
    FirstMin 2 (fun k => (twoPulses.getD k []).getD 17 0) j := by
  have hp : (∃ ps, timingPrepare [("plot_timing", .flag true)] (fun _ => none) twoPulses = .ok (17, ps)) :=
    ⟨[⟨16, 8, some 2, some (8 / 5), 15, 17, 71 / 5, 79 / 5⟩, ⟨17, 20, some 2, some (8 / 5), 16, 18, 76 / 5, 84 / 5⟩], by decide +kernel⟩
  obtain ⟨ps, hp⟩ := hp
  obtain ⟨i, j, large, low, h1, h2, h3, -⟩ := C171_plot_partial [("plot_timing", .flag true)] (Or.inl rfl) (fun _ => none) s 30 twoPulses ⟨by simp [twoPulses], by decide⟩ _ _ hp 17
    ⟨by omega, Or.inl rfl⟩
  exact ⟨17, ps, i, j, large, low, h1, h2, h3⟩

/-- a time outside of the readout: the columns are extracted, the plot fails -/
example (s : Pyplot) : timingProcess [("plot_timing", .flag true), ("t_extract", .num 31), ("window_size", .num 4)] (fun _ => none) s twoPulses = (s, .error .indexError) ∧
    ∃ x, timingProcess [("t_extract", .num 31), ("window_size", .num 4)] (fun _ => none) s twoPulses = (s, .ok (x, none)) := by
  have hp : (∃ ps, timingPrepare [("plot_timing", .flag true), ("t_extract", .num 31), ("window_size", .num 4)] (fun _ => none) twoPulses = .ok (31, ps)) :=
    ⟨[{}, {}], by decide +kernel⟩
  obtain ⟨ps, hp⟩ := hp
  refine ⟨C171_outside _ (Or.inl rfl) _ s 30 twoPulses ⟨by simp [twoPulses], by decide⟩ _ _ hp ?_, ?_⟩

  · rintro q ⟨h1, h2⟩
    omega
  · have hp' : timingPrepare [("t_extract", .num 31), ("window_size", .num 4)] (fun _ => none) twoPulses = .ok (31, [{}, {}]) := by decide +kernel
    refine ⟨(31, [{}, {}]), ?_⟩
    unfold timingProcess
    rw [hp']
    rfl

end Verif.Props
