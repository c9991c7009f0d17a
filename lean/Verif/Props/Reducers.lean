import Verif.Model.Reducers
import Verif.Spec.Reducers
import Verif.Lemmas.Reducers
import Verif.Props.Chain
import Verif.Props.PixelMasks
import Mathlib.Tactic.NormNum

/-! # C51, C52, C59, C60, C73: window charges, baselines, superpixels and flashers -/

namespace Verif.Props

open Verif.Py Verif.Model Verif.Spec Verif.Lemmas

/-! ## C51 -/

/-- C51: with the default window, for waveforms of at least 20 samples: the common time is the first maximum of the camera average kept 10
samples from the edges, and each pixel's charge is the sum of the 6 samples from 3 before it, all inside the waveform. -/
theorem C51_default (kwargs : Config Setting) (h1 : Dict.get? kwargs "t_extract" = none) (h2 : Dict.get? kwargs "window_shift" = none)
    (h3 : Dict.get? kwargs "window_size" = none) (n : Nat) (hn : 20 ≤ n) (ws : List (List ℚ)) (hw : Event n ws) (s : RedState) :
    ∃ s' p, averageWf.prepare kwargs s ws = .ok s' ∧ FirstMax n (cameraSum ws) p ∧
      averageWf.value kwargs s' "t_averagewf" = .ok (.scalar (min (max p 10) (n - 10) : Nat)) ∧
      averageWf.value kwargs s' "charge_averagewf" = .ok (.perPixel (ws.map fun row => windowSum row (min (max p 10) (n - 10) - 3) 6)) ∧
      min (max p 10) (n - 10) - 3 + 6 ≤ n := by
  obtain ⟨p, hp, ht⟩ := defaultTime_clamped n ws hw hn
  refine ⟨⟨ws, ((clampedTime n p : Nat) : Int)⟩, p, ?_, hp, ?_, ?_, by omega⟩
  · simp only [averageWf, extractionTime, h1, ht]
  · simp [averageWf, clampedTime]
  · have e : averageWf.value kwargs ⟨ws, ((clampedTime n p : Nat) : Int)⟩ "charge_averagewf" =
        .ok (.perPixel (ws.map fun row => (sliceList row (some (((clampedTime n p : Nat) : Int) - 3)) (some (((clampedTime n p : Nat) : Int) - 3 + 6))).sum)) := by
      simp [averageWf, kwNumber, h2, h3]
    rw [e]
    congr 2
    refine List.map_congr_left fun row hr => ?_
    have hl := hw.2 row hr
    have hc : clampedTime n p = min (max p 10) (n - 10) := rfl
    have e1 : ((clampedTime n p : Nat) : Int) - 3 = ((clampedTime n p - 3 : Nat) : Int) := by omega
    have e2 : ((clampedTime n p - 3 : Nat) : Int) + 6 = ((clampedTime n p - 3 + 6 : Nat) : Int) := by omega
    rw [e1, e2, sliceList_nat row _ _ (by omega) (by omega), ← hc, show clampedTime n p - 3 + 6 - (clampedTime n p - 3) = 6 by omega]
    exact take_drop_sum row _ 6 (by omega)

/-- C51 for any configuration: whenever the window lies inside the waveform, the charge is the sum of the window. -/
theorem C51_window (kwargs : Config Setting) (n : Nat) (ws : List (List ℚ)) (hw : Event n ws) (t a k : Nat)
    (h1 : (a : Int) = t - kwNumber kwargs "window_shift" 3) (h2 : kwNumber kwargs "window_size" 6 = (k : Int)) (h3 : a + k ≤ n) :
    averageWf.value kwargs ⟨ws, t⟩ "charge_averagewf" = .ok (.perPixel (ws.map fun row => windowSum row a k)) := by
  have e : averageWf.value kwargs ⟨ws, t⟩ "charge_averagewf" =
      .ok (.perPixel (ws.map fun row => (sliceList row (some (t - kwNumber kwargs "window_shift" 3)) (some (t - kwNumber kwargs "window_shift" 3 + kwNumber kwargs "window_size" 6))).sum)) := by
    simp [averageWf]
  rw [e, ← h1, h2]
  congr 2
  refine List.map_congr_left fun row hr => ?_
  have hl := hw.2 row hr
  rw [show (a : Int) + k = ((a + k : Nat) : Int) by omega, sliceList_nat row _ _ (by omega) (by omega), Nat.add_sub_cancel_left]
  exact take_drop_sum row a k (by omega)

/-- outside the quantifier of C51: for waveforms of 12 samples with the pulse in one of the last two, the start of the window is negative, wraps
around, and the charge of every pixel is zero -/
theorem C51_short (kwargs : Config Setting) (h1 : Dict.get? kwargs "t_extract" = none) (h2 : Dict.get? kwargs "window_shift" = none)
    (h3 : Dict.get? kwargs "window_size" = none) (ws : List (List ℚ)) (hw : Event 12 ws) (s : RedState)
    (p : Nat) (hp : FirstMax 12 (cameraSum ws) p) (h10 : 10 ≤ p) :
    ∃ s', averageWf.prepare kwargs s ws = .ok s' ∧ averageWf.value kwargs s' "charge_averagewf" = .ok (.perPixel (ws.map fun _ => 0)) := by
  have ht : defaultTime ws = .ok 2 := by
    unfold defaultTime
    rw [nSamples_event 12 ws hw, (argmax_colMeans 12 ws hw.1 p).2 hp]
    simp only
    rw [if_neg (by omega), if_pos (by omega)]
    rfl
  refine ⟨⟨ws, 2⟩, by simp only [averageWf, extractionTime, h1, ht], ?_⟩
  have e : averageWf.value kwargs ⟨ws, 2⟩ "charge_averagewf" = .ok (.perPixel (ws.map fun row => (sliceList row (some (2 - 3)) (some (2 - 3 + 6))).sum)) := by
    simp [averageWf, kwNumber, h2, h3]
  rw [e]
  congr 2
  refine List.map_congr_left fun row hr => ?_
  have hl := hw.2 row hr
  unfold sliceList clampIndex
  simp [hl]

/-- waveforms without samples raise ValueError, unless the extraction time is given -/
theorem C51_no_samples (kwargs : Config Setting) (h1 : Dict.get? kwargs "t_extract" = none) (s : RedState) (ws : List (List ℚ)) (hw : Event 0 ws) :
    averageWf.prepare kwargs s ws = .error .valueError := by
  unfold averageWf extractionTime defaultTime
  simp only
  rw [h1, nSamples_event 0 ws hw]
  rfl

example : Event 0 [[], []] := ⟨by simp, by simp⟩

/-- a pulse in one pixel of an event of two pixels and 30 samples: time 15, charges 9 and 0 -/
example : averageWf.prepare [] ⟨[], 0⟩ [(List.replicate 14 0 ++ [2, 5, 2] ++ List.replicate 13 0), List.replicate 30 0] =
      .ok ⟨[(List.replicate 14 0 ++ [2, 5, 2] ++ List.replicate 13 0), List.replicate 30 0], 15⟩ ∧
    averageWf.value [] ⟨[(List.replicate 14 0 ++ [2, 5, 2] ++ List.replicate 13 0), List.replicate 30 0], 15⟩ "charge_averagewf" =
      .ok (.perPixel [9, 0]) := by
  decide +kernel

/-- a case for `C51_short` -/
example : FirstMax 12 (cameraSum [List.replicate 11 0 ++ [3]]) 11 ∧ Event 12 [List.replicate 11 0 ++ [3]] := by
  refine ⟨⟨by omega, by decide +kernel, by decide +kernel⟩, by simp, by simp⟩

/-! ## C52 -/

/-- the saturation sum in a chain, whatever the other reducers are, for every event -/
theorem saturation_chain (reducers : List (ReducerClass Setting RedState (List (List ℚ)) ColVal)) (config : Config Setting)
    (hdist : DistinctColumns reducers) (hmem : saturation ∈ reducers) (hen : Enabled Setting.truthy config "saturation_sum")
    (hshift : Dict.get? config "window_shift" = none)
    (chain fin : List (Reducer Setting RedState (List (List ℚ)) ColVal)) (events : List (List (List ℚ))) (outs : List (Dict String ColVal))
    (hb : buildChain Setting.truthy reducers config = .ok chain) (hrun : chainEvents chain events = .ok (fin, outs)) :
    outs.map (fun d => (Dict.get? d "saturation_sum").map fun v => (Except.ok v : Except Err ColVal)) =
      events.map fun ws => some (match extractionTime config "t_event" ws with
        | .error e => .error e
        | .ok t => .ok (.perPixel (ws.map fun row => (sliceList row (some (t - 4)) none).sum))) := by
  obtain ⟨s, values, -, h2, h3⟩ := C12_values Setting.truthy reducers config hdist chain fin events outs hb hrun saturation hmem "saturation_sum"
    (by decide) hen (by decide)
  have e1 : ∀ (c : String), c ≠ "_disable_by_default" → Dict.get? (Dict.erase config "_disable_by_default") c = Dict.get? config c := by
    intro c hc
    exact get?_erase_ne _ _ _ (Ne.symm hc)
  have val : ∀ ws : List (List ℚ), saturation.value (Dict.erase config "_disable_by_default") ⟨ws, 0⟩ "saturation_sum" =
      match extractionTime config "t_event" ws with
        | .error e => .error e
        | .ok t => .ok (.perPixel (ws.map fun row => (sliceList row (some (t - 4)) none).sum)) := by
    intro ws
    simp only [saturation, kwNumber, extractionTime, e1 "window_shift" (by decide), e1 "t_event" (by decide), hshift, if_true]
    cases Dict.get? config "t_event" <;> rfl
  have solo : ∀ (evs : List (List (List ℚ))) (s : RedState), soloColumn saturation (Dict.erase config "_disable_by_default") "saturation_sum" s evs =
      evs.map fun ws => saturation.value (Dict.erase config "_disable_by_default") ⟨ws, 0⟩ "saturation_sum" := by
    intro evs
    induction evs with
    | nil => intro s; rfl
    | cons ws evs ih => intro s; simp only [soloColumn, List.map_cons]; rw [← ih]; rfl
  rw [solo] at h2
  have h4 : outs.map (fun d => (Dict.get? d "saturation_sum").map fun v => (Except.ok v : Except Err ColVal)) =
      (outs.map (Dict.get? · "saturation_sum")).map fun o => o.map fun v => (Except.ok v : Except Err ColVal) := by
    rw [List.map_map]; rfl
  rw [h4, h3, List.map_map]
  have h5 : values.map ((fun o => o.map fun v => (Except.ok v : Except Err ColVal)) ∘ some) = (values.map fun v => (Except.ok v : Except Err ColVal)).map some := by
    rw [List.map_map]; rfl
  rw [h5, ← h2, List.map_map]
  exact List.map_congr_left fun ws _ => by rw [Function.comp, val]

/-- the default configuration as settings -/
def defaultSettings : Config Setting := defaultColumns.map fun kv => (kv.1, .flag kv.2)

/-- C52 is false: in a chain with the default configuration, `saturation_sum` is the sum of the last four samples, wherever the pulse is. The
entry `t_event` of the configuration, which only switches a column of another reducer off, is taken for the time of the pulse. -/
theorem C52_false (reducers : List (ReducerClass Setting RedState (List (List ℚ)) ColVal))
    (hdist : DistinctColumns reducers) (hmem : saturation ∈ reducers) (load : String → Yaml Setting)
    (chain fin : List (Reducer Setting RedState (List (List ℚ)) ColVal)) (events : List (List (List ℚ))) (outs : List (Dict String ColVal))
    (hb : newChain Setting.truthy reducers defaultSettings load none [] = .ok chain) (hrun : chainEvents chain events = .ok (fin, outs)) :
    outs.map (Dict.get? · "saturation_sum") = events.map fun ws => some (.perPixel (ws.map fun row => (row.drop (row.length - 4)).sum)) := by
  have hcfg : chainConfig defaultSettings load none [] = .ok defaultSettings := by
    unfold chainConfig
    simp only [Bool.false_eq_true, if_false]
    decide
  unfold newChain at hb
  rw [hcfg] at hb
  have h := saturation_chain reducers defaultSettings hdist hmem ⟨.flag true, by decide, by decide⟩ (by decide) chain fin events outs hb hrun
  have ht : ∀ ws, extractionTime defaultSettings "t_event" ws = .ok 0 := by
    intro ws
    unfold extractionTime
    rw [show Dict.get? defaultSettings "t_event" = some (.flag false) by decide]
    rfl
  have h' : (outs.map (Dict.get? · "saturation_sum")).map (fun o => o.map fun v => (Except.ok v : Except Err ColVal)) =
      (events.map fun ws => some (ColVal.perPixel (ws.map fun row => (row.drop (row.length - 4)).sum))).map
        (fun o => o.map fun v => (Except.ok v : Except Err ColVal)) := by
    rw [List.map_map, List.map_map]
    refine Eq.trans h (List.map_congr_left fun ws _ => ?_)
    rw [ht]
    simp only [Function.comp, Option.map_some]
    congr 3
    refine List.map_congr_left fun row _ => ?_
    rw [show (0 : Int) - 4 = -((4 : Nat) : Int) by norm_num, sliceList_last row 4 (by omega)]
  refine List.map_injective_iff.2 ?_ h'
  intro a b hab
  cases a <;> cases b <;> simp_all

/-- a pulse at sample 15 of 30: the column is 0, the sum from before the pulse to the end is 9; a case for `C52_false` -/
example : ∃ chain fin, newChain Setting.truthy [averageWf, saturation, common] defaultSettings (fun _ => .null) none [] = .ok chain ∧
    chainEvents chain [[List.replicate 14 0 ++ [2, 5, 2] ++ List.replicate 13 0]] = .ok fin ∧
    fin.2.map (Dict.get? · "saturation_sum") = [some (.perPixel [0])] ∧ fin.2.map (Dict.get? · "t_averagewf") = [some (.scalar 15)] := by
  refine ⟨_, _, rfl, rfl, ?_, ?_⟩ <;> decide +kernel

/-- C52, what holds (missing: configurations that mention the column `t_event`): for waveforms of at least 20 samples, the saturation sum is
the sum of all samples from four before the common time to the end. -/
theorem C52_partial (reducers : List (ReducerClass Setting RedState (List (List ℚ)) ColVal)) (config : Config Setting)
    (hdist : DistinctColumns reducers) (hmem : saturation ∈ reducers) (hen : Enabled Setting.truthy config "saturation_sum")
    (hshift : Dict.get? config "window_shift" = none) (hev : Dict.get? config "t_event" = none)
    (chain fin : List (Reducer Setting RedState (List (List ℚ)) ColVal)) (events : List (List (List ℚ))) (outs : List (Dict String ColVal))
    (hb : buildChain Setting.truthy reducers config = .ok chain) (hrun : chainEvents chain events = .ok (fin, outs))
    (n : Nat) (hn : 20 ≤ n) (hw : ∀ ws ∈ events, Event n ws) (i : Nat) (ws : List (List ℚ)) (hi : events[i]? = some ws) :
    ∃ p d, FirstMax n (cameraSum ws) p ∧ outs[i]? = some d ∧
      Dict.get? d "saturation_sum" = some (.perPixel (ws.map fun row => windowSum row (min (max p 10) (n - 10) - 4) (n - (min (max p 10) (n - 10) - 4)))) := by
  have h := saturation_chain reducers config hdist hmem hen hshift chain fin events outs hb hrun
  have hws := hw ws (List.mem_of_getElem? hi)
  obtain ⟨p, hp, ht⟩ := defaultTime_clamped n ws hws hn
  have hi' := congrArg (fun l => l[i]?) h
  simp only [List.getElem?_map, hi, Option.map_some] at hi'
  have hx : extractionTime config "t_event" ws = .ok ((clampedTime n p : Nat) : Int) := by unfold extractionTime; rw [hev]; exact ht
  rw [hx] at hi'
  obtain ⟨d, hd, hd'⟩ := Option.map_eq_some_iff.1 hi'
  obtain ⟨v, hv, hv'⟩ := Option.map_eq_some_iff.1 hd'
  refine ⟨p, d, hp, hd, ?_⟩
  rw [hv]
  injection hv' with hv'
  rw [hv']
  congr 2
  refine List.map_congr_left fun row hr => ?_
  have hl := hws.2 row hr
  have hc : clampedTime n p = min (max p 10) (n - 10) := rfl
  rw [← hc, show ((clampedTime n p : Nat) : Int) - 4 = ((clampedTime n p - 4 : Nat) : Int) by omega, sliceList_from row _ (by omega),
    drop_sum row _ (by omega), hl]

/-- a case for `C52_partial` -/
example : ∃ chain fin, buildChain Setting.truthy [averageWf, saturation] [("saturation_sum", .flag true)] = .ok chain ∧
    chainEvents chain [[List.replicate 14 0 ++ [2, 5, 2] ++ List.replicate 13 0]] = .ok fin ∧
    fin.2 = [[("saturation_sum", .perPixel [9])]] := by
  refine ⟨_, _, rfl, rfl, ?_⟩
  decide +kernel

/-! ## C73 -/

/-- C73: for waveforms of at least 20 samples the baseline columns are the mean and variance of the first and of the last 20 samples; the maximum
is a sample that no sample exceeds. -/
theorem C73_baselines (kwargs : Config Setting) (n : Nat) (hn : 20 ≤ n) (ws : List (List ℚ)) (hw : Event n ws) (s : RedState) :
    ∃ s', common.prepare kwargs s ws = .ok s' ∧
      common.value kwargs s' "baseline_start_mean" = .ok (.perPixel (ws.map fun row => windowSum row 0 20 / 20)) ∧
      common.value kwargs s' "baseline_end_mean" = .ok (.perPixel (ws.map fun row => windowSum row (n - 20) 20 / 20)) ∧
      common.value kwargs s' "waveform_mean" = .ok (.perPixel (ws.map fun row => windowSum row 0 n / n)) ∧
      ∃ m, common.value kwargs s' "waveform_max" = .ok (.perPixel m) ∧ m.length = ws.length ∧
        ∀ (i : Nat) row x, ws[i]? = some row → m[i]? = some x → x ∈ row ∧ ∀ y ∈ row, y ≤ x := by
  refine ⟨⟨ws, 0⟩, rfl, ?_, ?_, ?_, ?_⟩
  · have e : common.value kwargs ⟨ws, 0⟩ "baseline_start_mean" = .ok (.perPixel (ws.map fun r => mean (sliceList r (some 0) (some 20)))) := by
      simp [common]
    rw [e]
    congr 2
    refine List.map_congr_left fun row hr => ?_
    have hl := hw.2 row hr
    have e : sliceList row (some 0) (some 20) = (row.drop 0).take 20 := sliceList_nat row 0 20 (by omega) (by omega)
    unfold mean
    rw [e, take_drop_sum row 0 20 (by omega)]
    simp [hl, hn]
  · have e : common.value kwargs ⟨ws, 0⟩ "baseline_end_mean" = .ok (.perPixel (ws.map fun r => mean (sliceList r (some (-20)) none))) := by
      simp [common]
    rw [e]
    congr 2
    refine List.map_congr_left fun row hr => ?_
    have hl := hw.2 row hr
    have e : sliceList row (some (-20)) none = row.drop (row.length - 20) := sliceList_last row 20 (by omega)
    unfold mean
    rw [e, drop_sum row _ (by omega), List.length_drop, hl, show n - (n - 20) = 20 by omega]
    norm_num
  · have e : common.value kwargs ⟨ws, 0⟩ "waveform_mean" = .ok (.perPixel (ws.map mean)) := by
      simp [common]
    rw [e]
    congr 2
    refine List.map_congr_left fun row hr => ?_
    have hl := hw.2 row hr
    have := drop_sum row 0 (by omega)
    unfold mean
    rw [List.drop_zero, Nat.sub_zero] at this
    rw [this, hl]
  · obtain ⟨m, hm⟩ := perPixel_ok rowMax ws fun r hr => rowMax_ok r (by intro h; have := hw.2 r hr; rw [h] at this; simp at this; omega)
    have hmap := (perPixel_spec rowMax ws m).1 hm
    refine ⟨m, by simp [common, hm], by have := congrArg List.length hmap; simpa using this.symm, ?_⟩
    intro i row x hi hx
    have := congrArg (fun l => l[i]?) hmap
    simp only [List.getElem?_map, hi, hx, Option.map_some, Option.some.injEq] at this
    exact (rowMax_spec row x).1 this

/-- C73: the squares of the `_rms` columns are the mean squared deviations from the corresponding means, hence never negative. -/
theorem C73_rms (kwargs : Config Setting) (ws : List (List ℚ)) :
    common.value kwargs ⟨ws, 0⟩ "waveform_rms" = .ok (.perPixel (ws.map fun r => mean (r.map fun x => (x - mean r) ^ 2))) ∧
    (∀ r ∈ ws, 0 ≤ mean (r.map fun x => (x - mean r) ^ 2)) ∧
    (∀ r ∈ ws, r ≠ [] → (mean (r.map fun x => (x - mean r) ^ 2) = 0 ↔ ∀ x ∈ r, x = mean r)) := by
  have hnn : ∀ r : List ℚ, 0 ≤ (r.map fun x => (x - mean r) ^ 2).sum := by
    intro r
    refine List.sum_nonneg ?_
    intro y hy
    obtain ⟨x, -, rfl⟩ := List.mem_map.1 hy
    positivity
  refine ⟨by simp [common, variance], fun r _ => ?_, fun r _ hr => ?_⟩
  · exact div_nonneg (hnn r) (by positivity)
  · have hpos : (0 : ℚ) < ((r.map fun x => (x - mean r) ^ 2).length : ℚ) := by
      rw [List.length_map]; exact_mod_cast List.length_pos_iff.2 hr
    unfold mean at *
    rw [div_eq_zero_iff]
    constructor
    · rintro (h | h)
      · intro x hx
        have := List.all_zero_of_le_zero_le_of_sum_eq_zero (l := r.map fun x => (x - r.sum / r.length) ^ 2) (by
          intro y hy
          obtain ⟨x, -, rfl⟩ := List.mem_map.1 hy
          positivity) h (List.mem_map.2 ⟨x, hx, rfl⟩)
        have := pow_eq_zero_iff (two_ne_zero) |>.1 this
        linarith
      · exact absurd h (ne_of_gt hpos)
    · intro h
      left
      refine List.sum_eq_zero ?_
      intro y hy
      obtain ⟨x, hx, rfl⟩ := List.mem_map.1 hy
      rw [h x hx]
      simp

/-- C73: the squares of the `_rms` columns of the two baselines are the mean squared deviations of the first and of the last 20 samples from their means. -/
theorem C73_baseline_rms (kwargs : Config Setting) (n : Nat) (hn : 20 ≤ n) (ws : List (List ℚ)) (hw : Event n ws) (s : RedState) :
    ∃ s', common.prepare kwargs s ws = .ok s' ∧
      common.value kwargs s' "baseline_start_rms" = .ok (.perPixel (ws.map fun row =>
        ((row.take 20).map fun x => (x - windowSum row 0 20 / 20) ^ 2).sum / 20)) ∧
      common.value kwargs s' "baseline_end_rms" = .ok (.perPixel (ws.map fun row =>
        ((row.drop (n - 20)).map fun x => (x - windowSum row (n - 20) 20 / 20) ^ 2).sum / 20)) := by
  refine ⟨⟨ws, 0⟩, rfl, ?_, ?_⟩
  · have e : common.value kwargs ⟨ws, 0⟩ "baseline_start_rms" = .ok (.perPixel (ws.map fun r => variance (sliceList r (some 0) (some 20)))) := by
      simp [common]
    rw [e]
    congr 2
    refine List.map_congr_left fun row hr => ?_
    have hl := hw.2 row hr
    have e : sliceList row (some 0) (some 20) = (row.drop 0).take 20 := sliceList_nat row 0 20 (by omega) (by omega)
    unfold variance mean
    rw [e, take_drop_sum row 0 20 (by omega)]
    simp [hl, hn]
  · have e : common.value kwargs ⟨ws, 0⟩ "baseline_end_rms" = .ok (.perPixel (ws.map fun r => variance (sliceList r (some (-20)) none))) := by
      simp [common]
    rw [e]
    congr 2
    refine List.map_congr_left fun row hr => ?_
    have hl := hw.2 row hr
    have e : sliceList row (some (-20)) none = row.drop (row.length - 20) := sliceList_last row 20 (by omega)
    unfold variance mean
    rw [e, drop_sum row _ (by omega), List.length_map, List.length_drop, hl, show n - (n - 20) = 20 by omega]
    norm_num

/-- C73: every column of `Common` has a value, for every event with samples; other names have none. -/
theorem C73_columns (kwargs : Config Setting) (n : Nat) (hn : 0 < n) (ws : List (List ℚ)) (hw : Event n ws) (name : String) :
    (name ∈ ["baseline_start_mean", "baseline_start_rms", "baseline_end_mean", "baseline_end_rms", "waveform_mean", "waveform_rms", "waveform_max"] ↔ name ∈ common.columns) ∧
    (name ∈ common.columns → ∃ xs, common.value kwargs ⟨ws, 0⟩ name = .ok (.perPixel xs) ∧ xs.length = ws.length) ∧
    (name ∉ common.columns → common.value kwargs ⟨ws, 0⟩ name = .error .attributeError) := by
  obtain ⟨m, hm⟩ := perPixel_ok rowMax ws fun r hr => rowMax_ok r (by intro h; have := hw.2 r hr; rw [h] at this; simp at this; omega)
  have hmap := (perPixel_spec rowMax ws m).1 hm
  have hlen : m.length = ws.length := by have := congrArg List.length hmap; simpa using this.symm
  refine ⟨Iff.rfl, fun h => ?_, fun h => ?_⟩
  · simp only [common, List.mem_cons, List.not_mem_nil, or_false] at h
    rcases h with rfl | rfl | rfl | rfl | rfl | rfl | rfl <;> simp [common, hm, hlen]
  · simp only [common, List.mem_cons, List.not_mem_nil, or_false, not_or] at h
    simp [common, h]

example : common.value [] ⟨[List.replicate 20 1 ++ [5] ++ List.replicate 19 2], 0⟩ "waveform_max" = .ok (.perPixel [5]) ∧
    common.value [] ⟨[List.replicate 20 1 ++ [5] ++ List.replicate 20 2], 0⟩ "baseline_end_mean" = .ok (.perPixel [2]) := by decide +kernel

/-! ## C60 -/

theorem mem_map_ok {f : List ℚ → Except Err ℚ} {ws : List (List ℚ)} {xs : List ℚ} (h : perPixel f ws = .ok xs) :
    xs.length = ws.length ∧ ∀ (i : Nat) r x, ws[i]? = some r → xs[i]? = some x → f r = .ok x := by
  have hmap := (perPixel_spec f ws xs).1 h
  refine ⟨by have := congrArg List.length hmap; simpa using this.symm, fun i r x hi hx => ?_⟩
  have := congrArg (fun l => l[i]?) hmap
  simpa only [List.getElem?_map, hi, hx, Option.map_some, Option.some.injEq] using this

theorem sumRows_get (n : Nat) (rows : List (List ℚ)) (j : Nat) (hj : j < n) : (sumRows n rows)[j]? = some (cameraSum rows j) := by
  unfold sumRows
  rw [List.getElem?_map, List.getElem?_range hj]
  rfl

theorem sumRows_length (n : Nat) (rows : List (List ℚ)) : (sumRows n rows).length = n := by simp [sumRows]

theorem argmax_sumRows (n : Nat) (rows : List (List ℚ)) (p : Nat) : argmax (sumRows n rows) = .ok p ↔ FirstMax n (cameraSum rows) p := by
  constructor
  · intro h
    obtain ⟨m, h1, h2, h3⟩ := argmax_spec _ _ h
    have hp : p < n := by have := (List.getElem?_eq_some_iff.1 h1).1; rwa [sumRows_length] at this
    rw [sumRows_get n rows p hp, Option.some.injEq] at h1
    subst h1
    exact ⟨hp, fun j hj => h3 j _ (sumRows_get n rows j hj), fun j hj => h2 j hj _ (sumRows_get n rows j (by omega))⟩
  · rintro ⟨hp, h1, h2⟩
    refine argmax_unique _ p _ (sumRows_get n rows p hp) ?_ ?_
    · intro k hk y hy
      rw [sumRows_get n rows k (by omega), Option.some.injEq] at hy
      rw [← hy]; exact h2 k hk
    · intro k y hy
      have hk : k < n := by have := (List.getElem?_eq_some_iff.1 hy).1; rwa [sumRows_length] at this
      rw [sumRows_get n rows k hk, Option.some.injEq] at hy
      rw [← hy]; exact h1 k hk

/-- the combined waveform of the superpixel of pixel `p` -/
def combined (ws : List (List ℚ)) (p j : Nat) : ℚ :=
  (ws.getD (4 * (p / 4)) []).getD j 0 + (ws.getD (4 * (p / 4) + 1) []).getD j 0 + (ws.getD (4 * (p / 4) + 2) []).getD j 0 +
    (ws.getD (4 * (p / 4) + 3) []).getD j 0

theorem cameraSum_superpixel (ws : List (List ℚ)) (p j : Nat) (h : 4 * (p / 4) + 4 ≤ ws.length) :
    cameraSum ((ws.drop (4 * (p / 4))).take 4) j = combined ws p j := by
  have e : (ws.drop (4 * (p / 4))).take 4 = [ws.getD (4 * (p / 4)) [], ws.getD (4 * (p / 4) + 1) [], ws.getD (4 * (p / 4) + 2) [],
      ws.getD (4 * (p / 4) + 3) []] := by
    refine List.ext_getElem? fun i => ?_
    rw [List.getElem?_take, List.getElem?_drop]
    match i with
    | 0 => simp [List.getElem?_eq_getElem (show 4 * (p / 4) < ws.length by omega)]
    | 1 => simp [List.getElem?_eq_getElem (show 4 * (p / 4) + 1 < ws.length by omega)]
    | 2 => simp [List.getElem?_eq_getElem (show 4 * (p / 4) + 2 < ws.length by omega)]
    | 3 => simp [List.getElem?_eq_getElem (show 4 * (p / 4) + 3 < ws.length by omega)]
    | k + 4 => simp
  rw [e]
  unfold cameraSum combined
  simp only [List.map_cons, List.map_nil, List.sum_cons, List.sum_nil]
  ring

/-- C60: for a camera of `4 k` pixels every pixel reports the maximum of the summed waveform of the four pixels of its superpixel and the
first sample at which it is reached. -/
theorem C60_superpixel (k n : Nat) (hn : 0 < n) (ws : List (List ℚ)) (hw : ws.length = 4 * k) :
    ∃ am mx, spColumn rowArgmax (4 * k) n ws = .ok am ∧ spColumn rowMax (4 * k) n ws = .ok mx ∧ am.length = 4 * k ∧ mx.length = 4 * k ∧
      ∀ p < 4 * k, ∃ t : Nat, FirstMax n (combined ws p) t ∧ am[p]? = some (t : ℚ) ∧ mx[p]? = some (combined ws p t) := by
  have hk : 4 * k / 4 = k := by omega
  have hsp : spWaveforms (4 * k) n ws = .ok ((superpixels k ws).map (sumRows n)) := by
    unfold spWaveforms
    rw [hk, if_pos (by rw [hw, Nat.mul_comm k 4])]
  have hlen : ((superpixels k ws).map (sumRows n)).length = k := by simp [superpixels]
  have hrow : ∀ i < k, ((superpixels k ws).map (sumRows n))[i]? = some (sumRows n ((ws.drop (4 * i)).take 4)) := by
    intro i hi
    unfold superpixels
    rw [List.getElem?_map, List.getElem?_map, List.getElem?_range hi]
    rfl
  have hne : ∀ r ∈ (superpixels k ws).map (sumRows n), r ≠ [] := by
    intro r hr he
    obtain ⟨x, -, hx⟩ := List.mem_map.1 hr
    have := sumRows_length n x
    rw [hx, he] at this
    simp at this
    omega
  obtain ⟨am, ham⟩ := perPixel_ok rowArgmax ((superpixels k ws).map (sumRows n)) fun r hr => by
    obtain ⟨i, hi, -⟩ := argmax_ok r (hne r hr)
    exact ⟨i, by unfold rowArgmax; rw [hi]⟩
  obtain ⟨mx, hmx⟩ := perPixel_ok rowMax ((superpixels k ws).map (sumRows n)) fun r hr => rowMax_ok r (hne r hr)
  obtain ⟨la, fa⟩ := mem_map_ok ham
  obtain ⟨lm, fm⟩ := mem_map_ok hmx
  rw [hlen] at la lm
  refine ⟨repeatEach 4 am, repeatEach 4 mx, by unfold spColumn; rw [hsp]; simp only [ham], by unfold spColumn; rw [hsp]; simp only [hmx],
    by rw [repeatEach_length, la]; omega, by rw [repeatEach_length, lm]; omega, ?_⟩
  intro p hp
  have hpk : p / 4 < k := by omega
  rw [repeatEach_getElem? 4 (by omega), repeatEach_getElem? 4 (by omega)]
  have ga : am[p / 4]? = some (am[p / 4]'(by omega)) := List.getElem?_eq_getElem _
  have gm : mx[p / 4]? = some (mx[p / 4]'(by omega)) := List.getElem?_eq_getElem _
  have h1 := fa _ _ _ (hrow _ hpk) ga
  have h2 := fm _ _ _ (hrow _ hpk) gm
  have hcomb : cameraSum ((ws.drop (4 * (p / 4))).take 4) = combined ws p := funext fun j => cameraSum_superpixel ws p j (by omega)
  unfold rowArgmax at h1
  cases hamax : argmax (sumRows n ((ws.drop (4 * (p / 4))).take 4)) with
  | error e => rw [hamax] at h1; cases h1
  | ok t =>
    rw [hamax, Except.ok.injEq] at h1
    have hfm := (argmax_sumRows n _ t).1 hamax
    rw [hcomb] at hfm
    refine ⟨t, hfm, by rw [ga, ← h1], ?_⟩
    rw [gm]
    congr 1
    obtain ⟨m1, m2⟩ := (rowMax_spec _ _).1 h2
    obtain ⟨j, hj⟩ := List.getElem?_of_mem m1
    have hjn : j < n := by have := (List.getElem?_eq_some_iff.1 hj).1; rwa [sumRows_length] at this
    rw [sumRows_get n _ j hjn, hcomb, Option.some.injEq] at hj
    refine le_antisymm ?_ ?_
    · rw [← hj]; exact hfm.2.1 j hjn
    · have hmem := List.mem_of_getElem? (sumRows_get n ((ws.drop (4 * (p / 4))).take 4) t hfm.1)
      rw [hcomb] at hmem
      exact m2 _ hmem

/-- C60: a number of pixels that does not fit the superpixels is refused -/
theorem C60_refused (nPixels n : Nat) (hn : 0 < n) (ws : List (List ℚ)) (h : ws.length ≠ nPixels / 4 * 4) (f : List ℚ → Except Err ℚ) :
    spColumn f nPixels n ws = .error .valueError := by
  unfold spColumn spWaveforms
  rw [if_neg]
  intro he
  exact h (Nat.eq_of_mul_eq_mul_right hn he)

example : spColumn rowMax 8 3 [[0, 1, 0], [0, 1, 0], [2, 0, 0], [0, 1, 0], [0, 0, 1], [0, 0, 1], [0, 0, 1], [0, 0, 4]] = .ok [3, 3, 3, 3, 7, 7, 7, 7] ∧
    spColumn rowArgmax 8 3 [[0, 1, 0], [0, 1, 0], [2, 0, 0], [0, 1, 0], [0, 0, 1], [0, 0, 1], [0, 0, 1], [0, 0, 4]] = .ok [1, 1, 1, 1, 2, 2, 2, 2] := by
  decide +kernel

/-! ## C59 -/

/-- average over the 64 pixels of a module of the largest sample of each -/
def AveragePeak (ws : List (List ℚ)) (tm : Nat) (x : ℚ) : Prop :=
  ∃ peaks : List ℚ, peaks.length = 64 ∧ x = peaks.sum / 64 ∧
    ∀ i < 64, ∃ row y, ws[64 * tm + i]? = some row ∧ peaks[i]? = some y ∧ y ∈ row ∧ ∀ z ∈ row, z ≤ y

theorem tmAverage_spec (ws : List (List ℚ)) (peaks : List ℚ) (h : perPixel rowMax ws = .ok peaks) (tm : Nat) (htm : 64 * tm + 64 ≤ ws.length) :
    ∃ x, tmAverage peaks tm = some x ∧ AveragePeak ws tm x := by
  obtain ⟨hl, hf⟩ := mem_map_ok h
  have hlen : ((peaks.drop (64 * tm)).take 64).length = 64 := by rw [List.length_take, List.length_drop]; omega
  have hne : (peaks.drop (64 * tm)).take 64 ≠ [] := by intro he; rw [he] at hlen; simp at hlen
  refine ⟨mean ((peaks.drop (64 * tm)).take 64), ?_, (peaks.drop (64 * tm)).take 64, hlen, ?_, ?_⟩
  · unfold tmAverage
    split
    · rename_i he; exact absurd he hne
    · rfl
  · unfold mean; rw [hlen]; norm_num
  · intro i hi
    have g1 : ws[64 * tm + i]? = some (ws[64 * tm + i]'(by omega)) := List.getElem?_eq_getElem _
    have g2 : peaks[64 * tm + i]? = some (peaks[64 * tm + i]'(by omega)) := List.getElem?_eq_getElem _
    obtain ⟨a, b⟩ := (rowMax_spec _ _).1 (hf _ _ _ g1 g2)
    refine ⟨_, _, g1, ?_, a, b⟩
    rw [List.getElem?_take, if_pos hi, List.getElem?_drop]
    exact g2

/-- C59: for a camera that has modules 5, 8, 23 and 26, with non-empty waveforms: the unit is -1 exactly if one of the four average pulse heights
is below 30, otherwise the first of the largest ones, in the order 5, 23, 8, 26. -/
theorem C59_unit (ws : List (List ℚ)) (hlen : 1728 ≤ ws.length) (hne : ∀ r ∈ ws, r ≠ []) :
    ∃ (u : Int) (avg : Nat → ℚ), flasherUnit ws = .ok u ∧
      (AveragePeak ws 5 (avg 0) ∧ AveragePeak ws 23 (avg 1) ∧ AveragePeak ws 8 (avg 2) ∧ AveragePeak ws 26 (avg 3)) ∧
      (u = -1 ↔ ∃ i < 4, avg i < 30) ∧ (u ≠ -1 → ∃ k : Nat, u = k ∧ FirstMax 4 avg k) := by
  obtain ⟨peaks, hp⟩ := perPixel_ok rowMax ws fun r hr => rowMax_ok r (hne r hr)
  obtain ⟨x0, e0, a0⟩ := tmAverage_spec ws peaks hp 5 (by omega)
  obtain ⟨x1, e1, a1⟩ := tmAverage_spec ws peaks hp 23 (by omega)
  obtain ⟨x2, e2, a2⟩ := tmAverage_spec ws peaks hp 8 (by omega)
  obtain ⟨x3, e3, a3⟩ := tmAverage_spec ws peaks hp 26 (by omega)
  have hu : flasherUnit ws = if x0 < 30 ∨ x1 < 30 ∨ x2 < 30 ∨ x3 < 30 then .ok (-1) else
      match argmax [x0, x1, x2, x3] with
      | .error e => .error e
      | .ok i => .ok (i : Int) := by
    unfold flasherUnit
    simp only [hp, List.map_cons, List.map_nil, e0, e1, e2, e3]
    simp only [List.any_cons, List.any_nil, Bool.or_false, Bool.or_eq_true, decide_eq_true_eq, Option.getD_some]
    rfl
  obtain ⟨i, hi, hi4⟩ := argmax_ok [x0, x1, x2, x3] (by simp)
  rw [hi] at hu
  let avg : Nat → ℚ := fun i => [x0, x1, x2, x3].getD i 0
  have havg : ∀ j < 4, [x0, x1, x2, x3][j]? = some (avg j) := by
    intro j hj
    match j, hj with
    | 0, _ => rfl
    | 1, _ => rfl
    | 2, _ => rfl
    | 3, _ => rfl
  have hlow : (x0 < 30 ∨ x1 < 30 ∨ x2 < 30 ∨ x3 < 30) ↔ ∃ i < 4, avg i < 30 := by
    constructor
    · rintro (h | h | h | h)
      · exact ⟨0, by omega, h⟩
      · exact ⟨1, by omega, h⟩
      · exact ⟨2, by omega, h⟩
      · exact ⟨3, by omega, h⟩
    · rintro ⟨j, hj, h⟩
      match j, hj with
      | 0, _ => exact Or.inl h
      | 1, _ => exact Or.inr (Or.inl h)
      | 2, _ => exact Or.inr (Or.inr (Or.inl h))
      | 3, _ => exact Or.inr (Or.inr (Or.inr h))
  by_cases hc : x0 < 30 ∨ x1 < 30 ∨ x2 < 30 ∨ x3 < 30
  · rw [if_pos hc] at hu
    exact ⟨-1, avg, hu, ⟨a0, a1, a2, a3⟩, ⟨fun _ => hlow.1 hc, fun _ => rfl⟩, fun h => absurd rfl h⟩
  · rw [if_neg hc] at hu
    refine ⟨i, avg, hu, ⟨a0, a1, a2, a3⟩, ⟨fun h => by omega, fun h => absurd (hlow.2 h) hc⟩, fun _ => ⟨i, rfl, ?_⟩⟩
    obtain ⟨m, h1, h2, h3⟩ := argmax_spec _ _ hi
    have hi4' : i < 4 := by simpa using hi4
    rw [havg i hi4', Option.some.injEq] at h1
    subst h1
    exact ⟨hi4', fun j hj => h3 j _ (havg j hj), fun j hj => h2 j hj _ (havg j (by omega))⟩

/-- outside the quantifier of C59: on a camera without pixels the (missing) module 5 is reported as flashing -/
theorem C59_missing_module : flasherUnit [] = .ok 0 := by decide

example : ∃ u, flasherUnit (List.replicate 1728 [0, 40, 0]) = .ok u ∧ (1728 ≤ (List.replicate 1728 ([0, 40, 0] : List ℚ)).length) := by
  obtain ⟨u, -, h, -⟩ := C59_unit (List.replicate 1728 [0, 40, 0]) (by rw [List.length_replicate]) (fun r hr => by rw [(List.mem_replicate.1 hr).2]; simp)
  exact ⟨u, h, by rw [List.length_replicate]⟩

end Verif.Props
