import Verif.Props.Relabel
import Mathlib.Tactic.FieldSimp

/-!
# Gain (C132)
-/

namespace Verif.Props

open Verif.Py Verif.Model Verif.Spec Verif.Lemmas

/-- the event with every sample multiplied by `g` -/
def amplified (g : ℚ) (ws : List (List ℚ)) : List (List ℚ) := ws.map fun r => r.map (g * ·)

/-- a column multiplied by a number; values of the whole event (extraction times) are kept -/
def timesCol (f : ℚ) : ColVal → ColVal
  | .scalar x => .scalar x
  | .perPixel xs => .perPixel (xs.map (f * ·))

/-- the square of a standard deviation grows with the square of the gain, all other values with the gain -/
def gainFactor (name : String) (g : ℚ) : ℚ :=
  if name ∈ ["baseline_start_rms", "baseline_end_rms", "waveform_rms"] then g ^ 2 else g

theorem sum_map_times (g : ℚ) (xs : List ℚ) : (xs.map (g * ·)).sum = g * xs.sum := by
  induction xs with
  | nil => simp
  | cons x xs ih => simp only [List.map_cons, List.sum_cons, ih]; ring

theorem mean_times (g : ℚ) (xs : List ℚ) : mean (xs.map (g * ·)) = g * mean xs := by
  unfold mean
  rw [sum_map_times, List.length_map]
  ring

theorem variance_times (g : ℚ) (xs : List ℚ) : variance (xs.map (g * ·)) = g ^ 2 * variance xs := by
  unfold variance
  have e := mean_times g xs
  rw [← mean_times (g ^ 2), e]
  congr 1
  rw [List.map_map, List.map_map]
  apply List.map_congr_left
  intro x _
  simp only [Function.comp]
  ring

theorem getD_times (g : ℚ) (r : List ℚ) (j : Nat) : (r.map (g * ·)).getD j 0 = g * r.getD j 0 := by
  rw [List.getD_eq_getElem?_getD, List.getD_eq_getElem?_getD, List.getElem?_map]
  cases r[j]? <;> simp

theorem colMeans_times (g : ℚ) (n : Nat) (ws : List (List ℚ)) : colMeans n (amplified g ws) = (colMeans n ws).map (g * ·) := by
  unfold colMeans column amplified
  rw [List.map_map]
  apply List.map_congr_left
  intro j _
  simp only [Function.comp]
  rw [← mean_times, List.map_map, List.map_map]
  congr 1
  apply List.map_congr_left
  intro r _
  exact getD_times g r j

theorem nSamples_times (g : ℚ) (ws : List (List ℚ)) : nSamples (amplified g ws) = nSamples ws := by
  cases ws with
  | nil => rfl
  | cons r rs => simp [amplified, nSamples]

theorem argmaxFrom_times (g : ℚ) (hg : 0 < g) (xs : List ℚ) (best i : Nat) (m : ℚ) :
    argmaxFrom best (g * m) i (xs.map (g * ·)) = argmaxFrom best m i xs := by
  induction xs generalizing best i m with
  | nil => rfl
  | cons x xs ih =>
    simp only [List.map_cons, argmaxFrom]
    by_cases h : m < x
    · rw [if_pos h, if_pos (by nlinarith), ih]
    · rw [if_neg h, if_neg (by push Not at h ⊢; nlinarith), ih]

theorem argmax_times (g : ℚ) (hg : 0 < g) (xs : List ℚ) : argmax (xs.map (g * ·)) = argmax xs := by
  cases xs with
  | nil => rfl
  | cons x xs => simp only [List.map_cons, argmax, argmaxFrom_times g hg]

theorem extractionTime_times (kwargs : Config Setting) (name : String) (g : ℚ) (hg : 0 < g) (ws : List (List ℚ)) :
    extractionTime kwargs name (amplified g ws) = extractionTime kwargs name ws := by
  unfold extractionTime defaultTime
  rw [nSamples_times, colMeans_times, argmax_times g hg]

theorem sliceList_map {α β : Type} (f : α → β) (r : List α) (a b : Option Int) : sliceList (r.map f) a b = (sliceList r a b).map f := by
  unfold sliceList
  simp only [List.length_map, List.map_drop, List.map_take]

theorem rowMax_times (g : ℚ) (hg : 0 < g) (r : List ℚ) : rowMax (r.map (g * ·)) = (rowMax r).map (g * ·) := by
  cases r with
  | nil => rfl
  | cons x xs =>
    simp only [List.map_cons, rowMax, Except.map]
    congr 1
    induction xs generalizing x with
    | nil => rfl
    | cons y ys ih =>
      simp only [List.map_cons, List.foldl_cons]
      rw [← ih, mul_max_of_nonneg _ _ hg.le]

theorem perPixel_times (f : List ℚ → Except Err ℚ) (g k : ℚ) (hf : ∀ r, f (r.map (g * ·)) = (f r).map (k * ·)) (ws : List (List ℚ)) :
    perPixel f (amplified g ws) = (perPixel f ws).map fun xs => xs.map (k * ·) := by
  induction ws with
  | nil => rfl
  | cons r rs ih =>
    unfold amplified at ih ⊢
    simp only [List.map_cons, perPixel]
    rw [hf, ih]
    cases f r with
    | error e => rfl
    | ok x => cases perPixel f rs <;> rfl

/-- **C132**, reducers of the chain: with the gain of all pixels changed, the extraction times stay, and every other value is multiplied by the gain (a variance by its square) -/
theorem C132_columns (c : ReducerClass Setting RedState (List (List ℚ)) ColVal) (hc : c ∈ [averageWf, saturation, common]) (kwargs : Config Setting) (g : ℚ) (hg : 0 < g)
    (ws : List (List ℚ)) (name : String) :
    columnOf c kwargs (amplified g ws) name = (columnOf c kwargs ws name).map (timesCol (gainFactor name g)) := by
  simp only [List.mem_cons, List.not_mem_nil, or_false] at hc
  have hmap : ∀ (f : List ℚ → ℚ) (k : ℚ), (∀ r, f (r.map (g * ·)) = k * f r) → (amplified g ws).map f = (ws.map f).map (k * ·) := by
    intro f k hf
    unfold amplified
    rw [List.map_map, List.map_map]
    exact List.map_congr_left fun r _ => hf r
  rcases hc with rfl | rfl | rfl
  · unfold columnOf averageWf
    simp only [extractionTime_times kwargs "t_extract" g hg ws]
    cases ht : extractionTime kwargs "t_extract" ws with
    | error e => rfl
    | ok t =>
      simp only
      by_cases h1 : name = "t_averagewf"
      · rw [if_pos h1, if_pos h1]; rfl
      rw [if_neg h1, if_neg h1]
      by_cases h2 : name = "charge_averagewf"
      · rw [if_pos h2, if_pos h2, hmap _ g (fun r => by rw [sliceList_map, sum_map_times])]
        subst h2
        rfl
      · rw [if_neg h2, if_neg h2]; rfl
  · unfold columnOf saturation
    simp only [extractionTime_times kwargs "t_event" g hg ws]
    by_cases h1 : name = "saturation_sum"
    · rw [if_pos h1, if_pos h1]
      cases ht : extractionTime kwargs "t_event" ws with
      | error e => rfl
      | ok t =>
        simp only
        rw [hmap _ g (fun r => by rw [sliceList_map, sum_map_times])]
        subst h1
        rfl
    · rw [if_neg h1, if_neg h1]; rfl
  · unfold columnOf common
    simp only
    by_cases c1 : name = "baseline_start_mean"
    · rw [if_pos c1, if_pos c1, hmap _ g (fun r => by rw [sliceList_map, mean_times])]; subst c1; rfl
    rw [if_neg c1, if_neg c1]
    by_cases c2 : name = "baseline_start_rms"
    · rw [if_pos c2, if_pos c2, hmap _ (g ^ 2) (fun r => by rw [sliceList_map, variance_times])]; subst c2; rfl
    rw [if_neg c2, if_neg c2]
    by_cases c3 : name = "baseline_end_mean"
    · rw [if_pos c3, if_pos c3, hmap _ g (fun r => by rw [sliceList_map, mean_times])]; subst c3; rfl
    rw [if_neg c3, if_neg c3]
    by_cases c4 : name = "baseline_end_rms"
    · rw [if_pos c4, if_pos c4, hmap _ (g ^ 2) (fun r => by rw [sliceList_map, variance_times])]; subst c4; rfl
    rw [if_neg c4, if_neg c4]
    by_cases c5 : name = "waveform_mean"
    · rw [if_pos c5, if_pos c5, hmap _ g (fun r => by rw [mean_times])]; subst c5; rfl
    rw [if_neg c5, if_neg c5]
    by_cases c6 : name = "waveform_rms"
    · rw [if_pos c6, if_pos c6, hmap _ (g ^ 2) (fun r => by rw [variance_times])]; subst c6; rfl
    rw [if_neg c6, if_neg c6]
    by_cases c7 : name = "waveform_max"
    · rw [if_pos c7, if_pos c7, perPixel_times rowMax g g (rowMax_times g hg)]
      subst c7
      cases perPixel rowMax ws <;> rfl
    · rw [if_neg c7, if_neg c7]; rfl

theorem correlateAt_times (g : ℚ) (r weights : List ℚ) (origin : Int) (i : Nat) :
    correlateAt (r.map (g * ·)) weights origin i = g * correlateAt r weights origin i := by
  unfold correlateAt
  rw [← sum_map_times, List.map_map]
  congr 1
  apply List.map_congr_left
  intro k _
  simp only [Function.comp]
  unfold padded
  split
  · rw [getD_times]; ring
  · ring

theorem correlate1d_times (g : ℚ) (r weights : List ℚ) (origin : Int) :
    correlate1d (r.map (g * ·)) weights origin = (correlate1d r weights origin).map fun c => c.map (g * ·) := by
  unfold correlate1d
  split
  · rfl
  · split
    · rfl
    · simp only [Except.map, List.length_map, List.map_map]
      congr 1
      apply List.map_congr_left
      intro i _
      exact correlateAt_times g r weights origin i

theorem correlateRows_times (g : ℚ) (weights : List ℚ) (origin : Int) (ws : List (List ℚ)) :
    correlateRows weights origin (amplified g ws) = (correlateRows weights origin ws).map (amplified g) := by
  induction ws with
  | nil => rfl
  | cons r rs ih =>
    unfold amplified at ih ⊢
    simp only [List.map_cons, correlateRows]
    rw [correlate1d_times, ih]
    cases correlate1d r weights origin with
    | error e => rfl
    | ok x => cases correlateRows weights origin rs <;> rfl

theorem argmaxRows_times (g : ℚ) (hg : 0 < g) (ws : List (List ℚ)) : argmaxRows (amplified g ws) = argmaxRows ws := by
  induction ws with
  | nil => rfl
  | cons r rs ih =>
    unfold amplified at ih ⊢
    simp only [List.map_cons, argmaxRows]
    rw [argmax_times g hg, ih]

theorem takePeaks_times (g : ℚ) (ws : List (List ℚ)) (ps : List Nat) : takePeaks (amplified g ws) ps = (takePeaks ws ps).map (g * ·) := by
  induction ws generalizing ps with
  | nil => rfl
  | cons r rs ih =>
    cases ps with
    | nil => rfl
    | cons p ps =>
      have := ih ps
      unfold takePeaks amplified at this ⊢
      simp only [List.map_cons, List.zipWith_cons_cons]
      rw [this, getD_times]

/-- attributes of a cross-correlation reducer after an event with a different gain: the extraction samples stay -/
def amplifiedState (g : ℚ) (s : CcState) : CcState := ⟨amplified g s.cc, s.peaks, s.charge.map (g * ·)⟩

theorem extractPulseTime_times (g : ℚ) (hg : 0 < g) (beyond : Option ℚ) (row : List ℚ) (p : Nat) :
    extractPulseTime (beyond.map (g * ·)) (row.map (g * ·)) p = extractPulseTime beyond row p := by
  unfold extractPulseTime
  simp only [List.length_map, getD_times]
  have e0 : (if p = 0 then g * row.getD (row.length - 1) 0 else g * row.getD (p - 1) 0) =
      g * (if p = 0 then row.getD (row.length - 1) 0 else row.getD (p - 1) 0) := by split <;> rfl
  have e2 : (if p + 1 < row.length then some (g * row.getD (p + 1) 0) else beyond.map (g * ·)) =
      (if p + 1 < row.length then some (row.getD (p + 1) 0) else beyond).map (g * ·) := by split <;> rfl
  rw [e0, e2]
  generalize (if p = 0 then row.getD (row.length - 1) 0 else row.getD (p - 1) 0) = y0
  generalize (if p + 1 < row.length then some (row.getD (p + 1) 0) else beyond) = o
  generalize row.getD p 0 = y1
  cases o with
  | none => rfl
  | some y2 =>
    simp only [Option.map_some]
    have hb : g * y0 - 2 * (g * y1) + g * y2 = g * (y0 - 2 * y1 + y2) := by ring
    have ha : g * y0 - g * y2 = g * (y0 - y2) := by ring
    rw [hb, ha]
    by_cases h : y0 - 2 * y1 + y2 = 0
    · rw [if_pos h, if_pos (by rw [h, mul_zero])]
    · rw [if_neg h, if_neg (mul_ne_zero hg.ne' h)]
      have : 1 / 2 * (g * (y0 - y2)) / (g * (y0 - 2 * y1 + y2)) = 1 / 2 * (y0 - y2) / (y0 - 2 * y1 + y2) := by
        have := hg.ne'
        field_simp
      rw [this]

theorem pulseTimes_times (g : ℚ) (hg : 0 < g) (after : Option ℚ) (ws : List (List ℚ)) (ps : List Nat) :
    pulseTimes (after.map (g * ·)) (amplified g ws) ps = pulseTimes after ws ps := by
  induction ws generalizing ps with
  | nil => rfl
  | cons r rs ih =>
    cases ps with
    | nil => rfl
    | cons p ps =>
      have := ih ps
      unfold amplified at this ⊢
      simp only [List.map_cons, pulseTimes]
      rw [this]
      congr 1
      cases rs with
      | nil => exact extractPulseTime_times g hg after r p
      | cons next rest =>
        rw [← extractPulseTime_times g hg next.head? r p]
        simp

/-- **C132**, cross correlation: with the gain of all pixels changed, extraction samples and pulse times stay and charges and heights are multiplied by the gain. The time of the last
pixel may depend on the memory behind the waveforms, which is multiplied too here. -/
theorem C132_cross_correlation (r : CcReducer) (g : ℚ) (hg : 0 < g) (ws : List (List ℚ)) :
    ccPrepare r (amplified g ws) = (ccPrepare r ws).map (amplifiedState g) ∧
    ccLocalPrepare r (amplified g ws) = (ccLocalPrepare r ws).map (amplifiedState g) ∧
    ∀ s, chargeCc (amplifiedState g s) = (chargeCc s).map (g * ·) ∧
      heightCc r (amplifiedState g s) = (heightCc r s).map (fun hs => hs.map (g * ·)) ∧
      ∀ after : Option ℚ, timeCc (after.map (g * ·)) (amplifiedState g s) = timeCc after s := by
  refine ⟨?_, ?_, fun s => ⟨rfl, ?_, fun after => pulseTimes_times g hg after s.cc s.peaks⟩⟩
  · unfold ccPrepare
    rw [correlateRows_times]
    cases correlateRows r.reference r.origin ws with
    | error e => rfl
    | ok cc =>
      simp only [Except.map]
      rw [nSamples_times, colMeans_times, argmax_times g hg]
      cases argmax (colMeans (nSamples cc) cc) with
      | error e => rfl
      | ok p =>
        simp only [amplifiedState]
        rw [takePeaks_times]
        have : (amplified g cc).map (fun _ => p) = cc.map fun _ => p := by unfold amplified; rw [List.map_map]; rfl
        rw [this]
  · unfold ccLocalPrepare
    rw [correlateRows_times]
    cases correlateRows r.reference r.origin ws with
    | error e => rfl
    | ok cc =>
      simp only [Except.map]
      rw [argmaxRows_times g hg]
      cases argmaxRows cc with
      | error e => rfl
      | ok p => simp only [amplifiedState, takePeaks_times]
  · unfold heightCc amplifiedState
    cases rowMax r.y1pe with
    | error e => rfl
    | ok m =>
      simp only [Except.map, List.map_map]
      congr 1
      apply List.map_congr_left
      intro x _
      simp only [Function.comp]
      ring

/-- **C132**, sliding windows -/
theorem C132_sliding (size : Nat) (g : ℚ) (hg : 0 < g) (ws : List (List ℚ)) :
    slidingPrepare size (amplified g ws) = slidingPrepare size ws ∧
    chargeSliding size (amplified g ws) = (chargeSliding size ws).map (fun qs => qs.map (g * ·)) ∧
    chargeSlidingLocal size (amplified g ws) = (chargeSlidingLocal size ws).map fun qs => qs.map (g * ·) := by
  have hprep : slidingPrepare size (amplified g ws) = slidingPrepare size ws := by
    unfold slidingPrepare
    rw [nSamples_times, colMeans_times, correlate1d_times]
    cases correlate1d (colMeans (nSamples ws) ws) (slidingWindow size).1 (slidingWindow size).2 with
    | error e => rfl
    | ok c => exact argmax_times g hg c
  refine ⟨hprep, ?_, ?_⟩
  · unfold chargeSliding
    rw [hprep]
    cases slidingPrepare size ws with
    | error e => rfl
    | ok p =>
      simp only [Except.map, amplified, List.map_map]
      congr 1
      apply List.map_congr_left
      intro r _
      simp only [Function.comp]
      unfold sumAround
      rw [← sum_map_times, List.map_take, List.map_drop]
  · unfold chargeSlidingLocal
    rw [correlateRows_times]
    cases correlateRows (slidingWindow size).1 (slidingWindow size).2 ws with
    | error e => rfl
    | ok cc => exact perPixel_times rowMax g g (rowMax_times g hg) cc

/-- superpixels: the position of the maximum stays, the maximum is multiplied -/
theorem C132_superpixel (nPixels n : Nat) (g : ℚ) (hg : 0 < g) (ws : List (List ℚ)) :
    spColumn rowArgmax nPixels n (amplified g ws) = spColumn rowArgmax nPixels n ws ∧
    spColumn rowMax nPixels n (amplified g ws) = (spColumn rowMax nPixels n ws).map fun xs => xs.map (g * ·) := by
  have hsum : ∀ rows, sumRows n (amplified g rows) = (sumRows n rows).map (g * ·) := by
    intro rows
    unfold sumRows column amplified
    rw [List.map_map]
    apply List.map_congr_left
    intro j _
    simp only [Function.comp]
    rw [← sum_map_times, List.map_map, List.map_map]
    congr 1
    apply List.map_congr_left
    intro r _
    exact getD_times g r j
  have hsp : spWaveforms nPixels n (amplified g ws) = (spWaveforms nPixels n ws).map (amplified g) := by
    unfold spWaveforms
    rw [show (amplified g ws).length = ws.length from by simp [amplified]]
    split
    · simp only [Except.map, superpixels]
      congr 1
      have e : ∀ xs : List (List ℚ), amplified g xs = xs.map fun r => r.map (g * ·) := fun _ => rfl
      rw [e (List.map (sumRows n) _), List.map_map, List.map_map, List.map_map]
      apply List.map_congr_left
      intro i _
      simp only [Function.comp]
      rw [← hsum]
      unfold amplified
      rw [List.map_take, List.map_drop]
    · rfl
  have hrep : ∀ (xs : List ℚ), repeatEach 4 (xs.map (g * ·)) = (repeatEach 4 xs).map (g * ·) := by
    intro xs
    unfold repeatEach
    rw [List.flatMap_map, List.map_flatMap]
    simp
  have hone : ∀ r : List ℚ, rowArgmax (r.map (g * ·)) = (rowArgmax r).map (1 * ·) := by
    intro r
    unfold rowArgmax
    rw [argmax_times g hg]
    cases argmax r <;> simp [Except.map]
  constructor
  · unfold spColumn
    rw [hsp]
    cases spWaveforms nPixels n ws with
    | error e => rfl
    | ok sp =>
      simp only [Except.map]
      rw [perPixel_times rowArgmax g 1 hone]
      cases perPixel rowArgmax sp <;> simp [Except.map]
  · unfold spColumn
    rw [hsp]
    cases spWaveforms nPixels n ws with
    | error e => rfl
    | ok sp =>
      simp only [Except.map]
      rw [perPixel_times rowMax g g (rowMax_times g hg)]
      cases perPixel rowMax sp with
      | error e => rfl
      | ok xs => simp only [Except.map]; rw [hrep]

/-- two pixels, gain 3/2 -/
example : chargeSliding 2 [[1, 5, 2], [0, 3, 0]] = .ok [7, 3] ∧ amplified (3 / 2) [[1, 5, 2], [0, 3, 0]] = [[3 / 2, 15 / 2, 3], [0, 9 / 2, 0]] ∧
    chargeSliding 2 [[3 / 2, 15 / 2, 3], [0, 9 / 2, 0]] = .ok [21 / 2, 9 / 2] ∧
    columnOf common [] [[1, 5, 2], [0, 3, 0]] "waveform_rms" = .ok (.perPixel [26 / 9, 2]) ∧
    columnOf common [] [[3 / 2, 15 / 2, 3], [0, 9 / 2, 0]] "waveform_rms" = .ok (.perPixel [13 / 2, 9 / 2]) := by
  decide +kernel

end Verif.Props
