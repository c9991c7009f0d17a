import Verif.Model.ExtractPulse
import Verif.Props.Gain
import Verif.Props.Pedestal
import Verif.Props.WaveformUtils
import Verif.Lemmas.CrossCorr
import Mathlib.Tactic.Linarith

/-!
# The reference pulse of a run (C136)
-/

namespace Verif.Props

open Verif.Py Verif.Model Verif.Spec Verif.Lemmas

theorem area_times (g : ℚ) (y : List ℚ) : area (y.map (g * ·)) = g * area y := by
  unfold area
  rw [← sum_map_times, List.map_map, List.length_map]
  congr 1
  apply List.map_congr_left
  intro i _
  simp only [Function.comp]
  rw [getD_times, getD_times]
  ring

/-- C136: the rows of the file are one nanosecond apart from zero on; with an area that is not zero the values are the average waveform divided by its area, so that the
area of the pulse in the file is one. -/
theorem C136_area (junk : Nat → Nat → ℚ) (np n : Nat) (source : List WfEvent) (pulse : List ℚ) (h : getAverageWf junk np n source 60 = .ok pulse) (ha : area pulse ≠ 0) :
    ∃ ys : List ℚ, area ys = 1 ∧ ys.length = pulse.length ∧
      extractPulse junk np n source = .ok ((List.range pulse.length).map fun i : Nat => ((i : ℚ) / 1000000000, .fin (ys.getD i 0))) ∧
      ∀ (i : Nat) (y : ℚ), pulse[i]? = some y → ys[i]? = some (y / area pulse) := by
  refine ⟨pulse.map ((1 / area pulse) * ·), ?_, List.length_map _, ?_, fun i y hy => ?_⟩
  · rw [area_times]; field_simp
  · unfold extractPulse
    rw [h]
    simp only
    congr 1
    apply List.ext_getElem?
    intro i
    rw [List.getElem?_mapIdx, List.getElem?_map]
    by_cases hi : i < pulse.length
    · rw [List.getElem?_range hi, List.getElem?_eq_getElem hi]
      simp only [Option.map_some, Option.some.injEq, Prod.mk.injEq]
      refine ⟨by ring, ?_⟩
      unfold fltDiv
      rw [trapz_area, if_pos ha, getD_times, List.getD_eq_getElem?_getD, List.getElem?_eq_getElem hi]
      simp only [Option.getD_some]
      congr 1
      ring
    · rw [List.getElem?_eq_none (by omega : pulse.length ≤ i), List.getElem?_eq_none (by simpa using hi)]
      rfl
  · rw [List.getElem?_map, hy]
    simp only [Option.map_some, Option.some.injEq]
    ring

/-- C136: an area of zero leaves no number in the file. -/
theorem C136_no_area (junk : Nat → Nat → ℚ) (np n : Nat) (source : List WfEvent) (pulse : List ℚ) (h : getAverageWf junk np n source 60 = .ok pulse) (ha : area pulse = 0) :
    ∃ rows, extractPulse junk np n source = .ok rows ∧ rows.length = pulse.length ∧ ∀ r ∈ rows, ∀ q, r.2 ≠ .fin q := by
  unfold extractPulse
  rw [h]
  refine ⟨_, rfl, by simp, fun r hr q => ?_⟩
  obtain ⟨i, hi, rfl⟩ := List.mem_mapIdx.1 hr
  unfold fltDiv
  rw [trapz_area, if_neg (by simpa using ha)]
  split
  · simp
  · split <;> simp

/-- C136: identical pulses arriving at different times give the shape of the pulse with its largest sample in row 60, divided by its area. -/
theorem C136_pulse (junk : Nat → Nat → ℚ) (np n : Nat) (hn : 60 < n) (ped : Nat → ℚ) (q : Nat → Int → ℚ)
    (hpeak : ∀ k : Int, k ≠ 0 → shapeAverage np q k < shapeAverage np q 0) (source : List WfEvent) (hnum : Numbered source)
    (hne : source ≠ []) (hsrc : PulseSource np n ped q source) (hped : (∀ p < np, ped p = 0) ∨ 50 ≤ source.length) (A : ℚ)
    (hA : A = area ((List.range n).map fun (j : Nat) => shapeAverage np q ((j : Int) - 60))) (hpos : 0 < A) :
    ∃ ys : List ℚ, area ys = 1 ∧ extractPulse junk np n source = .ok ((List.range n).map fun i : Nat => ((i : ℚ) / 1000000000, .fin (ys.getD i 0))) ∧
      (∀ j < n, ys[j]? = some (shapeAverage np q ((j : Int) - 60) / A)) ∧ ∀ j < n, j ≠ 60 → ys.getD j 0 < ys.getD 60 0 := by
  have h := C32_average junk np n (by omega) ped q hpeak source hnum hne hsrc hped 60
  obtain ⟨ys, h1, h2, h3, h4⟩ := C136_area junk np n source _ h (by rw [← hA]; exact ne_of_gt hpos)
  simp only [List.length_map, List.length_range] at h2 h3
  have hy : ∀ j < n, ys[j]? = some (shapeAverage np q ((j : Int) - 60) / A) := by
    intro j hj
    rw [hA]
    exact h4 j _ (by rw [List.getElem?_map, List.getElem?_range hj]; rfl)
  refine ⟨ys, h1, h3, hy, fun j hj hj' => ?_⟩
  rw [List.getD_eq_getElem?_getD, List.getD_eq_getElem?_getD, hy j hj, hy 60 hn]
  simp only [Option.getD_some]
  apply div_lt_div_of_pos_right _ hpos
  exact hpeak _ (by omega)

/-- C136: pedestals do not change the pulse of a run of at least 50 events. -/
theorem C136_pedestal (junk : Nat → Nat → ℚ) (ped : Nat → ℚ) (np n : Nat) (source : List WfEvent) (hnum : Numbered source) (hlen : 50 ≤ source.length)
    (hsrc : ∀ e ∈ source, Regular np 16 e.rows) : extractPulse junk np n (liftedSource ped source) = extractPulse junk np n source := by
  unfold extractPulse
  rw [(C130_average junk ped np n source hnum hlen hsrc 60).1]

/-! ### gain -/

/-- every event of a run multiplied by `g` -/
def louder (g : ℚ) (source : List WfEvent) : List WfEvent := source.map fun e => ⟨e.iev, amplified g e.rows⟩

theorem broadcastTo_map {α β : Type} (f : α → β) (w : Nat) (v : List α) : broadcastTo w (v.map f) = (broadcastTo w v).map (List.map f) := by
  unfold broadcastTo
  rw [List.length_map]
  by_cases h : v.length = w
  · rw [if_pos h, if_pos h]; rfl
  · rw [if_neg h, if_neg h]
    match v with
    | [] => rfl
    | [x] => simp [Except.map]
    | x :: y :: r => rfl

theorem mapM_broadcast_times (g : ℚ) (m : Nat) (rows : List (List ℚ)) :
    (amplified g rows).mapM (fun r => broadcastTo m (sliceList r none (some (m : Int)))) =
      (rows.mapM fun r => broadcastTo m (sliceList r none (some (m : Int)))).map (amplified g) := by
  induction rows with
  | nil => rfl
  | cons r rows ih =>
    unfold amplified at ih ⊢
    rw [List.map_cons, List.mapM_cons, List.mapM_cons, ih, sliceList_map, broadcastTo_map]
    cases broadcastTo m (sliceList r none (some (m : Int))) with
    | error e => rfl
    | ok c =>
      cases List.mapM (fun r => broadcastTo m (sliceList r none (some (m : Int)))) rows <;> rfl

theorem cutRows_times (g : ℚ) (np m : Nat) (rows : List (List ℚ)) : cutRows np m (amplified g rows) = (cutRows np m rows).map (amplified g) := by
  unfold cutRows
  rw [mapM_broadcast_times]
  cases rows.mapM fun r => broadcastTo m (sliceList r none (some (m : Int))) with
  | error e => rfl
  | ok c =>
    simp only [Except.map]
    exact broadcastTo_map _ np c

theorem bufferMean_times (g : ℚ) (n m np : Nat) (buf : List (List (List ℚ))) :
    bufferMean n m np (buf.map (amplified g)) = (bufferMean n m np buf).map (g * ·) := by
  unfold bufferMean
  rw [List.map_map]
  apply List.map_congr_left
  intro p _
  simp only [Function.comp]
  rw [← mul_div_assoc, ← sum_map_times, List.map_map, List.map_map]
  congr 2
  apply List.map_congr_left
  intro entry _
  simp only [Function.comp]
  unfold amplified
  rw [← sum_map_times, List.getD_eq_getElem?_getD, List.getD_eq_getElem?_getD, List.getElem?_map]
  cases entry[p]? <;> rfl

theorem fillBuffer_times (g : ℚ) (n np m : Nat) (buf : List (List (List ℚ))) (es : List WfEvent) :
    fillBuffer n np m (buf.map (amplified g)) (louder g es) = (fillBuffer n np m buf es).map (List.map (amplified g)) := by
  induction es generalizing buf with
  | nil => rfl
  | cons e es ih =>
    unfold louder at ih ⊢
    rw [List.map_cons]
    unfold fillBuffer
    simp only
    by_cases h : e.iev ≥ n
    · rw [if_pos h, if_pos h]; rfl
    · rw [if_neg h, if_neg h, cutRows_times]
      cases cutRows np m e.rows with
      | error err => rfl
      | ok c =>
        simp only [Except.map]
        rw [← List.map_set, ih]
        rfl

/-- the subtractor after louder events -/
def louderBaseline (g : ℚ) (b : Baseline) : Baseline := { b with buffer := b.buffer.map (amplified g), baseline := b.baseline.map (g * ·) }

theorem init_times (g : ℚ) (np n m : Nat) (source : List WfEvent) :
    Baseline.init np (louder g source) n m = (Baseline.init np source n m).map (louderBaseline g) := by
  unfold Baseline.init
  have h0 : List.replicate n (List.replicate np (List.replicate m (0 : ℚ))) = (List.replicate n (List.replicate np (List.replicate m 0))).map (amplified g) := by
    simp [amplified]
  rw [h0, fillBuffer_times, ← h0]
  cases fillBuffer n np m (List.replicate n (List.replicate np (List.replicate m 0))) source with
  | error e => rfl
  | ok buf =>
    simp only [Except.map, louderBaseline, bufferMean_times]

theorem subtractRows_times (g : ℚ) (rows : List (List ℚ)) (bl : List ℚ) :
    subtractRows (amplified g rows) (bl.map (g * ·)) = amplified g (subtractRows rows bl) := by
  unfold subtractRows amplified
  rw [List.map_zipWith, List.zipWith_map]
  congr 1
  funext r b
  rw [List.map_map, List.map_map]
  apply List.map_congr_left
  intro x _
  simp only [Function.comp]
  ring

theorem subtract_times (g : ℚ) (b : Baseline) (rows : List (List ℚ)) :
    (louderBaseline g b).subtract (amplified g rows) = (b.subtract rows).map fun r => (louderBaseline g r.1, amplified g r.2) := by
  unfold Baseline.subtract Baseline.update louderBaseline
  simp only
  by_cases h : b.nBase = 0
  · rw [if_pos h, if_pos h]; rfl
  · rw [if_neg h, if_neg h, cutRows_times]
    cases cutRows b.nPixels b.nBaseSamples rows with
    | error e => rfl
    | ok c =>
      simp only [Except.map]
      rw [← List.map_set, bufferMean_times, subtractRows_times]

theorem shiftArray_times (junk : Nat → Nat → ℚ) (g : ℚ) (rows : List (List ℚ)) (num : Int) :
    shiftArray junk (amplified g rows) num 0 = (shiftArray junk rows num 0).map (amplified g) := by
  obtain ⟨a, ha, hal, hag⟩ := C31_shift_array junk (amplified g rows) num 0
  obtain ⟨b, hb, hbl, hbg⟩ := C31_shift_array junk rows num 0
  rw [ha, hb]
  show Except.ok a = Except.ok (amplified g b)
  congr 1
  apply List.ext_getElem?
  intro i
  unfold amplified at *
  rw [List.getElem?_map]
  by_cases hi : i < rows.length
  · obtain ⟨ra, hra, hla, hja⟩ := hag i (rows[i].map (g * ·)) (by rw [List.getElem?_map, List.getElem?_eq_getElem hi]; rfl)
    obtain ⟨rb, hrb, hlb, hjb⟩ := hbg i rows[i] (List.getElem?_eq_getElem hi)
    rw [hra, hrb]
    simp only [Option.map_some, Option.some.injEq]
    rw [List.length_map] at hla hja
    apply List.ext_getElem?
    intro j
    rw [List.getElem?_map]
    by_cases hj : j < rows[i].length
    · rw [hja j hj, hjb j hj]
      split
      · rw [List.getElem?_map]
      · simp
    · rw [List.getElem?_eq_none (by omega), List.getElem?_eq_none (by omega)]; rfl
  · rw [List.length_map] at hal
    rw [List.getElem?_eq_none (by omega), List.getElem?_eq_none (by omega)]; rfl

theorem averageLoop_times (junk : Nat → Nat → ℚ) (g : ℚ) (hg : 0 < g) (n : Nat) (t : Int) (es : List WfEvent) (b : Baseline) (acc : List ℚ) (k : Nat) :
    averageLoop junk n t (louderBaseline g b) (acc.map (g * ·)) k (louder g es) =
      (averageLoop junk n t b acc k es).map fun r => (r.1.map (g * ·), r.2) := by
  induction es generalizing b acc k with
  | nil => rfl
  | cons e es ih =>
    unfold louder at ih ⊢
    rw [List.map_cons]
    unfold averageLoop
    simp only
    rw [subtract_times]
    cases b.subtract e.rows with
    | error err => rfl
    | ok r =>
      obtain ⟨b', wf⟩ := r
      simp only [Except.map]
      unfold shiftWaveform
      rw [colMeans_times, argmax_times g hg]
      cases argmax (colMeans n wf) with
      | error err => rfl
      | ok t' =>
        simp only
        rw [shiftArray_times]
        cases shiftArray junk wf (t - t') 0 with
        | error err => rfl
        | ok wf' =>
          simp only [Except.map]
          rw [colMeans_times]
          have : addRow (acc.map (g * ·)) ((colMeans n wf').map (g * ·)) = (addRow acc (colMeans n wf')).map (g * ·) := by
            unfold addRow
            rw [List.map_zipWith, List.zipWith_map]
            congr 1
            funext x y
            ring
          rw [this, ih]
          rfl

/-- C136: multiplying all samples of a run by a gain multiplies the average waveform by it. -/
theorem C136_average_gain (junk : Nat → Nat → ℚ) (g : ℚ) (hg : 0 < g) (np n : Nat) (source : List WfEvent) (t : Int) :
    getAverageWf junk np n (louder g source) t = (getAverageWf junk np n source t).map (List.map (g * ·)) := by
  unfold getAverageWf
  rw [init_times]
  cases Baseline.init np source 50 16 with
  | error e => rfl
  | ok b =>
    simp only [Except.map]
    have h0 : List.replicate n (0 : ℚ) = (List.replicate n 0).map (g * ·) := by simp
    rw [h0, averageLoop_times junk g hg, ← h0]
    cases averageLoop junk n t b (List.replicate n 0) 0 source with
    | error e => rfl
    | ok r =>
      simp only [Except.map, List.map_map]
      congr 1
      apply List.map_congr_left
      intro x _
      simp only [Function.comp]
      ring

/-- C136: the pulse of a run does not depend on its gain. -/
theorem C136_gain (junk : Nat → Nat → ℚ) (g : ℚ) (hg : 0 < g) (np n : Nat) (source : List WfEvent) :
    extractPulse junk np n (louder g source) = extractPulse junk np n source := by
  unfold extractPulse
  rw [C136_average_gain junk g hg]
  cases getAverageWf junk np n source 60 with
  | error e => rfl
  | ok pulse =>
    simp only [Except.map]
    congr 1
    apply List.ext_getElem?
    intro i
    rw [List.getElem?_mapIdx, List.getElem?_mapIdx, List.getElem?_map]
    cases pulse[i]? with
    | none => rfl
    | some y =>
      simp only [Option.map_some, Option.some.injEq, Prod.mk.injEq, true_and]
      rw [trapz_area, trapz_area, area_times]
      unfold fltDiv
      by_cases ha : area pulse = 0
      · rw [ha, mul_zero, if_neg (by simp : ¬ (0 : ℚ) ≠ 0), if_neg (by simp : ¬ (0 : ℚ) ≠ 0)]
        have h1 : g * y > 0 ↔ y > 0 := by constructor <;> intro h <;> nlinarith
        have h2 : g * y < 0 ↔ y < 0 := by constructor <;> intro h <;> nlinarith
        simp only [h1, h2]
      · rw [if_pos (mul_ne_zero (ne_of_gt hg) ha), if_pos ha, mul_div_mul_left _ _ (ne_of_gt hg)]

/-- C136: a run without events has a pulse without numbers. -/
theorem C136_no_events (junk : Nat → Nat → ℚ) (np n : Nat) : ∃ rows, extractPulse junk np n [] = .ok rows ∧ rows.length = n ∧ ∀ r ∈ rows, r.2 = .nan := by
  have h : getAverageWf junk np n [] 60 = .ok (List.replicate n 0) := by
    unfold getAverageWf Baseline.init
    simp [fillBuffer, averageLoop]
  unfold extractPulse
  rw [h]
  refine ⟨_, rfl, by simp, fun r hr => ?_⟩
  obtain ⟨i, hi, rfl⟩ := List.mem_mapIdx.1 hr
  have ha : area (List.replicate n (0 : ℚ)) = 0 := by
    have := area_times 0 (List.replicate n (0 : ℚ))
    simpa using this
  rw [trapz_area, ha]
  simp [fltDiv]

/-- two events of a triangular pulse of area 4 in one pixel, at samples 30 and 41 of 64: the file has 1/4, 1/2, 1/4 in rows 59 to 61 -/
example : ∃ ys : List ℚ, area ys = 1 ∧ ys[59]? = some (1 / 4) ∧ ys[60]? = some (1 / 2) ∧ ys[61]? = some (1 / 4) ∧
    extractPulse (fun _ _ => 7) 1 64 [⟨0, grid 1 64 fun p j => 0 + exampleShape p ((j : Int) - (30 : Nat))⟩,
      ⟨1, grid 1 64 fun p j => 0 + exampleShape p ((j : Int) - (41 : Nat))⟩] =
      .ok ((List.range 64).map fun i : Nat => ((i : ℚ) / 1000000000, .fin (ys.getD i 0))) := by
  obtain ⟨ys, h1, h2, h3, -⟩ := C136_pulse (fun _ _ => 7) 1 64 (by decide) (fun _ => 0) exampleShape (fun k hk => by
      simp only [shapeAverage, exampleShape, List.range_one, List.map_cons, List.map_nil, List.sum_cons, List.sum_nil, if_neg hk]
      split <;> norm_num)
    [⟨0, grid 1 64 fun p j => 0 + exampleShape p ((j : Int) - (30 : Nat))⟩, ⟨1, grid 1 64 fun p j => 0 + exampleShape p ((j : Int) - (41 : Nat))⟩]
    (fun j h => match j, h with
      | 0, _ => rfl
      | 1, _ => rfl)
    (List.cons_ne_nil _ _) (fun e he => by
      simp only [List.mem_cons, List.not_mem_nil, or_false] at he
      rcases he with rfl | rfl
      · exact ⟨30, by omega, rfl, fun p k hk => by unfold exampleShape; rw [if_neg (by omega), if_neg (by omega)]⟩
      · exact ⟨41, by omega, rfl, fun p k hk => by unfold exampleShape; rw [if_neg (by omega), if_neg (by omega)]⟩)
    (Or.inl fun _ _ => rfl) 4 (by decide +kernel) (by norm_num)
  exact ⟨ys, h1, by rw [h3 59 (by decide)]; decide +kernel, by rw [h3 60 (by decide)]; decide +kernel, by rw [h3 61 (by decide)]; decide +kernel, h2⟩

end Verif.Props
