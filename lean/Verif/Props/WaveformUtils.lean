import Verif.Lemmas.Average

/-!
# Baseline subtraction, shifting and averaging (C29 - C32)
-/

namespace Verif.Props

open Verif.Py Verif.Model Verif.Spec Verif.Lemmas

/-! ## C29 -/

/-- **C29**: after any sequence `ws` of subtracted waveforms, the baseline of each pixel is the mean over the last `n` of
them (over their first `m` samples), completed by the entries of the initial fill (the events `ws.length, ..., n - 1` of the
source) while fewer than `n` were seen; and the `k`-th result is the `k`-th waveform minus the baseline valid then. -/
theorem C29_rolling_baseline (np n m : Nat) (hn : 0 < n) (source : List WfEvent) (hnum : Numbered source)
    (hsrc : ∀ e ∈ source, Regular np m e.rows) (ws : List (List (List ℚ))) (hws : ∀ w ∈ ws, Regular np m w) :
    ∃ b0 b rs, Baseline.init np source n m = .ok b0 ∧ b0.subtractAll ws = .ok (b, rs) ∧ rs.length = ws.length ∧
      b.baseline.length = np ∧ (∀ p < np, b.baseline[p]? = some (rollingBaseline n m source ws p)) ∧
      ∀ (k : Nat) (w : List (List ℚ)), ws[k]? = some w → ∃ r : List (List ℚ), rs[k]? = some r ∧ r.length = np ∧
        ∀ (p : Nat) (row : List ℚ), w[p]? = some row →
          r[p]? = some (row.map fun x => x - rollingBaseline n m source (ws.take (k + 1)) p) := by
  obtain ⟨b0, h1, h2, h3, h4⟩ := init_spec np n m hn source hnum (fun e he => hsrc e (List.mem_of_mem_take he))
  obtain ⟨b, rs, g1, g2, g3, g4⟩ := subtractAll_spec np n m hn b0.buffer h3 ws [] b0 h2 hws
  refine ⟨b0, b, rs, h1, g1, g3, ?_, ?_, ?_⟩
  · rw [ring_baseline np n m b0.buffer source h4 _ b g2]; simp
  · intro p hp
    rw [ring_baseline np n m b0.buffer source h4 _ b g2]; simp [hp]
  · intro k w hk
    obtain ⟨bk, e1, e2⟩ := g4 k w hk
    have hb := ring_baseline np n m b0.buffer source h4 _ bk e1
    have hw := (hws w (List.mem_of_getElem? hk)).1
    refine ⟨_, e2, by simp [subtractRows, hb, hw], ?_⟩
    intro p row hp
    have hpn : p < np := by have := (List.getElem?_eq_some_iff.1 hp).1; omega
    unfold subtractRows
    rw [List.getElem?_zipWith, hp, hb]
    simp [hpn]

/-- once `n` waveforms were seen the source no longer matters: it is the mean over the last `n` waveforms -/
theorem C29_full_window (n m : Nat) (source : List WfEvent) (ws : List (List (List ℚ))) (h : n ≤ ws.length) (p : Nat) :
    rollingBaseline n m source ws p = ((ws.drop (ws.length - n)).map fun w => headSum m w p).sum / ((n : ℚ) * m) := by
  unfold rollingBaseline
  have hd : (source.take n).drop ws.length = [] := List.drop_of_length_le (by simp; omega)
  rw [hd]
  simp

/-- three waveforms of one pixel through a buffer of two: the first is forgotten -/
example : ∃ b0 b rs, Baseline.init 1 [⟨0, [[8, 8, 3]]⟩] 2 2 = .ok b0 ∧
    b0.subtractAll [[[1, 1, 9]], [[2, 2, 9]], [[4, 4, 9]]] = .ok (b, rs) ∧ b.baseline = [3] ∧
    rs = [[[1/2, 1/2, 17/2]], [[1/2, 1/2, 15/2]], [[1, 1, 6]]] := by
  refine ⟨_, _, _, rfl, rfl, ?_, ?_⟩ <;> decide +kernel

/-- a buffer without entries cannot be updated -/
theorem C29_no_entries (np m : Nat) (source : List WfEvent) (b : Baseline) (h : Baseline.init np source 0 m = .ok b)
    (w : List (List ℚ)) : b.subtract w = .error .zeroDivision := by
  have hb : b.nBase = 0 := by
    unfold Baseline.init at h
    split at h
    · cases h
    · cases h; rfl
  unfold Baseline.subtract Baseline.update
  rw [if_pos hb]

example : ∃ b, Baseline.init 1 [⟨0, [[8, 8, 3]]⟩] 0 2 = .ok b := ⟨_, rfl⟩

/-- a waveform of another number of pixels, or with fewer samples than the buffer holds, raises ValueError (single pixels and single samples are repeated by numpy) -/
theorem C29_shape (np n m : Nat) (hn : 0 < n) (source : List WfEvent) (b : Baseline) (h : Baseline.init np source n m = .ok b) (k j : Nat) (w : List (List ℚ))
    (hk : w.length = k) (hj : ∀ r ∈ w, r.length = j) (hbad : (m ≤ j ∧ k ≠ np ∧ k ≠ 1) ∨ (0 < k ∧ j < m ∧ j ≠ 1)) : b.subtract w = .error .valueError := by
  have hb : b.nBase = n ∧ b.nPixels = np ∧ b.nBaseSamples = m := by
    unfold Baseline.init at h
    split at h
    · cases h
    · cases h; exact ⟨rfl, rfl, rfl⟩
  have hslice : ∀ r : List ℚ, sliceList r none (some (m : Int)) = r.take m := by
    intro r
    unfold sliceList clampIndex
    have hneg : ¬ ((m : Int) < 0) := by omega
    simp [hneg]
  have hbr : ∀ (α : Type) (v : List α) (w : Nat), v.length ≠ w → v.length ≠ 1 → broadcastTo w v = .error .valueError := by
    intro α v w h1 h2
    unfold broadcastTo
    rw [if_neg h1]
    match v with
    | [] => rfl
    | [x] => exact absurd rfl h2
    | _ :: _ :: _ => rfl
  have hcut : cutRows np m w = .error .valueError := by
    unfold cutRows
    rcases hbad with ⟨h1, h2, h3⟩ | ⟨h1, h2, h3⟩
    · rw [mapM_ok _ _ (List.take m)]
      · exact hbr _ _ _ (by rw [List.length_map, hk]; exact h2) (by rw [List.length_map, hk]; exact h3)
      · intro r hr
        rw [hslice]
        exact broadcastTo_eq _ _ (by simp [hj r hr, h1])
    · match w, hk with
      | [], hk => simp at hk; omega
      | r :: rest, hk =>
        rw [List.mapM_cons, hslice, hbr _ _ _ (by rw [List.length_take, hj r (by simp)]; omega) (by rw [List.length_take, hj r (by simp)]; omega)]
        rfl
  unfold Baseline.subtract Baseline.update
  rw [if_neg (by omega), hb.2.1, hb.2.2, hcut]

example : ∃ b, Baseline.init 2 [⟨0, [[8, 8, 3], [1, 1, 1]]⟩] 1 2 = .ok b ∧ b.subtract [[1, 2, 3], [1, 2, 3], [1, 2, 3]] = .error .valueError := by
  exact ⟨_, rfl, C29_shape 2 1 2 (by decide) [⟨0, [[8, 8, 3], [1, 1, 1]]⟩] _ rfl 3 3 _ rfl (by decide) (by decide)⟩

/-! ## C30 -/

/-- **C30** (for runs of at least `n` events): the initial baseline is the mean over the first `n` events. Missing: shorter
runs, for which it is false (`C30_false`); what they get is `C30_short`. -/
theorem C30_initial_baseline_partial (np n m : Nat) (hn : 0 < n) (source : List WfEvent) (hnum : Numbered source)
    (hsrc : ∀ e ∈ source, Regular np m e.rows) (hlen : n ≤ source.length) :
    ∃ b, Baseline.init np source n m = .ok b ∧ b.baseline.length = np ∧ ∀ p < np, b.baseline[p]? =
      some (((source.take n).map fun e => headSum m e.rows p).sum / (((source.take n).length : ℚ) * m)) := by
  obtain ⟨b, h1, h2, h3, h4⟩ := init_spec np n m hn source hnum (fun e he => hsrc e (List.mem_of_mem_take he))
  have hb := ring_baseline np n m b.buffer source h4 _ b h2
  refine ⟨b, h1, by rw [hb]; simp, fun p hp => ?_⟩
  rw [hb]
  simp [hp, rollingBaseline, hlen]

/-- what every run gets: the sum over its first events divided by `n` (so too small by `source.length / n` if it is short) -/
theorem C30_short (np n m : Nat) (hn : 0 < n) (source : List WfEvent) (hnum : Numbered source)
    (hsrc : ∀ e ∈ source, Regular np m e.rows) :
    ∃ b, Baseline.init np source n m = .ok b ∧ b.baseline.length = np ∧ ∀ p < np, b.baseline[p]? =
      some (((source.take n).map fun e => headSum m e.rows p).sum / ((n : ℚ) * m)) := by
  obtain ⟨b, h1, h2, h3, h4⟩ := init_spec np n m hn source hnum (fun e he => hsrc e (List.mem_of_mem_take he))
  have hb := ring_baseline np n m b.buffer source h4 _ b h2
  refine ⟨b, h1, by rw [hb]; simp, fun p hp => ?_⟩
  rw [hb]
  simp [hp, rollingBaseline]

example : Numbered [⟨0, [[8, 8, 3]]⟩, ⟨1, [[6, 6, 3]]⟩] ∧ ∀ e ∈ [WfEvent.mk 0 [[8, 8, 3]], ⟨1, [[6, 6, 3]]⟩], Regular 1 2 e.rows := by
  refine ⟨?_, ?_⟩
  · intro j h
    match j, h with
    | 0, _ => rfl
    | 1, _ => rfl
  · intro e he
    simp at he
    rcases he with rfl | rfl <;> simp [Regular]

/-- **C30, exactly**: for a run with events, the initial baseline of a pixel is the mean over the first events (up to `n`) if and only if the run has at least
`n` events or that mean is zero. -/
theorem C30_exactly_partial (np n m : Nat) (hn : 0 < n) (hm : 0 < m) (source : List WfEvent) (hnum : Numbered source) (hsrc : ∀ e ∈ source, Regular np m e.rows)
    (hne : source ≠ []) (b : Baseline) (hb : Baseline.init np source n m = .ok b) (p : Nat) (hp : p < np) :
    b.baseline[p]? = some (((source.take n).map fun e => headSum m e.rows p).sum / (((source.take n).length : ℚ) * m)) ↔
      n ≤ source.length ∨ ((source.take n).map fun e => headSum m e.rows p).sum = 0 := by
  obtain ⟨b', hb', -, hv⟩ := C30_short np n m hn source hnum hsrc
  rw [hb] at hb'
  cases hb'
  rw [hv p hp, Option.some.injEq]
  have hlen : 0 < (source.take n).length := by
    rw [List.length_take]
    have := List.length_pos_iff.2 hne
    omega
  have h1 : ((source.take n).length : ℚ) ≠ 0 := by exact_mod_cast hlen.ne'
  have h2 : (n : ℚ) ≠ 0 := by exact_mod_cast hn.ne'
  have h3 : (m : ℚ) ≠ 0 := by exact_mod_cast hm.ne'
  generalize ((source.take n).map fun e => headSum m e.rows p).sum = S
  rw [div_eq_div_iff (mul_ne_zero h2 h3) (mul_ne_zero h1 h3)]
  constructor
  · intro h
    by_cases hS : S = 0
    · exact .inr hS
    · left
      have h' := mul_right_cancel₀ h3 (mul_left_cancel₀ hS h)
      have h'' : (source.take n).length = n := by exact_mod_cast h'
      rw [List.length_take] at h''
      omega
  · rintro (h | h)
    · have : (source.take n).length = n := by rw [List.length_take]; omega
      rw [this]
    · rw [h]; simp

/-- C30 is false for short runs: one event at the constant value 8 gives the baseline 4 with a buffer of two. -/
theorem C30_false : ∃ (source : List WfEvent) (b : Baseline), Numbered source ∧ (∀ e ∈ source, Regular 1 2 e.rows) ∧
    Baseline.init 1 source 2 2 = .ok b ∧
    b.baseline[0]? ≠ some (((source.take 2).map fun e => headSum 2 e.rows 0).sum / (((source.take 2).length : ℚ) * 2)) := by
  refine ⟨[⟨0, [[8, 8, 3]]⟩], _, ?_, ?_, rfl, ?_⟩
  · intro j h
    match j, h with
    | 0, _ => rfl
  · intro e he
    simp at he
    subst he
    simp [Regular]
  · decide +kernel

/-! ## C31 -/

/-- **C31**: element `j` of each shifted row is element `j - num` of the input row when that exists, and the fill value
otherwise, whatever the uninitialised memory contained. -/
theorem C31_shift_array {α : Type} (junk : Nat → Nat → α) (arr : List (List α)) (num : Int) (fill : α) :
    ∃ res, shiftArray junk arr num fill = .ok res ∧ res.length = arr.length ∧
      ∀ (i : Nat) (row : List α), arr[i]? = some row → ∃ row', res[i]? = some row' ∧ row'.length = row.length ∧
        ∀ j : Nat, j < row.length → row'[j]? =
          if 0 ≤ (j : Int) - num ∧ (j : Int) - num < row.length then row[((j : Int) - num).toNat]? else some fill :=
  shiftArray_spec junk arr num fill

example : shiftArray (fun _ _ => 99) [[1, 2, 3], [4, 5, 6]] 1 0 = .ok [[0, 1, 2], [0, 4, 5]] := rfl
example : shiftArray (fun _ _ => 99) [[1, 2, 3], [4, 5, 6]] (-2) 0 = .ok [[3, 0, 0], [6, 0, 0]] := rfl
example : shiftArray (fun _ _ => 99) [[1, 2, 3]] 7 0 = .ok [[0, 0, 0]] := rfl

/-! ## C32 -/

/-- **C32**, `shift_waveform`: with `t` the first sample at which the pixel average is largest, every sample moves by
`tShift - t`; for an in-range target the pixel average of the result at `tShift` is the largest pixel average of the input,
and no sample of the result exceeds both that and the fill value. -/
theorem C32_shift_waveform (junk : Nat → Nat → ℚ) (n : Nat) (hn : 0 < n) (rows : List (List ℚ)) (hne : rows ≠ [])
    (hlen : ∀ r ∈ rows, r.length = n) (tShift : Nat) (ht : tShift < n) (fill : ℚ) :
    ∃ (t : Nat) (res : List (List ℚ)), t < n ∧ (∀ k < n, pixelAverage rows k ≤ pixelAverage rows t) ∧
      (∀ k < t, pixelAverage rows k < pixelAverage rows t) ∧
      shiftWaveform junk n rows tShift fill = .ok res ∧ res.length = rows.length ∧
      (∀ (p : Nat) (row : List ℚ), rows[p]? = some row → ∃ row', res[p]? = some row' ∧ row'.length = n ∧
        ∀ j : Nat, j < n → row'[j]? = if 0 ≤ (j : Int) - (tShift - t) ∧ (j : Int) - (tShift - t) < n
          then row[((j : Int) - (tShift - t)).toNat]? else some fill) ∧
      pixelAverage res tShift = pixelAverage rows t ∧
      ∀ k < n, pixelAverage res k ≤ max (pixelAverage res tShift) fill := by
  have hcm : (colMeans n rows) ≠ [] := by
    intro h
    have := congrArg List.length h
    simp [colMeans] at this; omega
  obtain ⟨t, h1, h2⟩ := argmax_ok _ hcm
  have htn : t < n := by simpa [colMeans] using h2
  obtain ⟨m, a, b, c⟩ := argmax_spec _ t h1
  rw [colMeans_getElem? n rows t htn] at a
  cases a
  obtain ⟨res, g1, g2, g3⟩ := shiftArray_spec junk rows ((tShift : Int) - t) fill
  have hrow : ∀ (p : Nat) (row : List ℚ), rows[p]? = some row → ∃ row', res[p]? = some row' ∧ row'.length = n ∧
        ∀ j : Nat, j < n → row'[j]? = if 0 ≤ (j : Int) - (tShift - t) ∧ (j : Int) - (tShift - t) < n
          then row[((j : Int) - (tShift - t)).toNat]? else some fill := by
    intro p row hp
    have hl := hlen row (List.mem_of_getElem? hp)
    obtain ⟨row', e1, e2, e3⟩ := g3 p row hp
    rw [hl] at e2 e3
    exact ⟨row', e1, e2, e3⟩
  have havg : ∀ k < n, pixelAverage res k = if 0 ≤ (k : Int) - (tShift - t) ∧ (k : Int) - (tShift - t) < n
          then pixelAverage rows ((k : Int) - (tShift - t)).toNat else fill := by
    intro k hk
    have hcol : (res.map fun r => r.getD k 0) = rows.map fun r => if 0 ≤ (k : Int) - (tShift - t) ∧ (k : Int) - (tShift - t) < n
          then r.getD ((k : Int) - (tShift - t)).toNat 0 else fill := by
      apply List.ext_getElem?
      intro p
      rw [List.getElem?_map, List.getElem?_map]
      by_cases hp : p < rows.length
      · obtain ⟨row', e1, e2, e3⟩ := hrow p _ (List.getElem?_eq_getElem hp)
        rw [e1, List.getElem?_eq_getElem hp]
        simp only [Option.map_some, Option.some.injEq, List.getD_eq_getElem?_getD]
        rw [e3 k hk]
        split <;> rfl
      · rw [List.getElem?_eq_none (by omega), List.getElem?_eq_none (by omega)]
        rfl
    unfold pixelAverage
    rw [hcol, g2]
    split
    · rfl
    · have : (rows.length : ℚ) ≠ 0 := by
        have : rows.length ≠ 0 := by simpa using hne
        exact_mod_cast this
      simp
      field_simp
  refine ⟨t, res, htn, ?_, ?_, ?_, g2, hrow, ?_, ?_⟩
  · intro k hk
    exact c k _ (colMeans_getElem? n rows k hk)
  · intro k hk
    exact b k hk _ (colMeans_getElem? n rows k (by omega))
  · unfold shiftWaveform; rw [h1]; exact g1
  · rw [havg tShift ht, if_pos (by omega)]
    congr 1; omega
  · intro k hk
    rw [havg k hk, havg tShift ht, if_pos (by omega : 0 ≤ (tShift : Int) - (tShift - t) ∧ (tShift : Int) - (tShift - t) < n)]
    split
    · refine le_max_of_le_left ?_
      rw [show ((tShift : Int) - (tShift - t)).toNat = t from by omega]
      exact c _ _ (colMeans_getElem? n rows _ (by omega))
    · exact le_max_right _ _

example : shiftWaveform (fun _ _ => 99) 4 [[0, 5, 1, 0], [0, 1, 2, 0]] 2 0 = .ok [[0, 0, 5, 1], [0, 0, 1, 2]] := by
  decide +kernel

/-- the maximum of the shifted pixel average is at the target whenever it exceeds the fill value -/
theorem C32_target_is_maximum (junk : Nat → Nat → ℚ) (n : Nat) (hn : 0 < n) (rows : List (List ℚ)) (hne : rows ≠ [])
    (hlen : ∀ r ∈ rows, r.length = n) (tShift : Nat) (ht : tShift < n) (fill : ℚ) (k : Nat) (hk : k < n)
    (hpos : fill < pixelAverage rows k) (res : List (List ℚ)) (h : shiftWaveform junk n rows tShift fill = .ok res) :
    ∀ k < n, pixelAverage res k ≤ pixelAverage res tShift := by
  obtain ⟨t, res', h1, h2, h3, h4, h5, h6, h7, h8⟩ := C32_shift_waveform junk n hn rows hne hlen tShift ht fill
  rw [h] at h4
  cases h4
  intro j hj
  have := h8 j hj
  rwa [max_eq_left] at this
  rw [h7]
  exact le_trans (le_of_lt hpos) (h2 k hk)

example : (0 : ℚ) < pixelAverage [[0, 5, 1, 0], [0, 1, 2, 0]] 1 := by decide +kernel

/-- a source of pulses: event `i` is a pedestal per pixel plus the pulse shapes `q` starting at its own time `t`; the pulse
starts after the 16 baseline samples and ends inside the waveform -/
def PulseSource (np n : Nat) (ped : Nat → ℚ) (q : Nat → Int → ℚ) (es : List WfEvent) : Prop :=
  ∀ e ∈ es, ∃ t : Nat, t < n ∧ e.rows = grid np n (fun p j => ped p + q p ((j : Int) - t)) ∧
    ∀ p, ∀ k : Int, k < 16 - (t : Int) ∨ (n : Int) - t ≤ k → q p k = 0

/-- **C32**, averages: identical pulses with different arrival times, whose pixel average peaks at 0, average to the pulse
at the requested position. The pedestal has to vanish for runs of fewer than 50 events (`C30_false`). -/
theorem C32_average (junk : Nat → Nat → ℚ) (np n : Nat) (hn : 16 ≤ n) (ped : Nat → ℚ) (q : Nat → Int → ℚ)
    (hpeak : ∀ k : Int, k ≠ 0 → shapeAverage np q k < shapeAverage np q 0) (source : List WfEvent) (hnum : Numbered source)
    (hne : source ≠ []) (hsrc : PulseSource np n ped q source) (hped : (∀ p < np, ped p = 0) ∨ 50 ≤ source.length)
    (tShift : Int) :
    getAverageWf junk np n source tShift = .ok ((List.range n).map fun (j : Nat) => shapeAverage np q ((j : Int) - tShift)) := by
  have hsrc' : PulseEvents np n ped q source := ⟨hsrc⟩
  obtain ⟨b, h1, h2, h3, h4⟩ := init_spec np 50 16 (by omega) source hnum (fun e he => by
    obtain ⟨t, -, hr, -⟩ := hsrc e (List.mem_of_mem_take he)
    rw [hr]; exact regular_grid np n 16 _ hn)
  unfold getAverageWf
  rw [h1]
  have := averageLoop_spec junk np n ped q hpeak hn tShift source hsrc' hped b.buffer h3 h4 source [] ⟨by simp⟩ hsrc' b
    (by simpa using h2) 0
  have hz : ((List.range n).map fun (j : Nat) => ((0 : Nat) : ℚ) * shapeAverage np q ((j : Int) - tShift)) = List.replicate n 0 := by
    simp
  rw [hz] at this
  simp only [this]
  congr 1
  rw [List.map_map]
  apply List.map_congr_left
  intro j _
  have : (source.length : ℚ) ≠ 0 := by
    have : source.length ≠ 0 := by simpa using hne
    exact_mod_cast this
  simp only [Function.comp, Nat.zero_add]
  field_simp

/-- **C32**, averages per pixel -/
theorem C32_average_per_pixel (junk : Nat → Nat → ℚ) (np n : Nat) (hn : 16 ≤ n) (ped : Nat → ℚ) (q : Nat → Int → ℚ)
    (hpeak : ∀ k : Int, k ≠ 0 → shapeAverage np q k < shapeAverage np q 0) (source : List WfEvent) (hnum : Numbered source)
    (hne : source ≠ []) (hsrc : PulseSource np n ped q source) (hped : (∀ p < np, ped p = 0) ∨ 50 ≤ source.length)
    (tShift : Int) :
    getAverageWfPerPixel junk np n source tShift = .ok (grid np n fun p j => q p ((j : Int) - tShift)) := by
  have hsrc' : PulseEvents np n ped q source := ⟨hsrc⟩
  obtain ⟨b, h1, h2, h3, h4⟩ := init_spec np 50 16 (by omega) source hnum (fun e he => by
    obtain ⟨t, -, hr, -⟩ := hsrc e (List.mem_of_mem_take he)
    rw [hr]; exact regular_grid np n 16 _ hn)
  unfold getAverageWfPerPixel
  rw [h1]
  have := averagePixelLoop_spec junk np n ped q hpeak hn tShift source hsrc' hped b.buffer h3 h4 source [] ⟨by simp⟩ hsrc' b
    (by simpa using h2) 0
  have hz : (grid np n fun p (j : Nat) => ((0 : Nat) : ℚ) * q p ((j : Int) - tShift)) = List.replicate np (List.replicate n 0) := by
    simp [grid]
  rw [hz] at this
  simp only [this]
  congr 1
  unfold grid
  rw [List.map_map]
  apply List.map_congr_left
  intro p _
  simp only [Function.comp, List.map_map]
  apply List.map_congr_left
  intro j _
  have : (source.length : ℚ) ≠ 0 := by
    have : source.length ≠ 0 := by simpa using hne
    exact_mod_cast this
  simp only [Function.comp, Nat.zero_add]
  field_simp

/-- two events of a triangular pulse in one pixel, at samples 18 and 20 of 24 -/
def exampleShape : Nat → Int → ℚ := fun _ k => if k = 0 then 2 else if k = 1 ∨ k = -1 then 1 else 0

example : PulseSource 1 24 (fun _ => 0) exampleShape
    [⟨0, grid 1 24 fun p j => 0 + exampleShape p ((j : Int) - (18 : Nat))⟩,
     ⟨1, grid 1 24 fun p j => 0 + exampleShape p ((j : Int) - (20 : Nat))⟩] ∧
    ∀ k : Int, k ≠ 0 → shapeAverage 1 exampleShape k < shapeAverage 1 exampleShape 0 := by
  constructor
  · intro e he
    simp only [List.mem_cons, List.not_mem_nil, or_false] at he
    rcases he with rfl | rfl
    · exact ⟨18, by omega, rfl, fun p k hk => by unfold exampleShape; rw [if_neg (by omega), if_neg (by omega)]⟩
    · exact ⟨20, by omega, rfl, fun p k hk => by unfold exampleShape; rw [if_neg (by omega), if_neg (by omega)]⟩
  · intro k hk
    simp only [shapeAverage, exampleShape, List.range_one, List.map_cons, List.map_nil, List.sum_cons, List.sum_nil, if_neg hk]
    split <;> norm_num

end Verif.Props
