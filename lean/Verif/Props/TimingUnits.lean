import Verif.Props.Delay
import Verif.Props.Timing
import Mathlib.Tactic.FieldSimp
import Mathlib.Tactic.Linarith

/-! # C172: gain and pedestals do not reach the pulse times -/

namespace Verif.Props

open Verif.Py Verif.Model Verif.Spec Verif.Lemmas

/-- a sample in other units, with another zero -/
def inUnits (g c x : ℚ) : ℚ := g * x + c

/-- the event as another digitiser shows it: every sample multiplied by `g`, and `ped p` added to the samples of pixel `p` -/
def otherUnits (g : ℚ) (ped : Nat → ℚ) (ws : List (List ℚ)) : List (List ℚ) := ws.mapIdx fun p r => r.map (inUnits g (ped p))

/-- the same times and widths, the height in the other units -/
def timingInUnits (g : ℚ) (p : PulseTiming) : PulseTiming := { p with hPulse := g * p.hPulse }

theorem inUnits_lt (g c x y : ℚ) (hg : 0 < g) : inUnits g c x < inUnits g c y ↔ x < y := by
  unfold inUnits
  rw [add_lt_add_iff_right, mul_lt_mul_iff_right₀ hg]

theorem inUnits_le (g c x y : ℚ) (hg : 0 < g) : inUnits g c x ≤ inUnits g c y ↔ x ≤ y := by
  unfold inUnits
  rw [add_le_add_iff_right, mul_le_mul_iff_right₀ hg]

theorem argmaxFrom_inUnits (g c : ℚ) (hg : 0 < g) (xs : List ℚ) (best i : Nat) (m : ℚ) :
    argmaxFrom best (inUnits g c m) i (xs.map (inUnits g c)) = argmaxFrom best m i xs := by
  induction xs generalizing best i m with
  | nil => rfl
  | cons x xs ih => simp only [List.map_cons, argmaxFrom, inUnits_lt g c _ _ hg, ih]

theorem argmax_inUnits (g c : ℚ) (hg : 0 < g) (xs : List ℚ) : argmax (xs.map (inUnits g c)) = argmax xs := by
  cases xs with
  | nil => rfl
  | cons x xs => simp only [List.map_cons, argmax, argmaxFrom_inUnits g c hg]

theorem sum_inUnits (g c : ℚ) (xs : List ℚ) : (xs.map (inUnits g c)).sum = g * xs.sum + xs.length * c := by
  induction xs with
  | nil => simp
  | cons x xs ih =>
    simp only [List.map_cons, List.sum_cons, ih, inUnits, List.length_cons, Nat.cast_add, Nat.cast_one]
    ring

theorem startLevel_inUnits (g c : ℚ) (r : List ℚ) (hr : r ≠ []) : startLevel (r.map (inUnits g c)) = inUnits g c (startLevel r) := by
  unfold startLevel
  rw [← List.map_take, sum_inUnits, List.length_map]
  have : ((r.take 10).length : ℚ) ≠ 0 := by
    have : (r.take 10).length ≠ 0 := by
      cases r with
      | nil => exact absurd rfl hr
      | cons a r => simp
    exact_mod_cast this
  unfold inUnits
  field_simp

theorem getD_inUnits (g c : ℚ) (r : List ℚ) (j : Nat) (hj : j < r.length) : (r.map (inUnits g c)).getD j 0 = inUnits g c (r.getD j 0) := by
  rw [List.getD_eq_getElem?_getD, List.getD_eq_getElem?_getD, List.getElem?_map, List.getElem?_eq_getElem hj]
  rfl

theorem readSample_inUnits (g c : ℚ) (beyond : Option ℚ) (r : List ℚ) (i : Int) :
    readSample (beyond.map (inUnits g c)) (r.map (inUnits g c)) i = (readSample beyond r i).map (inUnits g c) := by
  unfold readSample
  simp only [List.length_map]
  obtain ⟨j, hj⟩ : ∃ j, j = if i < 0 then i + (r.length : Int) else i := ⟨_, rfl⟩
  simp only [← hj]
  by_cases h : 0 ≤ j ∧ j < r.length
  · rw [if_pos h, if_pos h, getD_inUnits g c r _ (by omega)]
    rfl
  · rw [if_neg h, if_neg h]

theorem crossing_inUnits (g c : ℚ) (hg : 0 < g) (level yi yj : ℚ) (xi xj : Int) :
    crossing (inUnits g c level) (inUnits g c yi) (inUnits g c yj) xi xj = crossing level yi yj xi xj := by
  have e : inUnits g c yj - inUnits g c yi = g * (yj - yi) := by unfold inUnits; ring
  have e' : inUnits g c level - inUnits g c yi = g * (level - yi) := by unfold inUnits; ring
  unfold crossing
  rw [e, e']
  by_cases h : yj - yi = 0
  · rw [if_pos (by rw [h, mul_zero]), if_pos h]
  · rw [if_neg (mul_ne_zero hg.ne' h), if_neg h, mul_assoc, mul_div_mul_left _ _ hg.ne']

theorem forwardLoop_inUnits (g c : ℚ) (hg : 0 < g) (r : List ℚ) (level : ℚ) (steps xi : Nat) (h : steps = 0 ∨ xi + steps + 1 ≤ r.length) :
    forwardLoop (r.map (inUnits g c)) (inUnits g c level) steps xi = forwardLoop r level steps xi := by
  induction steps generalizing xi with
  | zero => rfl
  | succ steps ih =>
    simp only [forwardLoop, getD_inUnits g c r xi (by omega), getD_inUnits g c r (xi + 1) (by omega), ge_iff_le, inUnits_le g c _ _ hg,
      crossing_inUnits g c hg]
    rw [ih (xi + 1) (by omega)]

theorem updateCrossing_inUnits (g c : ℚ) (hg : 0 < g) (level : ℚ) (yi : Option ℚ) (yj : ℚ) (xi : Nat) (t : ℚ) :
    updateCrossing (inUnits g c level) (yi.map (inUnits g c)) (inUnits g c yj) xi t = updateCrossing level yi yj xi t := by
  cases yi with
  | none => rfl
  | some yi => simp only [Option.map_some, updateCrossing, ge_iff_le, inUnits_le g c _ _ hg, crossing_inUnits g c hg]

theorem backwardLoop_inUnits (g c : ℚ) (hg : 0 < g) (beyond : Option ℚ) (r : List ℚ) (half p90 p10 : ℚ) (k : Nat) (hk : k ≤ r.length) (s : ℚ × ℚ × ℚ) :
    backwardLoop (beyond.map (inUnits g c)) (r.map (inUnits g c)) (inUnits g c half) (inUnits g c p90) (inUnits g c p10) k s =
      backwardLoop beyond r half p90 p10 k s := by
  induction k generalizing s with
  | zero => rfl
  | succ xj ih =>
    obtain ⟨l, a, b⟩ := s
    simp only [backwardLoop, readSample_inUnits, getD_inUnits g c r xj (by omega), updateCrossing_inUnits g c hg, ih (by omega)]

theorem pulseShape_inUnits (g c : ℚ) (hg : 0 < g) (beyond : Option ℚ) (r : List ℚ) (base h t : ℚ) (h0 : 0 ≤ t) (h1 : t < r.length) :
    pulseShape (beyond.map (inUnits g c)) (r.map (inUnits g c)) (inUnits g c base) (g * h) t = (pulseShape beyond r base h t).map (timingInUnits g) := by
  have hb := roundEven_bounds t r.length h0 h1
  have level : ∀ q : ℚ, inUnits g c base + q * (g * h) = inUnits g c (base + q * h) := fun q => by unfold inUnits; ring
  have half : inUnits g c base + g * h / 2 = inUnits g c (base + h / 2) := by unfold inUnits; ring
  unfold pulseShape
  simp only [half, level, List.length_map]
  rw [forwardLoop_inUnits g c hg r _ _ _ (by omega), backwardLoop_inUnits g c hg beyond r _ _ _ _ (by omega)]
  cases forwardLoop r (base + h / 2) (r.length - 1 - (roundEven t).toNat) (roundEven t).toNat with
  | error e => rfl
  | ok x => cases backwardLoop beyond r (base + h / 2) (base + 9 / 10 * h) (base + 1 / 10 * h) (roundEven t).toNat (0, 0, 0) <;> rfl

/-- one pixel, when what lies behind the row is in the other units too -/
theorem pixelTiming_inUnits (g c : ℚ) (hg : 0 < g) (beyond : Option ℚ) (r : List ℚ) (s e : Int) :
    pixelTiming (beyond.map (inUnits g c)) (r.map (inUnits g c)) s e = (pixelTiming beyond r s e).map (timingInUnits g) := by
  have hslice : ∀ a b : Option Int, sliceList (r.map (inUnits g c)) a b = (sliceList r a b).map (inUnits g c) := by
    intro a b; unfold sliceList; simp
  have hzero : timingInUnits g {} = {} := by simp [timingInUnits]
  unfold pixelTiming
  simp only [startLevel_eq]
  rw [hslice, argmax_inUnits g c hg]
  cases ha : argmax (sliceList r (some s) (some e)) with
  | error e => rfl
  | ok k =>
    have hr : r ≠ [] := by
      rintro rfl
      simp [sliceList, argmax] at ha
    simp only [readSample_inUnits, startLevel_inUnits g c r hr, List.length_map]
    cases readSample beyond r ((k : Int) + s - 1) with
    | none => simp [Except.map, hzero]
    | some y0 =>
      cases readSample beyond r ((k : Int) + s) with
      | none => simp [Except.map, hzero]
      | some y1 =>
        cases readSample beyond r ((k : Int) + s + 1) with
        | none => simp [Except.map, hzero]
        | some y2 =>
          simp only [Option.map_some]
          have e1 : inUnits g c y0 - inUnits g c y2 = g * (y0 - y2) := by unfold inUnits; ring
          have e2 : inUnits g c y0 - 2 * inUnits g c y1 + inUnits g c y2 = g * (y0 - 2 * y1 + y2) := by unfold inUnits; ring
          have e3 : 1 / 2 * (g * (y0 - y2)) / (g * (y0 - 2 * y1 + y2)) = 1 / 2 * (y0 - y2) / (y0 - 2 * y1 + y2) := by
            rw [show 1 / 2 * (g * (y0 - y2)) = g * (1 / 2 * (y0 - y2)) by ring, mul_div_mul_left _ _ hg.ne']
          have e4 : ∀ t, inUnits g c y1 - 1 / 4 * (g * (y0 - y2)) * t - inUnits g c (startLevel r) = g * (y1 - 1 / 4 * (y0 - y2) * t - startLevel r) := by
            intro t; unfold inUnits; ring
          simp only [e1, e2, e3, e4]
          by_cases hb : y0 - 2 * y1 + y2 = 0
          · rw [if_pos (by rw [hb, mul_zero]), if_pos hb]
            simp [Except.map, hzero]
          · rw [if_neg (mul_ne_zero hg.ne' hb), if_neg hb]
            by_cases ht : 0 ≤ 1 / 2 * (y0 - y2) / (y0 - 2 * y1 + y2) + ((k : Int) + s : Int) ∧ 1 / 2 * (y0 - y2) / (y0 - 2 * y1 + y2) + ((k : Int) + s : Int) < r.length
            · rw [if_pos ht, if_pos ht]
              exact pulseShape_inUnits g c hg beyond r _ _ _ ht.1 ht.2
            · rw [if_neg ht, if_neg ht]
              simp [Except.map, hzero]

/-! ### whole events -/

theorem otherUnits_cons (g : ℚ) (ped : Nat → ℚ) (r : List ℚ) (rs : List (List ℚ)) :
    otherUnits g ped (r :: rs) = r.map (inUnits g (ped 0)) :: otherUnits g (fun p => ped (p + 1)) rs := by
  unfold otherUnits
  rw [List.mapIdx_cons]

theorem pixelTimings_inUnits (g : ℚ) (hg : 0 < g) (ped : Nat → ℚ) (mem : Nat → Option ℚ) (a b : Int) (i : Nat) (ws : List (List ℚ)) :
    pixelTimings (fun p => (mem p).map (inUnits g (ped p))) a b i (otherUnits g (fun p => ped (i + p)) ws) =
      (pixelTimings mem a b i ws).map (List.map (timingInUnits g)) := by
  induction ws generalizing i with
  | nil => rfl
  | cons r rs ih =>
    have := ih (i + 1)
    rw [otherUnits_cons]
    simp only [pixelTimings, Nat.add_zero, pixelTiming_inUnits g _ hg]
    rw [show (fun p => ped (i + (p + 1))) = fun p => ped (i + 1 + p) from funext fun p => by rw [Nat.add_right_comm, Nat.add_assoc], this]
    cases pixelTiming (mem i) r a b with
    | error e => rfl
    | ok p => cases pixelTimings mem a b (i + 1) rs <;> rfl

theorem nSamples_otherUnits (g : ℚ) (ped : Nat → ℚ) (ws : List (List ℚ)) : nSamples (otherUnits g ped ws) = nSamples ws := by
  cases ws with
  | nil => rfl
  | cons r rs => rw [otherUnits_cons]; simp [nSamples]

theorem column_otherUnits (g : ℚ) (ped : Nat → ℚ) (n : Nat) (ws : List (List ℚ)) (h : ∀ r ∈ ws, r.length = n) (j : Nat) (hj : j < n) :
    (column (otherUnits g ped ws) j).sum = g * (column ws j).sum + ((List.range ws.length).map ped).sum := by
  induction ws generalizing ped with
  | nil => simp [column, otherUnits]
  | cons r rs ih =>
    have := ih (fun p => ped (p + 1)) fun r hr => h r (List.mem_cons_of_mem _ hr)
    rw [otherUnits_cons, List.length_cons, List.range_succ_eq_map]
    simp only [column, List.map_cons, List.sum_cons, List.map_map] at this ⊢
    rw [this, getD_inUnits g _ r j (by rw [h r List.mem_cons_self]; exact hj)]
    unfold inUnits
    simp only [Function.comp_def]
    ring

theorem colMeans_otherUnits (g : ℚ) (ped : Nat → ℚ) (n : Nat) (ws : List (List ℚ)) (h : Spec.Event n ws) :
    colMeans n (otherUnits g ped ws) = (colMeans n ws).map (inUnits g (((List.range ws.length).map ped).sum / ws.length)) := by
  unfold colMeans
  rw [List.map_map]
  refine List.map_congr_left fun j hj => ?_
  have hl : (otherUnits g ped ws).length = ws.length := by simp [otherUnits]
  simp only [Function.comp_def, mean, column_otherUnits g ped n ws h.2 j (List.mem_range.1 hj), inUnits]
  rw [show (column (otherUnits g ped ws) j).length = ws.length by rw [← hl]; simp [column],
    show (column ws j).length = ws.length by simp [column]]
  rw [add_div, mul_div_assoc]

theorem extractionTime_otherUnits (kwargs : Config Setting) (name : String) (g : ℚ) (hg : 0 < g) (ped : Nat → ℚ) (n : Nat) (ws : List (List ℚ))
    (h : Spec.Event n ws) : extractionTime kwargs name (otherUnits g ped ws) = extractionTime kwargs name ws := by
  unfold extractionTime defaultTime
  rw [nSamples_otherUnits, nSamples_event n ws h, colMeans_otherUnits g ped n ws h, argmax_inUnits _ _ hg]

/-! ### what lies behind the rows -/

theorem pulseShape_beyond (beyond beyond' : Option ℚ) (r : List ℚ) (base h t : ℚ) (h0 : 0 ≤ t) (h1 : t < r.length - 1 / 2) :
    pulseShape beyond' r base h t = pulseShape beyond r base h t := by
  have hk : roundEven t < (r.length : Int) := by
    unfold roundEven
    have f1 := Int.floor_le t
    have f2 : ⌊t⌋ < (r.length : Int) := by
      rw [Int.floor_lt]; push_cast; linarith
    have f3 : 1 / 2 ≤ t - ⌊t⌋ → ⌊t⌋ + 1 < (r.length : Int) := by
      intro h
      have : ((⌊t⌋ + 1 : Int) : ℚ) < ((r.length : Int) : ℚ) := by push_cast; linarith
      exact_mod_cast this
    simp only
    split
    · exact f2
    · rename_i hc
      have := f3 (not_lt.1 hc)
      split
      · exact this
      · split
        · exact f2
        · exact this
  have hb := roundEven_bounds t r.length h0 (by linarith)
  have back : ∀ (p q s : ℚ) (k : Nat) (st : ℚ × ℚ × ℚ), k < r.length → backwardLoop beyond' r p q s k st = backwardLoop beyond r p q s k st := by
    intro p q s k
    induction k with
    | zero => intro st _; rfl
    | succ k ih =>
      rintro ⟨l, a, b⟩ hk
      have e : ∀ bb : Option ℚ, readSample bb r ((k : Int) + 1) = some (r.getD (k + 1) 0) := fun bb => by
        rw [show (k : Int) + 1 = ((k + 1 : Nat) : Int) by push_cast; rfl, readSample_inside bb r _ hk]
      simp only [backwardLoop, e, ih _ (show k < r.length by omega)]
  unfold pulseShape
  simp only
  rw [back _ _ _ _ _ (by omega)]

theorem slice_inside (r : List ℚ) (a b : Int) (ha : 0 ≤ a) (hb : b < r.length) (k : Nat) (h : argmax (sliceList r (some a) (some b)) = .ok k) :
    (k : Int) + a + 1 < r.length := by
  obtain ⟨hk, -⟩ := (argmax_firstMax _ _).1 h
  have hl : (sliceList r (some a) (some b)).length = min (clampIndex r.length b - clampIndex r.length a) (r.length - clampIndex r.length a) := by
    simp [sliceList]
  rw [hl] at hk
  unfold clampIndex at hk
  split_ifs at hk <;> omega

theorem readSample_row (beyond : Option ℚ) (r : List ℚ) (i : Int) (h0 : -(r.length : Int) ≤ i) (h1 : i < r.length) :
    readSample beyond r i = readSample none r i := by
  unfold readSample
  have : 0 ≤ (if i < 0 then i + (r.length : Int) else i) ∧ (if i < 0 then i + (r.length : Int) else i) < r.length := by split <;> omega
  simp only [if_pos this]

theorem pixelTiming_beyond (beyond beyond' : Option ℚ) (r : List ℚ) (a b : Int) (ha : 0 ≤ a) (hb : b < r.length) (p : PulseTiming)
    (h : pixelTiming beyond r a b = .ok p) (hp : p.tPulse < r.length - 1 / 2) : pixelTiming beyond' r a b = .ok p := by
  unfold pixelTiming at h ⊢
  simp only [startLevel_eq] at h ⊢
  cases h1 : argmax (sliceList r (some a) (some b)) with
  | error e => rw [h1] at h; cases h
  | ok k =>
    rw [h1] at h
    have hk := slice_inside r a b ha hb k h1
    have e0 : ∀ bb : Option ℚ, readSample bb r ((k : Int) + a - 1) = readSample none r ((k : Int) + a - 1) := fun bb =>
      readSample_row bb r _ (by omega) (by omega)
    have e1 : ∀ bb : Option ℚ, readSample bb r ((k : Int) + a) = readSample none r ((k : Int) + a) := fun bb =>
      readSample_row bb r _ (by omega) (by omega)
    have e2 : ∀ bb : Option ℚ, readSample bb r ((k : Int) + a + 1) = readSample none r ((k : Int) + a + 1) := fun bb =>
      readSample_row bb r _ (by omega) (by omega)
    simp only [e0 beyond, e1 beyond, e2 beyond] at h
    simp only [e0 beyond', e1 beyond', e2 beyond']
    rw [← h]
    cases h2 : readSample none r ((k : Int) + a - 1) with
    | none => rfl
    | some y0 =>
      cases h3 : readSample none r ((k : Int) + a) with
      | none => rfl
      | some y1 =>
        cases h4 : readSample none r ((k : Int) + a + 1) with
        | none => rfl
        | some y2 =>
          rw [h2, h3, h4] at h
          simp only at h ⊢
          split_ifs with c1 c2
          · rfl
          · rw [if_neg c1, if_pos c2] at h
            rw [(pulseShape_spec beyond r _ _ c2 p h).2.1] at hp
            exact pulseShape_beyond _ _ _ _ _ _ c2.1 hp
          · rfl

theorem pixelTimings_beyond (mem mem' : Nat → Option ℚ) (n : Nat) (a b : Int) (ha : 0 ≤ a) (hb : b < n) (i : Nat) (ws : List (List ℚ))
    (hw : ∀ r ∈ ws, r.length = n) (ps : List PulseTiming) (h : pixelTimings mem a b i ws = .ok ps) (hp : ∀ p ∈ ps, p.tPulse < n - 1 / 2) :
    pixelTimings mem' a b i ws = .ok ps := by
  induction ws generalizing i ps with
  | nil => exact h
  | cons r rs ih =>
    have hr : r.length = n := hw r List.mem_cons_self
    unfold pixelTimings at h ⊢
    cases h1 : pixelTiming (mem i) r a b with
    | error e => rw [h1] at h; cases h
    | ok p =>
      rw [h1] at h
      simp only at h
      cases h2 : pixelTimings mem a b (i + 1) rs with
      | error e => rw [h2] at h; cases h
      | ok qs =>
        rw [h2] at h
        cases h
        rw [pixelTiming_beyond (mem i) (mem' i) r a b ha (by rw [hr]; exact hb) p h1 (by rw [hr]; exact hp p List.mem_cons_self)]
        simp only
        rw [ih (i + 1) (fun r hr => hw r (List.mem_cons_of_mem _ hr)) qs h2 fun p h => hp p (List.mem_cons_of_mem _ h)]

/-! ## C172 -/

/-- C172: for every event, every setting, every positive gain and every pedestal per pixel, the event in the other units gives the same event time,
the same pulse times, widths, rise times and crossings, the pulse heights times the gain, and the same exception if there is one. What lies behind
a row is in the units of the row. -/
theorem C172_units (kwargs : Config Setting) (mem : Nat → Option ℚ) (n : Nat) (ws : List (List ℚ)) (hw : Spec.Event n ws) (g : ℚ) (hg : 0 < g)
    (ped : Nat → ℚ) :
    timingPrepare kwargs (fun p => (mem p).map (inUnits g (ped p))) (otherUnits g ped ws) =
      (timingPrepare kwargs mem ws).map fun out => (out.1, out.2.map (timingInUnits g)) := by
  unfold timingPrepare
  rw [extractionTime_otherUnits kwargs _ g hg ped n ws hw]
  cases extractionTime kwargs "t_extract" ws with
  | error e => rfl
  | ok t =>
    have := pixelTimings_inUnits g hg ped mem (t - kwNumber kwargs "window_shift" 4)
      (t - kwNumber kwargs "window_shift" 4 + kwNumber kwargs "window_size" 8) 0 ws
    simp only [Nat.zero_add] at this
    simp only [this]
    cases pixelTimings mem (t - kwNumber kwargs "window_shift" 4) (t - kwNumber kwargs "window_shift" 4 + kwNumber kwargs "window_size" 8) 0 ws <;> rfl

/-- C172: whatever lies behind the rows, if the window ends before the last sample and no pulse is in the last half sample of its row. -/
theorem C172_any_memory (kwargs : Config Setting) (mem mem' : Nat → Option ℚ) (n : Nat) (ws : List (List ℚ)) (hw : Spec.Event n ws) (g : ℚ) (hg : 0 < g)
    (ped : Nat → ℚ) (t : Int) (ps : List PulseTiming) (h : timingPrepare kwargs mem ws = .ok (t, ps))
    (ha : 0 ≤ t - kwNumber kwargs "window_shift" 4) (hb : t - kwNumber kwargs "window_shift" 4 + kwNumber kwargs "window_size" 8 < n)
    (hp : ∀ p ∈ ps, p.tPulse < n - 1 / 2) :
    timingPrepare kwargs mem' (otherUnits g ped ws) = .ok (t, ps.map (timingInUnits g)) := by
  have h1 := C172_units kwargs mem n ws hw g hg ped
  rw [h] at h1
  have hw' : ∀ r ∈ otherUnits g ped ws, r.length = n := by
    intro r hr
    obtain ⟨i, hi, rfl⟩ := List.mem_iff_getElem.1 hr
    simp only [otherUnits, List.getElem_mapIdx, List.length_map]
    exact hw.2 _ (List.getElem_mem _)
  obtain ⟨he, -, -⟩ := timing_get _ _ _ _ _ h1
  unfold timingPrepare at h1 ⊢
  rw [he] at h1 ⊢
  simp only [Except.map] at h1 ⊢
  cases h2 : pixelTimings (fun p => (mem p).map (inUnits g (ped p))) (t - kwNumber kwargs "window_shift" 4)
      (t - kwNumber kwargs "window_shift" 4 + kwNumber kwargs "window_size" 8) 0 (otherUnits g ped ws) with
  | error e => rw [h2] at h1; cases h1
  | ok qs =>
    rw [h2] at h1
    have hq : qs = ps.map (timingInUnits g) := by cases h1; rfl
    rw [pixelTimings_beyond _ mem' n _ _ ha hb 0 _ hw' qs h2 ?_, hq]
    intro q hq'
    rw [hq] at hq'
    obtain ⟨p, hp', rfl⟩ := List.mem_map.1 hq'
    exact hp p hp'

/-- C172: with the default window and at least 20 samples the window is always inside. -/
theorem C172_default (kwargs : Config Setting) (mem mem' : Nat → Option ℚ) (n : Nat) (hn : 20 ≤ n) (ws : List (List ℚ)) (hw : Spec.Event n ws) (g : ℚ)
    (hg : 0 < g) (ped : Nat → ℚ) (h1 : Dict.get? kwargs "t_extract" = none) (h2 : Dict.get? kwargs "window_shift" = none)
    (h3 : Dict.get? kwargs "window_size" = none) (t : Int) (ps : List PulseTiming) (h : timingPrepare kwargs mem ws = .ok (t, ps))
    (hp : ∀ p ∈ ps, p.tPulse < n - 1 / 2) :
    timingPrepare kwargs mem' (otherUnits g ped ws) = .ok (t, ps.map (timingInUnits g)) := by
  have k1 : kwNumber kwargs "window_shift" 4 = 4 := by unfold kwNumber; rw [h2]
  have k2 : kwNumber kwargs "window_size" 8 = 8 := by unfold kwNumber; rw [h3]
  obtain ⟨he, -, -⟩ := timing_get _ _ _ _ _ h
  unfold extractionTime at he
  rw [h1] at he
  simp only at he
  obtain ⟨p, -, hd⟩ := defaultTime_clamped n ws hw hn
  rw [he] at hd
  have ht : t = (clampedTime n p : Nat) := by cases hd; rfl
  have : 10 ≤ clampedTime n p ∧ clampedTime n p + 10 ≤ n := by unfold clampedTime; omega
  exact C172_any_memory kwargs mem mem' n ws hw g hg ped t ps h (by rw [k1]; omega) (by rw [k1, k2]; omega) hp

/-- two pixels of 30 samples with a pulse each -/
def pulsePair : List (List ℚ) :=
  [List.replicate 14 0 ++ [2, 6, 10, 7, 3, 1] ++ List.replicate 10 0, List.replicate 15 1 ++ [2, 6, 9, 5, 3] ++ List.replicate 10 1]

/-- the gain 3 and the pedestals 5 and -2, with other numbers behind the rows: the same times, three times the height -/
example : timingPrepare [] (fun p => some (100 * p : ℚ)) (otherUnits 3 (fun p => if p = 0 then 5 else -2) pulsePair) =
    .ok (16, [⟨225 / 14, 3 * (561 / 56), some (615 / 224), some (721 / 320), 6609 / 448, 7839 / 448, 15121 / 1120, 35289 / 2240⟩,
      ⟨237 / 14, 3 * (449 / 56), some (503 / 224), some (1627 / 840), 7057 / 448, 8063 / 448, 8289 / 560, 28121 / 1680⟩]) :=
  C172_default [] (fun _ => none) _ 30 (by decide) pulsePair ⟨by simp [pulsePair], by decide +kernel⟩ 3 (by norm_num) _ rfl rfl rfl 16
    [⟨225 / 14, 561 / 56, some (615 / 224), some (721 / 320), 6609 / 448, 7839 / 448, 15121 / 1120, 35289 / 2240⟩,
      ⟨237 / 14, 449 / 56, some (503 / 224), some (1627 / 840), 7057 / 448, 8063 / 448, 8289 / 560, 28121 / 1680⟩] (by decide +kernel)
    (by intro p hp; simp only [List.mem_cons, List.not_mem_nil, or_false] at hp; rcases hp with rfl | rfl <;> norm_num)

end Verif.Props
