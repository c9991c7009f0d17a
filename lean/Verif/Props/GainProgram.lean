import Verif.Props.DefaultRun
import Verif.Props.GainFile
import Mathlib.Tactic.LinearCombination

/-!
# C164: the gain of a run in the file `extract_dl1` makes with its own chain

C152 has the gain for chains of `AverageWF`, `Saturation` and `Common`. Here it is the chain the program builds from its table of columns or from a configuration file, with the reference
pulse, so both runs are known to be extracted (C157).
-/

namespace Verif.Props

open Verif.Py Verif.Model Verif.Spec Verif.Lemmas

variable {τ ν : Type}

/-! ### vocabulary -/

/-- what the gain does to the columns of the program: amplitudes grow with it, variances with its square, all others stay -/
def programFactor (g : ℚ) (name : String) : ℚ :=
  if name ∈ ["baseline_start_rms", "baseline_end_rms", "waveform_rms"] then g ^ 2
  else if name ∈ ["baseline_subtracted", "charge_averagewf", "charge_cc", "height_cc", "saturation_sum", "baseline_start_mean", "baseline_end_mean", "waveform_mean"] then g
  else 1

/-- the reference pulse fits best at a sample that has a sample before and after it -/
def MatchedInside (n : Nat) (y : List ℚ) (w : List (List ℚ)) : Prop :=
  ∀ am peak : Nat, FirstMax y.length (fun i => y.getD i 0) am → FirstMax n (fun i => (w.map fun r => matchedCharge y am r i).sum) peak → 0 < peak ∧ peak + 1 < n

/-! ### the values of the columns -/

theorem windowSum_times (g : ℚ) (r : List ℚ) (a k : Nat) : windowSum (r.map (g * ·)) a k = g * windowSum r a k := by
  unfold windowSum
  rw [← sum_map_times, List.map_map]
  congr 1
  refine List.map_congr_left fun i _ => ?_
  exact getD_times g r _

theorem getD_rows_times (g : ℚ) (w : List (List ℚ)) (p : Nat) : (amplified g w).getD p [] = (w.getD p []).map (g * ·) := by
  unfold amplified
  simp only [List.getD_eq_getElem?_getD, List.getElem?_map]
  cases w[p]? <;> rfl

theorem cameraSum_times (g : ℚ) (w : List (List ℚ)) : cameraSum (amplified g w) = fun j => g * cameraSum w j := by
  funext j
  unfold cameraSum amplified
  rw [← sum_map_times, List.map_map, List.map_map]
  congr 1
  exact List.map_congr_left fun r _ => getD_times g r j

theorem firstMax_times (g : ℚ) (hg : 0 < g) (n : Nat) (f : Nat → ℚ) (p : Nat) : FirstMax n (fun j => g * f j) p ↔ FirstMax n f p := by
  unfold FirstMax
  simp only [mul_le_mul_iff_of_pos_left hg, mul_lt_mul_iff_of_pos_left hg]

theorem sampleOrZero_times (g : ℚ) (r : List ℚ) (j : Int) : sampleOrZero (r.map (g * ·)) j = g * sampleOrZero r j := by
  unfold sampleOrZero
  split
  · exact getD_times g r _
  · ring

theorem matchedCharge_times (g : ℚ) (y : List ℚ) (am : Nat) (r : List ℚ) (i : Nat) : matchedCharge y am (r.map (g * ·)) i = g * matchedCharge y am r i := by
  unfold matchedCharge
  have : ((List.range y.length).map fun k : Nat => y.getD k 0 * sampleOrZero (r.map (g * ·)) ((i : Int) + k - am)).sum =
      g * ((List.range y.length).map fun k : Nat => y.getD k 0 * sampleOrZero r ((i : Int) + k - am)).sum := by
    rw [← sum_map_times, List.map_map]
    congr 1
    refine List.map_congr_left fun k _ => ?_
    simp only [Function.comp, sampleOrZero_times]
    ring
  rw [this]
  ring

theorem matchedSum_times (g : ℚ) (y : List ℚ) (am : Nat) (w : List (List ℚ)) :
    (fun i => ((amplified g w).map fun r => matchedCharge y am r i).sum) = fun i => g * (w.map fun r => matchedCharge y am r i).sum := by
  funext i
  unfold amplified
  rw [← sum_map_times, List.map_map, List.map_map]
  congr 1
  exact List.map_congr_left fun r _ => matchedCharge_times g y am r i

theorem windowVariance_times (g : ℚ) (r : List ℚ) (a k : Nat) : windowVariance (r.map (g * ·)) a k = g ^ 2 * windowVariance r a k := by
  unfold windowVariance
  rw [windowSum_times, List.map_map]
  have : (r.map ((fun x => (x - g * windowSum r a k / k) ^ 2) ∘ (g * ·))) = (r.map fun x => (x - windowSum r a k / k) ^ 2).map (g ^ 2 * ·) := by
    rw [List.map_map]
    refine List.map_congr_left fun x _ => ?_
    simp only [Function.comp]
    ring
  rw [this, windowSum_times]
  ring

theorem vertexTime_times (g : ℚ) (hg : 0 < g) (n : Nat) (f : Nat → ℚ) (k : Nat) : vertexTime n (fun i => g * f i) k = vertexTime n f k := by
  unfold vertexTime
  have hc : g * f (k - 1) - 2 * (g * f k) + g * f (k + 1) = g * (f (k - 1) - 2 * f k + f (k + 1)) := by ring
  have ha : g * f (k - 1) - g * f (k + 1) = g * (f (k - 1) - f (k + 1)) := by ring
  simp only [hc, ha]
  generalize f (k - 1) - 2 * f k + f (k + 1) = b
  generalize f (k - 1) - f (k + 1) = a
  have hg' := ne_of_gt hg
  have h1 : g * a / (2 * (g * b)) = a / (2 * b) := by
    rw [show 2 * (g * b) = g * (2 * b) by ring, mul_div_mul_left _ _ hg']
  rw [h1]
  simp only [mul_ne_zero_iff, hg', ne_eq, not_false_eq_true, true_and]

/-- the columns of an event and of the same event with another gain -/
theorem columns_times (g : ℚ) (hg : 0 < g) (C : Configured) (n : Nat) (y : List ℚ) (w : List (List ℚ)) (p : Nat) (full full' : Dict String (Cell τ))
    (h : ConfiguredColumns C n y w p full) (h' : ConfiguredColumns C n y (amplified g w) p full') :
    (∀ c ∈ plainColumns, c ≠ "t_cc" → Dict.get? full' c = (Dict.get? full c).map (Cell.times (programFactor g c))) ∧
    (MatchedInside n y w → Dict.get? full' "t_cc" = Dict.get? full "t_cc") := by
  obtain ⟨t, t1, t2, t3, t4⟩ := h.average
  obtain ⟨u, u1, u2, u3, u4⟩ := h'.average
  rw [cameraSum_times, firstMax_times g hg] at u1
  obtain rfl := firstMax_unique t1 u1
  obtain ⟨am, peak, hh, tc, a1, a2, a3, -, -, a4, a5, a6, a7⟩ := h.correlation
  obtain ⟨am', peak', hh', tc', b1, b2, b3, -, -, b4, b5, b6, b7⟩ := h'.correlation
  obtain rfl := firstMax_unique a1 b1
  rw [matchedSum_times, firstMax_times g hg] at b2
  obtain rfl := firstMax_unique a2 b2
  obtain rfl : hh = hh' := le_antisymm (b3.2 _ a3.1) (a3.2 _ b3.1)
  rw [getD_rows_times] at u3 u4 b4 b5 b6
  have e1 := h'.startMean
  have e2 := h'.startRms
  have e3 := h'.endMean
  have e4 := h'.endRms
  have e5 := h'.waveMean
  have e6 := h'.waveRms
  rw [getD_rows_times] at e1 e2 e3 e4 e5 e6
  rw [windowSum_times] at u3 u4 e1 e3 e5
  rw [windowVariance_times] at e2 e4 e6
  rw [matchedCharge_times] at b5 b6
  have hmc : matchedCharge y am ((w.getD p []).map (g * ·)) = fun i => g * matchedCharge y am (w.getD p []) i := funext fun i => matchedCharge_times g y am _ i
  rw [hmc, vertexTime_times g hg] at b4
  refine ⟨?_, ?_⟩
  · intro c hc hne
    simp only [plainColumns, List.mem_cons, List.not_mem_nil, or_false] at hc
    rcases hc with rfl | rfl | rfl | rfl | rfl | rfl | rfl | rfl | rfl | rfl | rfl | rfl
    all_goals first
      | exact absurd rfl hne
      | (rw [t2, u2]; simp [Cell.times, programFactor])
      | (rw [t3, u3]; simp [Cell.times, programFactor])
      | (rw [t4, u4]; simp [Cell.times, programFactor])
      | (rw [a5, b5]; simp [Cell.times, programFactor])
      | (rw [a6, b6]; simp [Cell.times, programFactor]; done)
      | (rw [a6, b6]; simp [Cell.times, programFactor]; ring)
      | (rw [h.startMean, e1]; simp [Cell.times, programFactor]; ring)
      | (rw [h.startRms, e2]; simp [Cell.times, programFactor])
      | (rw [h.endMean, e3]; simp [Cell.times, programFactor]; ring)
      | (rw [h.endRms, e4]; simp [Cell.times, programFactor])
      | (rw [h.waveMean, e5]; simp [Cell.times, programFactor]; ring)
      | (rw [h.waveRms, e6]; simp [Cell.times, programFactor])
  · intro hin
    obtain ⟨i1, i2⟩ := hin am peak a1 a2
    rw [a7, b7, a4 i1 i2, b4 i1 i2]

/-- the whole row -/
theorem row_times (g : ℚ) (hg : 0 < g) (C : Configured) (hplain : ∀ c ∈ C.columns, c ∈ plainColumns) (n : Nat) (y : List ℚ) (e : Model.Event τ (RawWf τ)) (w : List (List ℚ)) (base : ℚ) (p : Nat)
    (row row' : Dict String (Cell τ)) (h : ConfiguredRow C n y e w base p row) (h' : ConfiguredRow C n y (louderEvent g e) (amplified g w) (g * base) p row') :
    (∀ c, c ∉ ["t_cc", "t_tack", "first_cell_id", "mc_true"] → Dict.get? row' c = (Dict.get? row c).map (Cell.times (programFactor g c))) ∧
    (∀ c ∈ ["t_tack", "first_cell_id", "mc_true"], Dict.get? row' c = Dict.get? row c) ∧
    (MatchedInside n y w → Dict.get? row' "t_cc" = Dict.get? row "t_cc") := by
  obtain ⟨full, f1, f2⟩ := h.columns
  obtain ⟨full', f1', f2'⟩ := h'.columns
  obtain ⟨k1, k2⟩ := columns_times g hg C n y w p full full' f1 f1'
  refine ⟨?_, ?_, ?_⟩
  · intro c hc
    simp only [List.mem_cons, List.not_mem_nil, or_false, not_or] at hc
    by_cases hm : c ∈ C.columns
    · rw [f2 c hm, f2' c hm]
      exact k1 c (hplain c hm) hc.1
    by_cases h1 : c = "t_cpu"
    · subst h1
      rw [h.tCpu, h'.tCpu]
      rfl
    by_cases h2 : c = "baseline_subtracted"
    · subst h2
      rw [h.baseline, h'.baseline]
      simp [Cell.times, programFactor]
    · have hown : c ∉ ["t_cpu", "t_tack", "first_cell_id", "baseline_subtracted", "mc_true"] := by
        simp only [List.mem_cons, List.not_mem_nil, or_false, not_or]
        exact ⟨h1, hc.2.1, hc.2.2.1, h2, hc.2.2.2⟩
      rw [h.nothingElse c hown hm, h'.nothingElse c hown hm]
      rfl
  · intro c hc
    simp only [List.mem_cons, List.not_mem_nil, or_false] at hc
    rcases hc with rfl | rfl | rfl
    · rw [h.tTack, h'.tTack]; rfl
    · rw [h.firstCell, h'.firstCell]; rfl
    · rw [h.truth, h'.truth]; rfl
  · intro hin
    by_cases hm : "t_cc" ∈ C.columns
    · rw [f2 _ hm, f2' _ hm]
      exact k2 hin
    · rw [h.nothingElse _ (by decide) hm, h'.nothingElse _ (by decide) hm]

/-! ### the waveforms -/

theorem linearAt_times (g : ℚ) (r : List ℚ) (x : ℚ) : linearAt (r.map (g * ·)) x = g * linearAt r x := by
  unfold linearAt
  simp only [List.length_map, getD_times]
  ring

theorem aligned_times (g : ℚ) (isMc : Bool) (tCor : List ℚ) (n : Nat) (rows tc tc' : List (List ℚ)) (h : Aligned isMc tCor n rows tc) (h' : Aligned isMc tCor n (amplified g rows) tc') :
    tc' = amplified g tc := by
  obtain ⟨l, hl⟩ := h
  obtain ⟨l', hl'⟩ := h'
  have hlen : (amplified g rows).length = rows.length := by simp [amplified]
  refine List.ext_getElem? fun p => ?_
  cases hr : rows[p]? with
  | none =>
    have hle := List.getElem?_eq_none_iff.1 hr
    rw [List.getElem?_eq_none (by omega), List.getElem?_eq_none (by simp [amplified]; omega)]
  | some row =>
    have hr' : (amplified g rows)[p]? = some (row.map (g * ·)) := by simp [amplified, hr]
    rw [hl' p _ hr']
    unfold amplified
    rw [List.getElem?_map, hl p row hr]
    cases isMc
    · simp only [Bool.false_eq_true, if_false, Option.map_some, List.map_map, Option.some.injEq]
      exact List.map_congr_left fun i _ => linearAt_times g row _
    · simp

theorem headSum_times (g : ℚ) (m : Nat) (rows : List (List ℚ)) (p : Nat) : headSum m (amplified g rows) p = g * headSum m rows p := by
  unfold headSum
  rw [getD_rows_times, ← List.map_take, sum_map_times]

theorem rollingBaseline_times (g : ℚ) (n m : Nat) (source source' : List WfEvent) (hs : source'.map (·.rows) = source.map fun e => amplified g e.rows) (ws : List (List (List ℚ))) (p : Nat) :
    rollingBaseline n m source' (ws.map (amplified g)) p = g * rollingBaseline n m source ws p := by
  unfold rollingBaseline
  have h1 : (((ws.map (amplified g)).drop ((ws.map (amplified g)).length - n)).map fun w => headSum m w p).sum = g * ((ws.drop (ws.length - n)).map fun w => headSum m w p).sum := by
    rw [List.length_map, ← List.map_drop, List.map_map, ← sum_map_times, List.map_map]
    congr 1
    exact List.map_congr_left fun w _ => headSum_times g m w p
  have h2 : (((source'.take n).drop (ws.map (amplified g)).length).map fun e => headSum m e.rows p).sum = g * (((source.take n).drop ws.length).map fun e => headSum m e.rows p).sum := by
    have e1 : ((source'.take n).drop (ws.map (amplified g)).length).map (fun e => headSum m e.rows p) = (((source'.map (·.rows)).take n).drop ws.length).map fun r => headSum m r p := by
      rw [List.length_map, ← List.map_take, ← List.map_drop, List.map_map]
      rfl
    rw [e1, hs, ← List.map_take, ← List.map_drop, List.map_map, ← sum_map_times, List.map_map]
    congr 1
    exact List.map_congr_left fun e _ => headSum_times g m e.rows p
  rw [h1, h2]
  ring

theorem minusBaseline_times (g : ℚ) (rows : List (List ℚ)) (b b' : Nat → ℚ) (hb : ∀ p, b' p = g * b p) : minusBaseline (amplified g rows) b' = amplified g (minusBaseline rows b) := by
  unfold minusBaseline amplified
  refine List.ext_getElem? fun p => ?_
  simp only [List.getElem?_mapIdx, List.getElem?_map, Option.map_map]
  cases rows[p]? with
  | none => rfl
  | some r =>
    simp only [Option.map_some, Function.comp, List.map_map, Option.some.injEq, hb]
    refine List.map_congr_left fun x _ => ?_
    simp only [Function.comp]
    ring

theorem louder_plain (g : ℚ) (rd : RawReader τ (RawWf τ) (Dict String (Cell τ)) ν) (n : Nat) (h : PlainRun rd n) : PlainRun (louderRun g rd) n := by
  have hm : ∀ e ∈ (louderRun g rd).events, ∃ e0 ∈ rd.events, e = louderEvent g e0 := fun e he => by
    obtain ⟨e0, h1, h2⟩ := List.mem_map.1 he
    exact ⟨e0, h1, h2.symm⟩
  refine ⟨?_, ?_, ?_, ?_, ?_⟩
  · intro j hj
    have hj' : j < rd.events.length := by simpa [louderRun] using hj
    have := h.numbered j hj'
    simpa [louderRun, louderEvent] using this
  · intro e he
    obtain ⟨e0, h0, rfl⟩ := hm e he
    refine ⟨by simpa [louderEvent, amplified, louderRun] using (h.shape e0 h0).1, fun r hr => ?_⟩
    simp only [louderEvent, amplified, List.mem_map] at hr
    obtain ⟨r0, hr0, rfl⟩ := hr
    rw [List.length_map]
    exact (h.shape e0 h0).2 r0 hr0
  · intro hmc e he
    obtain ⟨e0, h0, rfl⟩ := hm e he
    exact h.floats hmc e0 h0
  · intro e he l hl
    obtain ⟨e0, h0, rfl⟩ := hm e he
    exact h.cells e0 h0 l hl
  · intro e he l hl
    obtain ⟨e0, h0, rfl⟩ := hm e he
    exact h.truth e0 h0 l hl

/-! ### the file -/

/-- **C164**: a run and the same run recorded with another gain are both extracted by the chain the program builds, and for every processed event and every pixel the rows of the two files
hold, before the conversion to the type of the column, the same numbers multiplied by the factor of the column; the time of the correlation is the same if the best match is inside the
readout. -/
theorem C164_program [DecidableEq ν] (g : ℚ) (hg : 0 < g) (pulse : String → Except Err (List ℚ)) (after : List (List ℚ) → Option ℚ)
    (rest : Shipped → ReducerClass RSetting ProgState (List (List ℚ)) ColVal) (found : List Shipped) (hall : ∀ c, c ∈ found) (C : Configured)
    (file : Config RSetting) (hs : Sets C file) (load : String → Yaml RSetting) (configPath : Option String) (hl : Loaded load configPath file)
    (path : String) (y : List ℚ) (hy : (∃ col ∈ Shipped.crossCorrelation.columns, col ∈ C.columns) → path ≠ "" ∧ pulse path = .ok y) (hA : 0 < area y)
    (rd : RawReader τ (RawWf τ) (Dict String (Cell τ)) ν) (n : Nat) (hrun : PlainRun rd n) (hn : 20 ≤ n) (hp : 1 ≤ rd.nPixels) (hp' : rd.nPixels ≤ 2048)
    (hlen : rd.events.length ≤ 2 ^ 32) (hne : goodEvents rd.events ≠ []) (hm : (Dict.keys rd.otherMeta).Nodup) (hmc : rd.isMc = true → rd.mcheader ≠ none)
    (tCor : List ℚ) (hread : ReadFrom tCor shippedTCor) (config : MetaDict ν) (enc : Option τ → ν) :
    ∃ chain x x', programChain pulse after rest found load configPath path = .ok chain ∧ newExtractor rd tCor (.ok chain) config = .ok x ∧
      newExtractor (louderRun g rd) tCor (.ok chain) config = .ok x' ∧
      ∀ (mem mem' : List (DRow (Dict String (Cell τ))) → Nat) (cast : String → Cell τ → Cell τ) (order order' : List String),
        IsOrder (dl1Calls rd x enc).1 order → IsOrder (dl1Calls (louderRun g rd) x' enc).1 order' →
        ∃ s r s' r', writeDl1File mem (castColumns cast) rd x enc order = (.ok s, none) ∧ openReader s = .ok r ∧
          writeDl1File mem' (castColumns cast) (louderRun g rd) x' enc order' = (.ok s', none) ∧ openReader s' = .ok r' ∧
          (∀ e ∈ goodEvents rd.events, ∃ rows rows', dl1GetItem r e.iev = .ok rows ∧ dl1GetItem r' e.iev = .ok rows' ∧ rows.length = rd.nPixels ∧ rows'.length = rd.nPixels ∧
            ∃ w, ∀ p < rd.nPixels, ∃ base vals vals', ConfiguredRow C n y e w base p vals ∧
              rows[p]? = some ⟨e.iev, some p, castColumns cast vals⟩ ∧ rows'[p]? = some ⟨e.iev, some p, castColumns cast vals'⟩ ∧
              (∀ c, c ∉ ["t_cc", "t_tack", "first_cell_id", "mc_true"] → Dict.get? vals' c = (Dict.get? vals c).map (Cell.times (programFactor g c))) ∧
              (∀ c ∈ ["t_tack", "first_cell_id", "mc_true"], Dict.get? vals' c = Dict.get? vals c) ∧
              (MatchedInside n y w → Dict.get? vals' "t_cc" = Dict.get? vals "t_cc")) ∧
          ∀ id : Int, (∀ e ∈ goodEvents rd.events, (e.iev : Int) ≠ id) → dl1GetItem r id = .error .indexError ∧ dl1GetItem r' id = .error .indexError := by
  have hgood : goodEvents (louderRun g rd).events = (goodEvents rd.events).map (louderEvent g) := goodEvents_map (louderEvent g) (fun e => ⟨rfl, rfl⟩) _
  obtain ⟨chain, x, tcs, c1, c2, -, c4, c5⟩ := C157_configured_run pulse after rest found hall C file hs load configPath hl path y hy hA rd n hrun hn hp hp' hlen hne hm hmc tCor hread config enc
  obtain ⟨chain', x', tcs', d1, d2, -, d4, d5⟩ := C157_configured_run pulse after rest found hall C file hs load configPath hl path y hy hA (louderRun g rd) n (louder_plain g rd n hrun)
    hn hp hp' (by simpa [louderRun] using hlen) (by rw [hgood]; simpa using hne) hm hmc tCor hread config enc
  rw [c1] at d1
  obtain rfl := Except.ok.inj d1
  have htcs : tcs' = tcs.map (amplified g) := by
    rw [hgood, List.forall₂_map_left_iff] at d4
    generalize goodEvents rd.events = es at c4 d4
    clear c5 d5
    induction es generalizing tcs tcs' with
    | nil => cases c4; cases d4; rfl
    | cons e es ih =>
      cases c4 with
      | cons a1 a2 =>
        cases d4 with
        | cons b1 b2 =>
          rw [List.map_cons, ih _ _ a2 b2, aligned_times g _ _ _ _ _ _ a1 b1]
  have hsrc : (wfEvents (louderRun g rd).events).map (·.rows) = (wfEvents rd.events).map fun e => amplified g e.rows := by
    simp [wfEvents, louderRun, louderEvent]
  refine ⟨chain, x, x', c1, c2, d2, fun mem mem' cast order order' ho ho' => ?_⟩
  obtain ⟨s, r, s1, s2, s3, s4⟩ := c5 mem cast order ho
  obtain ⟨s', r', s1', s2', s3', s4'⟩ := d5 mem' cast order' ho'
  refine ⟨s, r, s', r', s1, s2, s1', s2', ?_, ?_⟩
  · intro e he
    obtain ⟨k, hk⟩ := List.mem_iff_getElem?.1 he
    have hkl := (List.getElem?_eq_some_iff.1 hk).1
    have hlt : tcs.length = (goodEvents rd.events).length := c4.length_eq.symm
    obtain ⟨tc, htc⟩ : ∃ tc, tcs[k]? = some tc := ⟨tcs[k], List.getElem?_eq_getElem (by omega)⟩
    obtain ⟨rows, r1, r2, r3⟩ := s3 k e tc hk htc
    obtain ⟨rows', r1', r2', r3'⟩ := s3' k (louderEvent g e) (amplified g tc) (by rw [hgood, List.getElem?_map, hk]; rfl) (by rw [htcs, List.getElem?_map, htc]; rfl)
    refine ⟨rows, rows', r1, r1', r2, r2', minusBaseline tc fun q => rollingBaseline 50 16 (wfEvents rd.events) (tcs.take (k + 1)) q, fun p hpp => ?_⟩
    obtain ⟨vals, v1, v2⟩ := r3 p hpp
    obtain ⟨vals', v1', v2'⟩ := r3' p hpp
    have hb : ∀ q, rollingBaseline 50 16 (wfEvents (louderRun g rd).events) (tcs'.take (k + 1)) q = g * rollingBaseline 50 16 (wfEvents rd.events) (tcs.take (k + 1)) q := fun q => by
      rw [htcs, ← List.map_take]
      exact rollingBaseline_times g 50 16 _ _ hsrc _ q
    rw [minusBaseline_times g tc (fun q => rollingBaseline 50 16 (wfEvents rd.events) (tcs.take (k + 1)) q) _ hb, hb p] at v2'
    obtain ⟨z1, z2, z3⟩ := row_times g hg C hs.plain n y e _ _ p vals vals' v2 v2'
    exact ⟨_, vals, vals', v2, v1, v1', z1, z2, z3⟩
  · intro id hid
    refine ⟨s4 id hid, s4' id fun e he => ?_⟩
    rw [hgood] at he
    obtain ⟨e0, h0, rfl⟩ := List.mem_map.1 he
    exact hid e0 h0

/-- The hypotheses can be met: the run of `C155`, with the built-in table and twice the gain. -/
example := C164_program (ν := Unit) 2 (by norm_num) (fun _ => .ok [1, 2, 1]) (fun _ => none) (fun c => ⟨"", c.columns, fun _ => .error .runtimeError, fun _ _ _ => .error .runtimeError,
    fun _ _ _ => .error .runtimeError, fun _ s => s⟩) everyReducer (by intro c; cases c <;> decide) builtIn _ builtIn_sets (fun _ => .null) none (Or.inl ⟨Or.inl rfl, rfl⟩) "pulse.txt"
  [1, 2, 1] (fun _ => ⟨by decide, rfl⟩) (by decide +kernel) pulseRun 24 pulseRun_plain (by decide) (by decide) (by decide) (by decide) (by decide) (by decide) (by intro h; cases h)
  shippedTCor (List.forall₂_same.2 fun x _ => by norm_num) [] (fun _ => ())

/-- the best match of the first event of that run, taken without baseline, is inside the readout -/
example : FirstMax 3 (fun i => [1, 2, 1].getD i 0) 1 ∧ FirstMax 24 (fun i => ((pulseEvent 0 false 11).payload.rows.map fun r => matchedCharge [1, 2, 1] 1 r i).sum) 11 := by
  unfold FirstMax
  decide +kernel

end Verif.Props
