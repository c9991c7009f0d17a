import Verif.Props.OtherPixels
import Verif.Props.MaxEvents

/-!
# C169: which events of a run the rows of an event depend on

The baseline subtracted from an event is the one of the last fifty events (C29). Two runs, extracted by the chain `extract_dl1` builds, which agree in these.
-/

namespace Verif.Props

open Verif.Py Verif.Model Verif.Spec Verif.Lemmas

variable {τ ν : Type}

/-! ### vocabulary -/

/-- two events with the same number of which both or none are processed; all else may differ -/
structure SameFate (e e' : Model.Event τ (RawWf τ)) : Prop where
  iev : e.iev = e'.iev
  stale : e.stale = e'.stale
  packets : e.missingPackets = e'.missingPackets

/-- the runs agree in what the `k`-th processed event is corrected with: itself and the 49 processed events before it; and, for the first 49 of them, the recorded events that still fill the
buffer -/
structure SameHistory (k : Nat) (rd rd' : RawReader τ (RawWf τ) (Dict String (Cell τ)) ν) : Prop where
  processed : ∀ j, j ≤ k → k < j + 50 → (goodEvents rd.events)[j]? = (goodEvents rd'.events)[j]?
  recorded : ∀ j, k < j → j < 50 → (rd.events[j]?).map (·.payload.rows) = (rd'.events[j]?).map (·.payload.rows)

/-! ### the baseline -/

theorem aligned_unique (isMc : Bool) (tCor : List ℚ) (n : Nat) (rows tc tc' : List (List ℚ)) (h : Aligned isMc tCor n rows tc) (h' : Aligned isMc tCor n rows tc') : tc = tc' := by
  refine List.ext_getElem? fun p => ?_
  by_cases hp : p < rows.length
  · rw [h.2 p _ (List.getElem?_eq_getElem hp), h'.2 p _ (List.getElem?_eq_getElem hp)]
  · rw [List.getElem?_eq_none (by rw [h.1]; omega), List.getElem?_eq_none (by rw [h'.1]; omega)]

theorem rollingBaseline_history (k m : Nat) (source source' : List WfEvent) (ws ws' : List (List (List ℚ))) (hk : k < ws.length) (hk' : k < ws'.length)
    (hw : ∀ j, j ≤ k → k < j + 50 → ws[j]? = ws'[j]?) (hs : ∀ j, k < j → j < 50 → (source[j]?).map (·.rows) = (source'[j]?).map (·.rows)) (p : Nat) :
    rollingBaseline 50 m source (ws.take (k + 1)) p = rollingBaseline 50 m source' (ws'.take (k + 1)) p := by
  have l1 : (ws.take (k + 1)).length = k + 1 := by rw [List.length_take]; omega
  have l2 : (ws'.take (k + 1)).length = k + 1 := by rw [List.length_take]; omega
  unfold rollingBaseline
  rw [l1, l2]
  have h1 : (ws.take (k + 1)).drop (k + 1 - 50) = (ws'.take (k + 1)).drop (k + 1 - 50) := by
    refine List.ext_getElem? fun i => ?_
    rw [List.getElem?_drop, List.getElem?_drop, List.getElem?_take, List.getElem?_take]
    split
    · exact hw _ (by omega) (by omega)
    · rfl
  have h2 : ((source.take 50).drop (k + 1)).map (fun e => headSum m e.rows p) = ((source'.take 50).drop (k + 1)).map fun e => headSum m e.rows p := by
    refine List.ext_getElem? fun i => ?_
    rw [List.getElem?_map, List.getElem?_map, List.getElem?_drop, List.getElem?_drop, List.getElem?_take, List.getElem?_take]
    split
    · have := hs (k + 1 + i) (by omega) (by omega)
      have := congrArg (Option.map fun r => headSum m r p) this
      simpa [Option.map_map, Function.comp_def] using this
    · rfl
  rw [h1, h2]

/-! ### the row -/

theorem row_determined (C : Configured) (hplain : ∀ c ∈ C.columns, c ∈ plainColumns) (n : Nat) (y : List ℚ) (p : Nat) (e : Model.Event τ (RawWf τ)) (w : List (List ℚ)) (base : ℚ)
    (row row' : Dict String (Cell τ)) (h : ConfiguredRow C n y e w base p row) (h' : ConfiguredRow C n y e w base p row') :
    (∀ c, c ≠ "t_cc" → Dict.get? row' c = Dict.get? row c) ∧ (MatchedInside n y w → Dict.get? row' "t_cc" = Dict.get? row "t_cc") := by
  have hr := row_same C hplain n y p e e ⟨rfl, rfl, rfl, rfl, rfl, rfl, rfl, rfl⟩ w w rfl base row row' h h'
  have hpeak : SamePeak n w w := by
    obtain ⟨full, f1, -⟩ := h.columns
    obtain ⟨t, t1, -⟩ := f1.average
    exact ⟨t, t1, t1⟩
  have hmatch : SameMatch n y w w := by
    obtain ⟨full, f1, -⟩ := h.columns
    obtain ⟨am, peak, -, -, a1, a2, -⟩ := f1.correlation
    exact ⟨am, peak, a1, a2, a2⟩
  refine ⟨fun c hc => ?_, hr.time hmatch⟩
  by_cases hm : c ∈ ["t_averagewf", "charge_averagewf", "saturation_sum", "charge_cc", "height_cc", "t_cc"]
  · simp only [List.mem_cons, List.not_mem_nil, or_false] at hm
    rcases hm with rfl | rfl | rfl | rfl | rfl | rfl
    · exact hr.average _ (by simp) (.inr hpeak)
    · exact hr.average _ (by simp) (.inr hpeak)
    · exact hr.saturation (.inr hpeak)
    · exact hr.matched _ (by simp) hmatch
    · exact hr.matched _ (by simp) hmatch
    · exact absurd rfl hc
  · exact hr.own c hm

/-! ### the file -/

/-- **C169**: in the files of two runs of the same camera the rows of the `k`-th processed event are equal, before the conversion to the type of the column, if the runs agree in this event, the
49 processed before it and, as long as there are fewer, the recorded ones that fill the buffer; the time of the correlation is equal if the best match is inside the readout. -/
theorem C169_program [DecidableEq ν] (pulse : String → Except Err (List ℚ)) (after : List (List ℚ) → Option ℚ)
    (rest : Shipped → ReducerClass RSetting ProgState (List (List ℚ)) ColVal) (found : List Shipped) (hall : ∀ c, c ∈ found) (C : Configured)
    (file : Config RSetting) (hs : Sets C file) (load : String → Yaml RSetting) (configPath : Option String) (hl : Loaded load configPath file)
    (path : String) (y : List ℚ) (hy : (∃ col ∈ Shipped.crossCorrelation.columns, col ∈ C.columns) → path ≠ "" ∧ pulse path = .ok y) (hA : 0 < area y)
    (rd rd' : RawReader τ (RawWf τ) (Dict String (Cell τ)) ν) (hpix : rd.nPixels = rd'.nPixels) (hsim : rd.isMc = rd'.isMc) (hfate : List.Forall₂ SameFate rd.events rd'.events)
    (n : Nat) (hrun : PlainRun rd n) (hrun' : PlainRun rd' n) (hn : 20 ≤ n) (hp : 1 ≤ rd.nPixels)
    (hp' : rd.nPixels ≤ 2048) (hlen : rd.events.length ≤ 2 ^ 32) (hne : goodEvents rd.events ≠ []) (hm : (Dict.keys rd.otherMeta).Nodup) (hm' : (Dict.keys rd'.otherMeta).Nodup)
    (hmc : rd.isMc = true → rd.mcheader ≠ none) (hmc' : rd'.isMc = true → rd'.mcheader ≠ none)
    (tCor : List ℚ) (hread : ReadFrom tCor shippedTCor) (config : MetaDict ν) (enc : Option τ → ν) :
    ∃ chain x x', programChain pulse after rest found load configPath path = .ok chain ∧ newExtractor rd tCor (.ok chain) config = .ok x ∧ newExtractor rd' tCor (.ok chain) config = .ok x' ∧
      ∀ (mem mem' : List (DRow (Dict String (Cell τ))) → Nat) (cast : String → Cell τ → Cell τ) (order order' : List String),
        IsOrder (dl1Calls rd x enc).1 order → IsOrder (dl1Calls rd' x' enc).1 order' →
        ∃ s r s' r', writeDl1File mem (castColumns cast) rd x enc order = (.ok s, none) ∧ openReader s = .ok r ∧
          writeDl1File mem' (castColumns cast) rd' x' enc order' = (.ok s', none) ∧ openReader s' = .ok r' ∧
          ∀ (k : Nat) e, (goodEvents rd.events)[k]? = some e → SameHistory k rd rd' → ∃ rows rows', dl1GetItem r e.iev = .ok rows ∧ dl1GetItem r' e.iev = .ok rows' ∧
            rows.length = rd.nPixels ∧ rows'.length = rd.nPixels ∧
            ∃ w : List (List ℚ), ∀ p < rd.nPixels, ∃ base vals vals', ConfiguredRow C n y e w base p vals ∧
              rows[p]? = some ⟨e.iev, some p, castColumns cast vals⟩ ∧ rows'[p]? = some ⟨e.iev, some p, castColumns cast vals'⟩ ∧
              (∀ c, c ≠ "t_cc" → Dict.get? vals' c = Dict.get? vals c) ∧ (MatchedInside n y w → Dict.get? vals' "t_cc" = Dict.get? vals "t_cc") := by
  have hgood : List.Forall₂ SameFate (goodEvents rd.events) (goodEvents rd'.events) := by
    unfold goodEvents
    refine List.rel_filter (R := SameFate) ?_ hfate
    intro e e' he
    simp only [he.stale, he.packets]
  have hlen' : rd'.events.length = rd.events.length := hfate.length_eq.symm
  have hne' : goodEvents rd'.events ≠ [] := by
    intro h
    rw [h] at hgood
    cases hg : goodEvents rd.events with
    | nil => exact hne hg
    | cons a l => rw [hg] at hgood; cases hgood
  obtain ⟨chain, x, tcs, c1, c2, -, c4, c5⟩ := C157_configured_run pulse after rest found hall C file hs load configPath hl path y hy hA rd n hrun hn hp hp' hlen hne hm hmc tCor hread
    config enc
  obtain ⟨chain', x', tcs', d1, d2, -, d4, d5⟩ := C157_configured_run pulse after rest found hall C file hs load configPath hl path y hy hA rd' n hrun' hn (by rw [← hpix]; omega)
    (by rw [← hpix]; exact hp') (by rw [hlen']; exact hlen) hne' hm' hmc' tCor hread config enc
  rw [c1] at d1
  obtain rfl := Except.ok.inj d1
  refine ⟨chain, x, x', c1, c2, d2, fun mem mem' cast order order' ho ho' => ?_⟩
  obtain ⟨s, r, s1, s2, s3, s4⟩ := c5 mem cast order ho
  obtain ⟨s', r', s1', s2', s3', s4'⟩ := d5 mem' cast order' ho'
  refine ⟨s, r, s', r', s1, s2, s1', s2', ?_⟩
  intro k e hk hh
  have hkl := (List.getElem?_eq_some_iff.1 hk).1
  have hkt : k < tcs.length := by rw [← c4.length_eq]; exact hkl
  have hkt' : k < tcs'.length := by rw [← d4.length_eq, ← hgood.length_eq]; exact hkl
  have hk' : (goodEvents rd'.events)[k]? = some e := by rw [← hh.processed k (Nat.le_refl _) (by omega), hk]
  have hw : ∀ j, j ≤ k → k < j + 50 → tcs[j]? = tcs'[j]? := by
    intro j h1 h2
    have hj : j < (goodEvents rd.events).length := by omega
    have hj' : j < (goodEvents rd'.events).length := by rw [← hgood.length_eq]; exact hj
    have e1 := (List.forall₂_iff_get.1 c4).2 j hj (by omega)
    have e2 := (List.forall₂_iff_get.1 d4).2 j hj' (by omega)
    simp only [List.get_eq_getElem] at e1 e2
    have e3 := hh.processed j h1 h2
    rw [List.getElem?_eq_getElem hj, List.getElem?_eq_getElem hj', Option.some.injEq] at e3
    rw [← e3, ← hsim] at e2
    rw [List.getElem?_eq_getElem (by omega), List.getElem?_eq_getElem (by omega), aligned_unique _ _ _ _ _ _ e1 e2]
  have hsrc : ∀ j, k < j → j < 50 → ((wfEvents rd.events)[j]?).map (·.rows) = ((wfEvents rd'.events)[j]?).map (·.rows) := by
    intro j h1 h2
    have := hh.recorded j h1 h2
    simpa [wfEvents, Option.map_map, Function.comp_def] using this
  have hb : (fun q => rollingBaseline 50 16 (wfEvents rd'.events) (tcs'.take (k + 1)) q) = fun q => rollingBaseline 50 16 (wfEvents rd.events) (tcs.take (k + 1)) q :=
    funext fun q => (rollingBaseline_history k 16 _ _ _ _ hkt hkt' hw hsrc q).symm
  have htc : tcs'[k]? = some tcs[k] := by rw [← hw k (Nat.le_refl _) (by omega), List.getElem?_eq_getElem hkt]
  obtain ⟨rows, r1, r2, r3⟩ := s3 k e _ hk (List.getElem?_eq_getElem hkt)
  obtain ⟨rows', r1', r2', r3'⟩ := s3' k e _ hk' htc
  refine ⟨rows, rows', r1, r1', r2, by rw [hpix]; exact r2', minusBaseline tcs[k] fun q => rollingBaseline 50 16 (wfEvents rd.events) (tcs.take (k + 1)) q, fun p hpp => ?_⟩
  obtain ⟨vals, v1, v2⟩ := r3 p hpp
  obtain ⟨vals', v1', v2'⟩ := r3' p (by rw [← hpix]; exact hpp)
  rw [hb, congrFun hb p] at v2'
  obtain ⟨z1, z2⟩ := row_determined C hs.plain n y p e _ _ vals vals' v2 v2'
  exact ⟨_, vals, vals', v2, v1, v1', z1, z2⟩

/-- **C169**, from the fiftieth processed event on: whatever was recorded before the last fifty processed events, and whatever was skipped, does not matter. -/
theorem C169_later (k : Nat) (hk : 49 ≤ k) (rd rd' : RawReader τ (RawWf τ) (Dict String (Cell τ)) ν)
    (h : ∀ j, j ≤ k → k < j + 50 → (goodEvents rd.events)[j]? = (goodEvents rd'.events)[j]?) : SameHistory k rd rd' :=
  ⟨h, fun j h1 h2 => by omega⟩

/-! ### runs meeting the hypotheses, and the events before the fiftieth -/

/-- the run of `C155` with another last event -/
def otherLast : RawReader Nat (RawWf Nat) (Dict String (Cell Nat)) Unit := { pulseRun with events := [pulseEvent 0 false 11, pulseEvent 1 true 9, pulseEvent 2 false 15] }

theorem otherLast_plain : PlainRun otherLast 24 := by
  have hall : ∀ e ∈ otherLast.events, ∃ i s a, e = pulseEvent i s a := by
    intro e he
    simp only [otherLast, List.mem_cons, List.not_mem_nil, or_false] at he
    rcases he with rfl | rfl | rfl <;> exact ⟨_, _, _, rfl⟩
  refine ⟨?_, ?_, ?_, ?_, ?_⟩
  · intro j hj
    match j, hj with
    | 0, _ => rfl
    | 1, _ => rfl
    | 2, _ => rfl
  · intro e he
    obtain ⟨i, s, a, rfl⟩ := hall e he
    refine ⟨rfl, fun r hr => ?_⟩
    simp only [pulseEvent, List.mem_cons, List.not_mem_nil, or_false] at hr
    rcases hr with rfl | rfl <;> simp
  · intro _ e he
    obtain ⟨i, s, a, rfl⟩ := hall e he
    simp [pulseEvent]
  · intro e he l hl
    obtain ⟨i, s, a, rfl⟩ := hall e he
    simp only [pulseEvent, FrameCol.array.injEq] at hl
    rw [← hl]
    rfl
  · intro e he l hl
    obtain ⟨i, s, a, rfl⟩ := hall e he
    simp [pulseEvent] at hl

theorem otherLast_fate : List.Forall₂ SameFate pulseRun.events otherLast.events :=
  .cons ⟨rfl, rfl, rfl⟩ (.cons ⟨rfl, rfl, rfl⟩ (.cons ⟨rfl, rfl, rfl⟩ .nil))

/-- The hypotheses can be met: the run of `C155` and the same with another last event, the built-in table. -/
example := C169_program (ν := Unit) (fun _ => .ok [1, 2, 1]) (fun _ => none) (fun c => ⟨"", c.columns, fun _ => .error .runtimeError, fun _ _ _ => .error .runtimeError,
    fun _ _ _ => .error .runtimeError, fun _ s => s⟩) everyReducer (by intro c; cases c <;> decide) builtIn _ builtIn_sets (fun _ => .null) none (Or.inl ⟨Or.inl rfl, rfl⟩) "pulse.txt"
  [1, 2, 1] (fun _ => ⟨by decide, rfl⟩) (by decide +kernel) pulseRun otherLast rfl rfl otherLast_fate 24 pulseRun_plain otherLast_plain (by decide) (by decide) (by decide) (by decide)
  (by decide) (by decide) (by decide) (by intro h; cases h) (by intro h; cases h) shippedTCor (List.forall₂_same.2 fun x _ => by norm_num) [] (fun _ => ())

/-- A history in which the runs agree: sixty flat events, and the same with another first one. The sixtieth event has the same history in both. -/
example : SameHistory 59 (flatRun ((List.range 60).map fun i => flatEvent i false 0)) (flatRun ((List.range 60).map fun i => flatEvent i false (if i = 0 then 500 else 0))) := by
  refine C169_later 59 (by omega) _ _ fun j h1 h2 => ?_
  have hg : ∀ f : Nat → ℚ, goodEvents ((List.range 60).map fun i => flatEvent i false (f i)) = (List.range 60).map fun i => flatEvent i false (f i) := by
    intro f
    unfold goodEvents
    refine List.filter_eq_self.2 fun e he => ?_
    obtain ⟨i, -, rfl⟩ := List.mem_map.1 he
    rfl
  show (goodEvents ((List.range 60).map fun i => flatEvent i false 0))[j]? = (goodEvents ((List.range 60).map fun i => flatEvent i false (if i = 0 then 500 else 0)))[j]?
  rw [hg fun _ => 0, hg fun i => if i = 0 then 500 else 0, List.getElem?_map, List.getElem?_map, List.getElem?_range (by omega)]
  simp only [Option.map_some, if_neg (show ¬ j = 0 by omega)]

/-- **C169**: the condition on the recorded events is needed before the fiftieth processed event. Two runs of an event to process and one to skip differ in the skipped one only; the rows of the
first have other baselines. -/
theorem C169_early : ∃ rd rd' : RawReader Nat (RawWf Nat) (Dict String (Cell Nat)) Unit, List.Forall₂ SameFate rd.events rd'.events ∧ goodEvents rd.events = goodEvents rd'.events ∧
    ∃ a a', extractedRows rd = .ok [[a]] ∧ extractedRows rd' = .ok [[a']] ∧ Dict.get? a "baseline_subtracted" ≠ Dict.get? a' "baseline_subtracted" := by
  refine ⟨flatRun [flatEvent 0 false 0, flatEvent 1 true 0], flatRun [flatEvent 0 false 0, flatEvent 1 true 500], .cons ⟨rfl, rfl, rfl⟩ (.cons ⟨rfl, rfl, rfl⟩ .nil), rfl, ?_⟩
  have key : (match extractedRows (flatRun [flatEvent 0 false 0, flatEvent 1 true 0]), extractedRows (flatRun [flatEvent 0 false 0, flatEvent 1 true 500]) with
      | .ok [[a]], .ok [[a']] => decide (Dict.get? a "baseline_subtracted" ≠ Dict.get? a' "baseline_subtracted")
      | _, _ => false) = true := by decide +kernel
  split at key
  · next a a' h1 h2 => exact ⟨a, a', h1, h2, of_decide_eq_true key⟩
  · cases key

end Verif.Props
