import Verif.Props.GainProgram

/-!
# C168: what the other pixels of the camera do to the row of a pixel

Two runs with the same recording in one pixel and anything in the others, extracted by the chain `extract_dl1` builds.
-/

namespace Verif.Props

open Verif.Py Verif.Model Verif.Spec Verif.Lemmas

variable {τ ν : Type}

/-! ### vocabulary -/

/-- two events that are the same for pixel `p`; the other pixels may have anything -/
structure SameEventAt (p : Nat) (e e' : Model.Event τ (RawWf τ)) : Prop where
  iev : e.iev = e'.iev
  stale : e.stale = e'.stale
  packets : e.missingPackets = e'.missingPackets
  tCpu : e.tCpu = e'.tCpu
  tTack : e.payload.tTack = e'.payload.tTack
  samples : e.payload.rows.getD p [] = e'.payload.rows.getD p []
  firstCell : e.payload.firstCellId.at p = e'.payload.firstCellId.at p
  truth : e.payload.mcTrue.map (·.at p) = e'.payload.mcTrue.map (·.at p)

/-- two runs of a camera that are the same for pixel `p` -/
structure SameRunAt (p : Nat) (rd rd' : RawReader τ (RawWf τ) (Dict String (Cell τ)) ν) : Prop where
  pixels : rd.nPixels = rd'.nPixels
  mc : rd.isMc = rd'.isMc
  events : List.Forall₂ (SameEventAt p) rd.events rd'.events

/-- the sums over the two cameras have their maximum at the same sample -/
def SamePeak (n : Nat) (w w' : List (List ℚ)) : Prop := ∃ t, FirstMax n (cameraSum w) t ∧ FirstMax n (cameraSum w') t

/-- the reference pulse fits the two cameras best at the same sample -/
def SameMatch (n : Nat) (y : List ℚ) (w w' : List (List ℚ)) : Prop :=
  ∃ am peak, FirstMax y.length (fun i => y.getD i 0) am ∧ FirstMax n (fun i => (w.map fun r => matchedCharge y am r i).sum) peak ∧
    FirstMax n (fun i => (w'.map fun r => matchedCharge y am r i).sum) peak

/-- two rows of the same pixel: all columns are equal but for those which depend on a time of the camera, and they are equal if the time is the same or is set in the configuration -/
structure SameRow (C : Configured) (n : Nat) (y : List ℚ) (w w' : List (List ℚ)) (row row' : Dict String (Cell τ)) : Prop where
  own : ∀ c, c ∉ ["t_averagewf", "charge_averagewf", "saturation_sum", "charge_cc", "height_cc", "t_cc"] → Dict.get? row' c = Dict.get? row c
  average : ∀ c ∈ ["t_averagewf", "charge_averagewf"], C.time ≠ none ∨ SamePeak n w w' → Dict.get? row' c = Dict.get? row c
  saturation : C.event ≠ none ∨ SamePeak n w w' → Dict.get? row' "saturation_sum" = Dict.get? row "saturation_sum"
  matched : ∀ c ∈ ["charge_cc", "height_cc"], SameMatch n y w w' → Dict.get? row' c = Dict.get? row c
  time : SameMatch n y w w' → MatchedInside n y w → Dict.get? row' "t_cc" = Dict.get? row "t_cc"

/-! ### the row -/

theorem columns_same (C : Configured) (n : Nat) (y : List ℚ) (w w' : List (List ℚ)) (p : Nat) (hw : w.getD p [] = w'.getD p []) (row row' : Dict String (Cell τ))
    (h : ConfiguredColumns C n y w p row) (h' : ConfiguredColumns C n y w' p row') :
    (∀ c ∈ plainColumns, c ∉ ["t_averagewf", "charge_averagewf", "saturation_sum", "charge_cc", "height_cc", "t_cc"] → Dict.get? row' c = Dict.get? row c) ∧
    (∀ c ∈ ["t_averagewf", "charge_averagewf"], C.time ≠ none ∨ SamePeak n w w' → Dict.get? row' c = Dict.get? row c) ∧
    (C.event ≠ none ∨ SamePeak n w w' → Dict.get? row' "saturation_sum" = Dict.get? row "saturation_sum") ∧
    (∀ c ∈ ["charge_cc", "height_cc"], SameMatch n y w w' → Dict.get? row' c = Dict.get? row c) ∧
    (SameMatch n y w w' → MatchedInside n y w → Dict.get? row' "t_cc" = Dict.get? row "t_cc") := by
  obtain ⟨t, t1, t2, t3, t4⟩ := h.average
  obtain ⟨u, u1, u2, u3, u4⟩ := h'.average
  obtain ⟨am, peak, hh, tc, a1, a2, a3, -, -, a4, a5, a6, a7⟩ := h.correlation
  obtain ⟨am', peak', hh', tc', b1, b2, b3, -, -, b4, b5, b6, b7⟩ := h'.correlation
  obtain rfl := firstMax_unique a1 b1
  obtain rfl : hh = hh' := le_antisymm (b3.2 _ a3.1) (a3.2 _ b3.1)
  have hpeak : SamePeak n w w' → u = t := by
    rintro ⟨s, s1, s2⟩
    rw [firstMax_unique u1 s2, firstMax_unique t1 s1]
  have hmatch : SameMatch n y w w' → peak' = peak := by
    rintro ⟨am', s, s0, s1, s2⟩
    obtain rfl := firstMax_unique a1 s0
    rw [firstMax_unique b2 s2, firstMax_unique a2 s1]
  refine ⟨?_, ?_, ?_, ?_, ?_⟩
  · intro c hc hno
    simp only [plainColumns, List.mem_cons, List.not_mem_nil, or_false] at hc
    simp only [List.mem_cons, List.not_mem_nil, or_false, not_or] at hno
    rcases hc with rfl | rfl | rfl | rfl | rfl | rfl | rfl | rfl | rfl | rfl | rfl | rfl
    · exact absurd rfl hno.1
    · exact absurd rfl hno.2.1
    · rw [h.startMean, h'.startMean, hw]
    · rw [h.startRms, h'.startRms, hw]
    · rw [h.endMean, h'.endMean, hw]
    · rw [h.endRms, h'.endRms, hw]
    · rw [h.waveMean, h'.waveMean, hw]
    · rw [h.waveRms, h'.waveRms, hw]
    · exact absurd rfl hno.2.2.2.2.2
    · exact absurd rfl hno.2.2.2.1
    · exact absurd rfl hno.2.2.2.2.1
    · exact absurd rfl hno.2.2.1
  · intro c hc hor
    have heq : C.time.getD (clampedTime n u) = C.time.getD (clampedTime n t) := by
      rcases hor with ht | hs
      · cases hC : C.time with
        | none => exact absurd hC ht
        | some v => rfl
      · rw [hpeak hs]
    simp only [List.mem_cons, List.not_mem_nil, or_false] at hc
    rcases hc with rfl | rfl
    · rw [t2, u2, heq]
    · rw [t3, u3, hw]
      unfold Configured.start
      rw [heq]
  · intro hor
    have heq : C.event.getD (clampedTime n u) = C.event.getD (clampedTime n t) := by
      rcases hor with ht | hs
      · cases hC : C.event with
        | none => exact absurd hC ht
        | some v => rfl
      · rw [hpeak hs]
    rw [t4, u4, hw]
    unfold Configured.tail
    rw [heq]
  · intro c hc hs
    obtain rfl := hmatch hs
    simp only [List.mem_cons, List.not_mem_nil, or_false] at hc
    rcases hc with rfl | rfl
    · rw [a5, b5, hw]
    · rw [a6, b6, hw]
  · intro hs hin
    obtain rfl := hmatch hs
    obtain ⟨i1, i2⟩ := hin am peak' a1 a2
    rw [a7, b7, a4 i1 i2, b4 i1 i2, hw]

theorem row_same (C : Configured) (hplain : ∀ c ∈ C.columns, c ∈ plainColumns) (n : Nat) (y : List ℚ) (p : Nat) (e e' : Model.Event τ (RawWf τ)) (he : SameEventAt p e e')
    (w w' : List (List ℚ)) (hw : w.getD p [] = w'.getD p []) (base : ℚ) (row row' : Dict String (Cell τ)) (h : ConfiguredRow C n y e w base p row)
    (h' : ConfiguredRow C n y e' w' base p row') : SameRow C n y w w' row row' := by
  obtain ⟨full, f1, f2⟩ := h.columns
  obtain ⟨full', f1', f2'⟩ := h'.columns
  obtain ⟨k1, k2, k3, k4, k5⟩ := columns_same C n y w w' p hw full full' f1 f1'
  have step : ∀ c, c ∉ ["t_cpu", "t_tack", "first_cell_id", "baseline_subtracted", "mc_true"] → Dict.get? full' c = Dict.get? full c → Dict.get? row' c = Dict.get? row c := by
    intro c hown heq
    by_cases hm : c ∈ C.columns
    · rw [f2 c hm, f2' c hm, heq]
    · rw [h.nothingElse c hown hm, h'.nothingElse c hown hm]
  refine ⟨?_, ?_, ?_, ?_, ?_⟩
  · intro c hno
    by_cases hm : c ∈ C.columns
    · rw [f2 c hm, f2' c hm]
      exact k1 c (hplain c hm) hno
    by_cases hown : c ∈ ["t_cpu", "t_tack", "first_cell_id", "baseline_subtracted", "mc_true"]
    · simp only [List.mem_cons, List.not_mem_nil, or_false] at hown
      rcases hown with rfl | rfl | rfl | rfl | rfl
      · rw [h.tCpu, h'.tCpu, he.tCpu]
      · rw [h.tTack, h'.tTack, he.tTack]
      · rw [h.firstCell, h'.firstCell, he.firstCell]
      · rw [h.baseline, h'.baseline]
      · rw [h.truth, h'.truth, he.truth]
    · rw [h.nothingElse c hown hm, h'.nothingElse c hown hm]
  · intro c hc hor
    refine step c ?_ (k2 c hc hor)
    revert c
    simp
  · exact fun hor => step _ (by decide) (k3 hor)
  · intro c hc hs
    refine step c ?_ (k4 c hc hs)
    revert c
    simp
  · exact fun hs hin => step _ (by decide) (k5 hs hin)

/-! ### the waveforms -/

theorem aligned_same (isMc : Bool) (tCor : List ℚ) (n p : Nat) (rows rows' tc tc' : List (List ℚ)) (hp : p < rows.length) (hp' : p < rows'.length) (hrow : rows.getD p [] = rows'.getD p [])
    (h : Aligned isMc tCor n rows tc) (h' : Aligned isMc tCor n rows' tc') : tc.getD p [] = tc'.getD p [] := by
  have e1 := h.2 p _ (List.getElem?_eq_getElem hp)
  have e2 := h'.2 p _ (List.getElem?_eq_getElem hp')
  rw [List.getD_eq_getElem?_getD, List.getD_eq_getElem?_getD, List.getElem?_eq_getElem hp, List.getElem?_eq_getElem hp'] at hrow
  simp only [Option.getD_some] at hrow
  rw [List.getD_eq_getElem?_getD, List.getD_eq_getElem?_getD, e1, e2, hrow]

theorem rollingBaseline_pixel (n m p : Nat) (source source' : List WfEvent) (hs : List.Forall₂ (fun e e' : WfEvent => e.rows.getD p [] = e'.rows.getD p []) source source')
    (ws ws' : List (List (List ℚ))) (hw : List.Forall₂ (fun w w' : List (List ℚ) => w.getD p [] = w'.getD p []) ws ws') :
    rollingBaseline n m source ws p = rollingBaseline n m source' ws' p := by
  have h1 : ws.map (fun w => headSum m w p) = ws'.map fun w => headSum m w p := by
    induction hw with
    | nil => rfl
    | cons h _ ih =>
      rw [List.map_cons, List.map_cons, ih]
      unfold headSum
      rw [h]
  have h2 : source.map (fun e => headSum m e.rows p) = source'.map fun e => headSum m e.rows p := by
    induction hs with
    | nil => rfl
    | cons h _ ih =>
      rw [List.map_cons, List.map_cons, ih]
      unfold headSum
      rw [h]
  unfold rollingBaseline
  rw [List.map_drop, List.map_drop, h1, hw.length_eq, List.map_drop, List.map_take, h2, List.map_drop, List.map_take]

theorem minusBaseline_same (p : Nat) (rows rows' : List (List ℚ)) (b b' : Nat → ℚ) (hrow : rows.getD p [] = rows'.getD p []) (hb : b p = b' p) (hp : p < rows.length) (hp' : p < rows'.length) :
    (minusBaseline rows b).getD p [] = (minusBaseline rows' b').getD p [] := by
  unfold minusBaseline
  rw [List.getD_eq_getElem?_getD, List.getD_eq_getElem?_getD, List.getElem?_eq_getElem hp, List.getElem?_eq_getElem hp'] at hrow
  simp only [Option.getD_some] at hrow
  simp only [List.getD_eq_getElem?_getD, List.getElem?_mapIdx, List.getElem?_eq_getElem hp, List.getElem?_eq_getElem hp', Option.map_some, Option.getD_some, hrow, hb]

/-! ### the file -/

/-- **C168**: two runs that are the same for pixel `p`, whatever the other pixels recorded, are extracted to files in which the rows of pixel `p` are equal, before the conversion to the
type of the column, but for the columns which need a time of the camera; those are equal if the time is. -/
theorem C168_program [DecidableEq ν] (p : Nat) (pulse : String → Except Err (List ℚ)) (after : List (List ℚ) → Option ℚ)
    (rest : Shipped → ReducerClass RSetting ProgState (List (List ℚ)) ColVal) (found : List Shipped) (hall : ∀ c, c ∈ found) (C : Configured)
    (file : Config RSetting) (hs : Sets C file) (load : String → Yaml RSetting) (configPath : Option String) (hl : Loaded load configPath file)
    (path : String) (y : List ℚ) (hy : (∃ col ∈ Shipped.crossCorrelation.columns, col ∈ C.columns) → path ≠ "" ∧ pulse path = .ok y) (hA : 0 < area y)
    (rd rd' : RawReader τ (RawWf τ) (Dict String (Cell τ)) ν) (hsame : SameRunAt p rd rd') (hpp : p < rd.nPixels) (n : Nat) (hrun : PlainRun rd n) (hrun' : PlainRun rd' n) (hn : 20 ≤ n)
    (hp' : rd.nPixels ≤ 2048) (hlen : rd.events.length ≤ 2 ^ 32) (hne : goodEvents rd.events ≠ []) (hm : (Dict.keys rd.otherMeta).Nodup) (hm' : (Dict.keys rd'.otherMeta).Nodup)
    (hmc : rd.isMc = true → rd.mcheader ≠ none) (hmc' : rd'.isMc = true → rd'.mcheader ≠ none)
    (tCor : List ℚ) (hread : ReadFrom tCor shippedTCor) (config : MetaDict ν) (enc : Option τ → ν) :
    ∃ chain x x', programChain pulse after rest found load configPath path = .ok chain ∧ newExtractor rd tCor (.ok chain) config = .ok x ∧ newExtractor rd' tCor (.ok chain) config = .ok x' ∧
      ∀ (mem mem' : List (DRow (Dict String (Cell τ))) → Nat) (cast : String → Cell τ → Cell τ) (order order' : List String),
        IsOrder (dl1Calls rd x enc).1 order → IsOrder (dl1Calls rd' x' enc).1 order' →
        ∃ s r s' r', writeDl1File mem (castColumns cast) rd x enc order = (.ok s, none) ∧ openReader s = .ok r ∧
          writeDl1File mem' (castColumns cast) rd' x' enc order' = (.ok s', none) ∧ openReader s' = .ok r' ∧
          ∀ e ∈ goodEvents rd.events, ∃ e' ∈ goodEvents rd'.events, SameEventAt p e e' ∧ ∃ rows rows', dl1GetItem r e.iev = .ok rows ∧ dl1GetItem r' e.iev = .ok rows' ∧
            ∃ tc tc' b b' vals vals', Aligned rd.isMc tCor n e.payload.rows tc ∧ Aligned rd.isMc tCor n e'.payload.rows tc' ∧ b p = b' p ∧
              ConfiguredRow C n y e (minusBaseline tc b) (b p) p vals ∧ ConfiguredRow C n y e' (minusBaseline tc' b') (b p) p vals' ∧
              rows[p]? = some ⟨e.iev, some p, castColumns cast vals⟩ ∧ rows'[p]? = some ⟨e.iev, some p, castColumns cast vals'⟩ ∧
              SameRow C n y (minusBaseline tc b) (minusBaseline tc' b') vals vals' := by
  have hgood : List.Forall₂ (SameEventAt p) (goodEvents rd.events) (goodEvents rd'.events) := by
    unfold goodEvents
    refine List.rel_filter (R := SameEventAt p) ?_ hsame.events
    intro e e' he
    simp only [he.stale, he.packets]
  have hlen' : rd'.events.length = rd.events.length := hsame.events.length_eq.symm
  have hne' : goodEvents rd'.events ≠ [] := by
    intro h
    rw [h] at hgood
    cases hg : goodEvents rd.events with
    | nil => exact hne hg
    | cons a l => rw [hg] at hgood; cases hgood
  obtain ⟨chain, x, tcs, c1, c2, -, c4, c5⟩ := C157_configured_run pulse after rest found hall C file hs load configPath hl path y hy hA rd n hrun hn (by omega) hp' hlen hne hm hmc tCor hread
    config enc
  obtain ⟨chain', x', tcs', d1, d2, -, d4, d5⟩ := C157_configured_run pulse after rest found hall C file hs load configPath hl path y hy hA rd' n hrun' hn (by rw [← hsame.pixels]; omega)
    (by rw [← hsame.pixels]; exact hp') (by rw [hlen']; exact hlen) hne' hm' hmc' tCor hread config enc
  rw [c1] at d1
  obtain rfl := Except.ok.inj d1
  have hg1 : ∀ e ∈ goodEvents rd.events, e.payload.rows.length = rd.nPixels := fun e he => (hrun.shape e (List.mem_filter.1 he).1).1
  have hg2 : ∀ e ∈ goodEvents rd'.events, e.payload.rows.length = rd.nPixels := fun e he => by rw [hsame.pixels]; exact (hrun'.shape e (List.mem_filter.1 he).1).1
  have htcs : List.Forall₂ (fun w w' : List (List ℚ) => w.getD p [] = w'.getD p [] ∧ w.length = rd.nPixels ∧ w'.length = rd.nPixels) tcs tcs' := by
    generalize goodEvents rd.events = es at c4 hgood hg1
    generalize goodEvents rd'.events = es' at d4 hgood hg2
    clear c5 d5
    induction hgood generalizing tcs tcs' with
    | nil => cases c4; cases d4; exact .nil
    | @cons e e' es es' he hes ih =>
      cases c4 with
      | cons a1 a2 =>
        cases d4 with
        | cons b1 b2 =>
          have l1 := hg1 e (by simp)
          have l2 := hg2 e' (by simp)
          rw [← hsame.mc] at b1
          refine .cons ⟨aligned_same _ _ _ p _ _ _ _ (by omega) (by omega) he.samples a1 b1, by rw [a1.1, l1], by rw [b1.1, l2]⟩ ?_
          exact ih (c4 := a2) (hg1 := fun e he => hg1 e (by simp [he])) (d4 := b2) (hg2 := fun e he => hg2 e (by simp [he]))
  have hsrc : List.Forall₂ (fun e e' : WfEvent => e.rows.getD p [] = e'.rows.getD p []) (wfEvents rd.events) (wfEvents rd'.events) := by
    unfold wfEvents
    rw [List.forall₂_map_left_iff, List.forall₂_map_right_iff]
    exact hsame.events.imp fun e e' he => he.samples
  refine ⟨chain, x, x', c1, c2, d2, fun mem mem' cast order order' ho ho' => ?_⟩
  obtain ⟨s, r, s1, s2, s3, s4⟩ := c5 mem cast order ho
  obtain ⟨s', r', s1', s2', s3', s4'⟩ := d5 mem' cast order' ho'
  refine ⟨s, r, s', r', s1, s2, s1', s2', ?_⟩
  intro e he
  obtain ⟨k, hk⟩ := List.mem_iff_getElem?.1 he
  obtain ⟨hkl, rfl⟩ := List.getElem?_eq_some_iff.1 hk
  have hkl' : k < (goodEvents rd'.events).length := by rw [← hgood.length_eq]; exact hkl
  have hkt : k < tcs.length := by rw [← c4.length_eq]; exact hkl
  have hkt' : k < tcs'.length := by rw [← htcs.length_eq]; exact hkt
  have hsm := (List.forall₂_iff_get.1 hgood).2 k hkl hkl'
  have hst := (List.forall₂_iff_get.1 htcs).2 k hkt hkt'
  simp only [List.get_eq_getElem] at hsm hst
  obtain ⟨rows, r1, -, r3⟩ := s3 k _ _ hk (List.getElem?_eq_getElem hkt)
  obtain ⟨rows', r1', -, r3'⟩ := s3' k _ _ (List.getElem?_eq_getElem hkl') (List.getElem?_eq_getElem hkt')
  obtain ⟨vals, v1, v2⟩ := r3 p hpp
  obtain ⟨vals', v1', v2'⟩ := r3' p (by rw [← hsame.pixels]; exact hpp)
  have htake : List.Forall₂ (fun w w' : List (List ℚ) => w.getD p [] = w'.getD p []) (tcs.take (k + 1)) (tcs'.take (k + 1)) :=
    List.forall₂_take (k + 1) (htcs.imp fun _ _ h => h.1)
  have hb := rollingBaseline_pixel 50 16 p _ _ hsrc _ _ htake
  rw [← hb] at v2'
  rw [← hsm.iev] at r1' v1'
  have ha := (List.forall₂_iff_get.1 c4).2 k hkl hkt
  have ha' := (List.forall₂_iff_get.1 d4).2 k hkl' hkt'
  simp only [List.get_eq_getElem] at ha ha'
  rw [← hsame.mc] at ha'
  refine ⟨_, List.getElem_mem hkl', hsm, rows, rows', r1, r1', tcs[k], tcs'[k], fun q => rollingBaseline 50 16 (wfEvents rd.events) (tcs.take (k + 1)) q,
    fun q => rollingBaseline 50 16 (wfEvents rd'.events) (tcs'.take (k + 1)) q, vals, vals', ha, ha', hb, v2, v2', v1, v1', ?_⟩
  exact row_same C hs.plain n y p _ _ hsm _ _ (minusBaseline_same p _ _ _ _ hst.1 hb (by omega) (by omega)) _ vals vals' v2 v2'

/-- the run of `C155` without light in the second pixel -/
def darkened : RawReader Nat (RawWf Nat) (Dict String (Cell Nat)) Unit :=
  { pulseRun with events := pulseRun.events.map fun e => { e with payload := { e.payload with rows := e.payload.rows.mapIdx fun q r => if q = 1 then r.map fun _ => 1 else r } } }

theorem darkened_plain : PlainRun darkened 24 := by
  have hm : ∀ e ∈ darkened.events, ∃ e0 ∈ pulseRun.events, e = { e0 with payload := { e0.payload with rows := e0.payload.rows.mapIdx fun q r => if q = 1 then r.map fun _ => 1 else r } } := by
    intro e he
    obtain ⟨e0, h1, h2⟩ := List.mem_map.1 he
    exact ⟨e0, h1, h2.symm⟩
  refine ⟨?_, ?_, ?_, ?_, ?_⟩
  · intro j hj
    have hj' : j < pulseRun.events.length := by simpa [darkened] using hj
    have := pulseRun_plain.numbered j hj'
    simpa [darkened] using this
  · intro e he
    obtain ⟨e0, h0, rfl⟩ := hm e he
    refine ⟨by simpa [darkened] using (pulseRun_plain.shape e0 h0).1, fun r hr => ?_⟩
    simp only [List.mem_mapIdx] at hr
    obtain ⟨q, hq, rfl⟩ := hr
    have := (pulseRun_plain.shape e0 h0).2 _ (List.getElem_mem hq)
    split <;> simpa using this
  · intro hmc e he
    obtain ⟨e0, h0, rfl⟩ := hm e he
    exact pulseRun_plain.floats hmc e0 h0
  · intro e he l hl
    obtain ⟨e0, h0, rfl⟩ := hm e he
    exact pulseRun_plain.cells e0 h0 l hl
  · intro e he l hl
    obtain ⟨e0, h0, rfl⟩ := hm e he
    exact pulseRun_plain.truth e0 h0 l hl

theorem darkened_same : SameRunAt 0 pulseRun darkened := by
  refine ⟨rfl, rfl, ?_⟩
  unfold darkened
  simp only
  rw [List.forall₂_map_right_iff, List.forall₂_same]
  intro e he
  refine ⟨rfl, rfl, rfl, rfl, rfl, ?_, rfl, rfl⟩
  simp only [List.getD_eq_getElem?_getD, List.getElem?_mapIdx]
  cases e.payload.rows[0]? <;> rfl

/-- The hypotheses can be met: that run and the run of `C155`, the built-in table, the first pixel. -/
example := C168_program (ν := Unit) 0 (fun _ => .ok [1, 2, 1]) (fun _ => none) (fun c => ⟨"", c.columns, fun _ => .error .runtimeError, fun _ _ _ => .error .runtimeError,
    fun _ _ _ => .error .runtimeError, fun _ s => s⟩) everyReducer (by intro c; cases c <;> decide) builtIn _ builtIn_sets (fun _ => .null) none (Or.inl ⟨Or.inl rfl, rfl⟩) "pulse.txt"
  [1, 2, 1] (fun _ => ⟨by decide, rfl⟩) (by decide +kernel) pulseRun darkened darkened_same (by decide) 24 pulseRun_plain darkened_plain (by decide) (by decide) (by decide) (by decide)
  (by decide) (by decide) (by intro h; cases h) (by intro h; cases h) shippedTCor (List.forall₂_same.2 fun x _ => by norm_num) [] (fun _ => ())

/-- the condition on the time can be met and can fail: of these cameras of two pixels the first two have their maximum at the same sample, the third has not -/
example : SamePeak 3 [[0, 2, 1], [0, 1, 0]] [[0, 2, 1], [0, 0, 0]] ∧ ¬ SamePeak 3 [[0, 2, 1], [0, 1, 0]] [[0, 2, 1], [0, 0, 4]] := by
  have h1 : FirstMax 3 (cameraSum [[0, 2, 1], [0, 1, 0]]) 1 := by unfold FirstMax; decide +kernel
  have h2 : FirstMax 3 (cameraSum [[0, 2, 1], [0, 0, 0]]) 1 := by unfold FirstMax; decide +kernel
  have h3 : FirstMax 3 (cameraSum [[0, 2, 1], [0, 0, 4]]) 2 := by unfold FirstMax; decide +kernel
  refine ⟨⟨1, h1, h2⟩, ?_⟩
  rintro ⟨t, t1, t2⟩
  exact absurd ((firstMax_unique t1 h1).symm.trans (firstMax_unique t2 h3)) (by decide)

end Verif.Props
