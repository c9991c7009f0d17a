import Verif.Props.Extraction
import Verif.Props.ExtractPulse
import Mathlib.Tactic.Ring

/-!
# C152: the gain of a run in the file made from it
-/

namespace Verif.Props

open Verif.Py Verif.Model Verif.Spec Verif.Lemmas

variable {τ ν V σ : Type}

/-! ### vocabulary -/

/-- an event recorded with the gain `g` -/
def louderEvent (g : ℚ) (e : Event τ (RawWf τ)) : Event τ (RawWf τ) := { e with payload := { e.payload with rows := amplified g e.payload.rows } }

/-- a run recorded with the gain `g` -/
def louderRun (g : ℚ) (rd : RawReader τ (RawWf τ) (Dict String (Cell τ)) ν) : RawReader τ (RawWf τ) (Dict String (Cell τ)) ν :=
  { rd with events := rd.events.map (louderEvent g) }

/-- a cell that holds a number multiplied; NaN and times are kept -/
def Cell.times (f : ℚ) : Cell τ → Cell τ
  | .num q => .num (f * q)
  | c => c

/-- a column multiplied -/
def timesFrame (f : ℚ) : FrameCol (Cell τ) → FrameCol (Cell τ)
  | .scalar a => .scalar (Cell.times f a)
  | .array l => .array (l.map (Cell.times f))

/-- a row with each column multiplied by its own factor -/
def scaledRow (factor : String → ℚ) (row : Dict String (Cell τ)) : Dict String (Cell τ) := row.map fun kv => (kv.1, Cell.times (factor kv.1) kv.2)

/-- a dictionary of columns, each multiplied by its own factor -/
def scaledParams (factor : String → ℚ) (d : Dict String (FrameCol (Cell τ))) : Dict String (FrameCol (Cell τ)) :=
  d.map fun kv => (kv.1, timesFrame (factor kv.1) kv.2)

/-- the columns of the extractor itself: the baseline grows with the gain, numbers, times and true charges do not depend on it -/
structure OwnFactors (g : ℚ) (factor : String → ℚ) : Prop where
  baseline : factor "baseline_subtracted" = g
  others : ∀ c ∈ ["iev", "pixel", "t_cpu", "t_tack", "first_cell_id", "mc_true"], factor c = 1

/-- a reducer that makes its attributes from the waveforms of the event alone, and whose columns are multiplied by the factors when the waveforms are multiplied by the gain -/
def FollowsGain (g : ℚ) (factor : String → ℚ) (c : ReducerClass V σ (List (List ℚ)) (FrameCol (Cell τ))) (kwargs : Config V) : Prop :=
  ∀ s s' w, match c.prepare kwargs s w with
    | .error e => c.prepare kwargs s' (amplified g w) = .error e
    | .ok t => ∃ t', c.prepare kwargs s' (amplified g w) = .ok t' ∧ ∀ name, c.value kwargs t' name = (c.value kwargs t name).map (timesFrame (factor name))

/-- what the gain does to the columns of `AverageWF`, `Saturation`, `Common` and of the extractor: amplitudes grow with it, variances with its square, all others stay -/
def columnFactor (g : ℚ) (name : String) : ℚ :=
  if name ∈ ["baseline_start_rms", "baseline_end_rms", "waveform_rms"] then g ^ 2
  else if name ∈ ["baseline_subtracted", "charge_averagewf", "saturation_sum", "baseline_start_mean", "baseline_end_mean", "waveform_mean", "waveform_max"] then g
  else 1

/-! ### time calibration -/

theorem tCorSample_times (g : ℚ) (row : List ℚ) (c : ℚ) (i : Nat) : tCorSample (row.map (g * ·)) c i = (tCorSample row c i).map (g * ·) := by
  unfold tCorSample
  simp only [List.length_map, getIndex_map]
  generalize (if ⌊(i : ℚ) - c⌋ < 0 then ((0 : Int), (1 : Int)) else if ⌈(i : ℚ) - c⌉ ≥ (row.length : Int) then ((row.length : Int) - 2, (row.length : Int) - 1) else (⌊(i : ℚ) - c⌋, ⌈(i : ℚ) - c⌉)) = q
  cases h1 : getIndex row q.1 with
  | error e => rfl
  | ok y1 =>
    cases h2 : getIndex row q.2 with
    | error e => rfl
    | ok y2 =>
      simp only [Except.map]
      split
      · rfl
      · simp only [Except.ok.injEq]
        ring

theorem tCorRow_times (g : ℚ) (row : List ℚ) (c : ℚ) : tCorRow (row.map (g * ·)) c = (tCorRow row c).map (List.map (g * ·)) := by
  unfold tCorRow
  rw [List.length_map, ← mapM_map_ok]
  congr 1
  funext i
  exact tCorSample_times g row c i

theorem applyTCor_times (g : ℚ) (rows : List (List ℚ)) (t : List ℚ) : applyTCor (amplified g rows) t = (applyTCor rows t).map (amplified g) := by
  induction rows generalizing t with
  | nil => rfl
  | cons row rows ih =>
    unfold amplified at ih ⊢
    rw [List.map_cons]
    cases t with
    | nil => rfl
    | cons c cs =>
      unfold applyTCor
      rw [tCorRow_times, ih cs]
      cases tCorRow row c with
      | error e => rfl
      | ok r =>
        cases applyTCor rows cs with
        | error e => rfl
        | ok rs => rfl

theorem calibrateTimes_times (g : ℚ) (tCor : Option (List ℚ)) (w : RawWf τ) :
    calibrateTimes tCor { w with rows := amplified g w.rows } = (calibrateTimes tCor w).map (amplified g) := by
  unfold calibrateTimes
  cases tCor with
  | none => rfl
  | some t =>
    simp only [timeCalibrate]
    cases w.type
    · exact applyTCor_times g _ t
    · exact applyTCor_times g _ t
    · rfl

/-! ### dictionaries of columns -/

theorem keys_scaled (factor : String → ℚ) (d : Dict String (FrameCol (Cell τ))) : Dict.keys (scaledParams factor d) = Dict.keys d := by
  simp [Dict.keys, scaledParams]

theorem set_scaled (factor : String → ℚ) (d : Dict String (FrameCol (Cell τ))) (k : String) (v : FrameCol (Cell τ)) :
    Dict.set (scaledParams factor d) k (timesFrame (factor k) v) = scaledParams factor (Dict.set d k v) := by
  induction d with
  | nil => rfl
  | cons kv d ih =>
    obtain ⟨k', v'⟩ := kv
    unfold scaledParams at ih ⊢
    rw [List.map_cons]
    unfold Dict.set
    by_cases h : k' = k
    · rw [if_pos h, if_pos h]; rfl
    · rw [if_neg h, if_neg h, ih]; rfl

theorem update_scaled (factor : String → ℚ) (d out : Dict String (FrameCol (Cell τ))) :
    Dict.update (scaledParams factor d) (scaledParams factor out) = scaledParams factor (Dict.update d out) := by
  induction out generalizing d with
  | nil => rfl
  | cons kv out ih =>
    obtain ⟨k, v⟩ := kv
    rw [Dict.update_cons, ← ih, ← set_scaled]
    rfl

theorem times_one (c : Cell τ) : Cell.times 1 c = c := by
  cases c <;> simp [Cell.times]

theorem timesFrame_one (c : FrameCol (Cell τ)) : timesFrame 1 c = c := by
  cases c with
  | scalar a => simp [timesFrame, times_one]
  | array l =>
    simp only [timesFrame]
    congr 1
    exact (List.map_congr_left fun a _ => times_one a).trans (List.map_id' l)

theorem paramDict_scaled (g : ℚ) (factor : String → ℚ) (hf : OwnFactors g factor) (np : Nat) (e : Event τ (RawWf τ)) (bs : List ℚ) (out : Dict String (FrameCol (Cell τ))) :
    paramDict np (louderEvent g e) (bs.map (g * ·)) (scaledParams factor out) = (paramDict np e bs out).map (scaledParams factor) := by
  unfold paramDict
  rw [keys_fixed, keys_fixed, keys_scaled]
  split
  · rfl
  · have h1 := hf.others
    have hb := hf.baseline
    simp only [List.mem_cons, List.not_mem_nil, or_false, forall_eq_or_imp, forall_eq] at h1
    obtain ⟨a1, a2, a3, a4, a5, a6⟩ := h1
    have hfix : fixedParams np (louderEvent g e) (bs.map (g * ·)) = scaledParams factor (fixedParams np e bs) := by
      simp only [fixedParams, scaledParams, List.map_cons, List.map_nil, a1, a2, a3, a4, a5, hb, timesFrame_one]
      simp only [louderEvent, timesFrame, List.map_map]
      rfl
    rw [hfix, update_scaled]
    show (match e.payload.mcTrue with
      | none => _
      | some v => _) = _
    cases e.payload.mcTrue with
    | none => rfl
    | some v =>
      simp only [Except.map]
      rw [← set_scaled, a6, timesFrame_one]

theorem fits_times (f : ℚ) (c : FrameCol (Cell τ)) (n : Nat) : (timesFrame f c).fits n = c.fits n := by
  cases c <;> simp [timesFrame, FrameCol.fits]

theorem at_times (f : ℚ) (c : FrameCol (Cell τ)) (p : Nat) : (timesFrame f c).at p = Cell.times f (c.at p) := by
  cases c with
  | scalar a => rfl
  | array l =>
    simp only [timesFrame, FrameCol.at, List.getD_eq_getElem?_getD, List.getElem?_map]
    cases l[p]? <;> rfl

theorem frameOf_scaled (factor : String → ℚ) (np : Nat) (params : Dict String (FrameCol (Cell τ))) :
    frameOf np (scaledParams factor params) = (frameOf np params).map (List.map (scaledRow factor)) := by
  unfold frameOf
  have hfit : (scaledParams factor params).all (fun kv => kv.2.fits np) = params.all fun kv => kv.2.fits np := by
    unfold scaledParams
    rw [List.all_map]
    congr 1
    funext kv
    exact fits_times _ _ _
  rw [hfit]
  split
  · simp only [Except.map, Except.ok.injEq, List.map_map]
    apply List.map_congr_left
    intro p _
    simp only [Function.comp, scaledRow, scaledParams]
    rw [List.filter_map, List.map_map, List.map_map]
    apply List.map_congr_left
    intro kv _
    simp only [Function.comp, at_times]
  · rfl

/-! ### the chain -/

theorem getDictLoop_scaled (factor : String → ℚ) (r r' : Reducer V σ (List (List ℚ)) (FrameCol (Cell τ))) (t t' : σ)
    (h : ∀ name, r'.cls.value r'.kwargs t' name = (r.cls.value r.kwargs t name).map (timesFrame (factor name))) (cs : List String) (d : Dict String (FrameCol (Cell τ))) :
    getDictLoop r' t' cs (scaledParams factor d) = (getDictLoop r t cs d).map (scaledParams factor) := by
  induction cs generalizing d with
  | nil => rfl
  | cons c cs ih =>
    unfold getDictLoop
    rw [h c]
    cases r.cls.value r.kwargs t c with
    | error e => rfl
    | ok v =>
      simp only [Except.map]
      rw [set_scaled, ih]
      rfl

theorem process_scaled (g : ℚ) (factor : String → ℚ) (r r' : Reducer V σ (List (List ℚ)) (FrameCol (Cell τ))) (hs : sig r' = sig r) (hf : FollowsGain g factor r.cls r.kwargs)
    (w : List (List ℚ)) : (r'.process (amplified g w)).map Prod.snd = (r.process w).map fun p => scaledParams factor p.2 := by
  obtain ⟨cls, kw, act, st⟩ := r
  obtain ⟨cls', kw', act', st'⟩ := r'
  simp only [sig, Prod.mk.injEq] at hs
  obtain ⟨rfl, rfl, rfl⟩ := hs
  unfold Reducer.process
  simp only at hf ⊢
  split
  · rfl
  · have := hf st st' w
    cases hp : cls'.prepare kw' st w with
    | error e =>
      rw [hp] at this
      rw [this]
      rfl
    | ok t =>
      rw [hp] at this
      obtain ⟨t', h1, h2⟩ := this
      rw [h1]
      simp only
      have := getDictLoop_scaled factor ⟨cls', kw', act', st⟩ ⟨cls', kw', act', st'⟩ t t' h2 act' []
      rw [show scaledParams factor ([] : Dict String (FrameCol (Cell τ))) = [] from rfl] at this
      rw [this]
      cases getDictLoop (⟨cls', kw', act', st⟩ : Reducer V σ (List (List ℚ)) (FrameCol (Cell τ))) t act' [] <;> rfl

theorem chainLoop_scaled (g : ℚ) (factor : String → ℚ) (rs rs' : List (Reducer V σ (List (List ℚ)) (FrameCol (Cell τ)))) (hs : rs'.map sig = rs.map sig)
    (hf : ∀ r ∈ rs, FollowsGain g factor r.cls r.kwargs) (w : List (List ℚ)) (d : Dict String (FrameCol (Cell τ))) :
    (chainLoop rs' (amplified g w) (scaledParams factor d)).map Prod.snd = (chainLoop rs w d).map fun p => scaledParams factor p.2 := by
  induction rs generalizing rs' d with
  | nil =>
    have : rs' = [] := by simpa using hs
    subst this
    rfl
  | cons r rs ih =>
    match rs', hs with
    | r' :: rs', hs =>
      simp only [List.map_cons, List.cons.injEq] at hs
      have hp := process_scaled g factor r r' hs.1 (hf r (by simp)) w
      unfold chainLoop
      cases h1 : r.process w with
      | error e =>
        rw [h1] at hp
        cases h2 : r'.process (amplified g w) with
        | error e' => rw [h2] at hp; simp only [Except.map, Except.error.injEq] at hp; subst hp; rfl
        | ok o => rw [h2] at hp; simp [Except.map] at hp
      | ok o =>
        obtain ⟨q, out⟩ := o
        rw [h1] at hp
        cases h2 : r'.process (amplified g w) with
        | error e' => rw [h2] at hp; simp [Except.map] at hp
        | ok o' =>
          obtain ⟨q', out'⟩ := o'
          rw [h2] at hp
          simp only [Except.map, Except.ok.injEq] at hp
          subst hp
          simp only
          rw [update_scaled]
          have := ih rs' hs.2 (fun r hr => hf r (by simp [hr])) (Dict.update d out)
          cases h3 : chainLoop rs w (Dict.update d out) with
          | error e =>
            rw [h3] at this
            cases h4 : chainLoop rs' (amplified g w) (scaledParams factor (Dict.update d out)) with
            | error e' => rw [h4] at this; simp only [Except.map, Except.error.injEq] at this; subst this; rfl
            | ok o => rw [h4] at this; simp [Except.map] at this
          | ok o =>
            rw [h3] at this
            cases h4 : chainLoop rs' (amplified g w) (scaledParams factor (Dict.update d out)) with
            | error e' => rw [h4] at this; simp [Except.map] at this
            | ok o' =>
              rw [h4] at this
              simp only [Except.map, Except.ok.injEq] at this
              simp only [Except.map, this]

theorem followsGain_sig (g : ℚ) (factor : String → ℚ) (a b : List (Reducer V σ (List (List ℚ)) (FrameCol (Cell τ)))) (h : b.map sig = a.map sig)
    (hm : ∀ r ∈ a, FollowsGain g factor r.cls r.kwargs) : ∀ r ∈ b, FollowsGain g factor r.cls r.kwargs := by
  intro r hr
  have : sig r ∈ a.map sig := by rw [← h]; exact List.mem_map_of_mem hr
  obtain ⟨r0, h0, h1⟩ := List.mem_map.1 this
  simp only [sig, Prod.mk.injEq] at h1
  rw [← h1.1, ← h1.2.1]
  exact hm r0 h0

/-! ### the run -/

theorem wfEvents_louder (g : ℚ) (events : List (Event τ (RawWf τ))) : wfEvents (events.map (louderEvent g)) = louder g (wfEvents events) := by
  simp [wfEvents, louder, louderEvent]

/-- **C152**: a run and the same run with another gain, for reducers that follow the gain: extraction fails with the same exception or gives the same rows with `baseline_subtracted`
multiplied by the gain and the columns of the reducers by their factors -/
theorem C152_extracted (g : ℚ) (factor : String → ℚ) (hf : OwnFactors g factor) (rd : RawReader τ (RawWf τ) (Dict String (Cell τ)) ν) (tCor : List ℚ)
    (chain : List (Reducer V σ (List (List ℚ)) (FrameCol (Cell τ)))) (hchain : ∀ r ∈ chain, FollowsGain g factor r.cls r.kwargs) (config : MetaDict ν) :
    match newExtractor rd tCor (.ok chain) config with
    | .error e => newExtractor (louderRun g rd) tCor (.ok chain) config = .error e
    | .ok x => ∃ x', newExtractor (louderRun g rd) tCor (.ok chain) config = .ok x' ∧
        extractAll x' x'.init (goodEvents (louderRun g rd).events) = (extractAll x x.init (goodEvents rd.events)).map (List.map (List.map (scaledRow factor))) := by
  unfold newExtractor
  have hi : Baseline.init (louderRun g rd).nPixels (wfEvents (louderRun g rd).events) 50 16 = (Baseline.init rd.nPixels (wfEvents rd.events) 50 16).map (louderBaseline g) := by
    show Baseline.init rd.nPixels (wfEvents (rd.events.map (louderEvent g))) 50 16 = _
    rw [wfEvents_louder, init_times]
  simp only [hi]
  cases Baseline.init rd.nPixels (wfEvents rd.events) 50 16 with
  | error e => rfl
  | ok b =>
    simp only [Except.map]
    refine ⟨{ init := ⟨louderBaseline g b, chain⟩, extract := extractEvent rd.nPixels (if rd.isMc then none else some tCor), config := config }, rfl, ?_⟩
    simp only
    show extractAll _ _ (goodEvents (rd.events.map (louderEvent g))) = _
    rw [goodEvents_map (louderEvent g) (fun e => ⟨rfl, rfl⟩)]
    refine extractAll_sim _ _ (fun s s' : ExtractState V σ τ => s'.baseline = louderBaseline g s.baseline ∧ s'.chain.map sig = s.chain.map sig ∧
        ∀ r ∈ s.chain, FollowsGain g factor r.cls r.kwargs) (fun _ => True) (louderEvent g) _ ?_ (goodEvents rd.events) (fun _ _ => trivial) _ _ ⟨rfl, rfl, hchain⟩
    rintro s s' e ⟨hb, hc, hfol⟩ -
    simp only
    obtain ⟨tCor', ht⟩ : ∃ t, t = (if rd.isMc = true then none else some tCor) := ⟨_, rfl⟩
    simp only [← ht]
    unfold extractEvent
    have hcal : calibrateTimes tCor' (louderEvent g e).payload = (calibrateTimes tCor' e.payload).map (amplified g) := calibrateTimes_times g tCor' e.payload
    rw [hcal]
    cases calibrateTimes tCor' e.payload with
    | error err => rfl
    | ok tc =>
      simp only [Except.map]
      rw [hb, subtract_times]
      cases s.baseline.subtract tc with
      | error err => rfl
      | ok bb =>
        obtain ⟨b1, out⟩ := bb
        simp only [Except.map]
        have hl := chainLoop_scaled g factor s.chain s'.chain hc hfol out []
        rw [show scaledParams factor ([] : Dict String (FrameCol (Cell τ))) = [] from rfl] at hl
        cases h1 : chainLoop s.chain out [] with
        | error err =>
          rw [h1] at hl
          cases h2 : chainLoop s'.chain (amplified g out) [] with
          | error e' => rw [h2] at hl; simp only [Except.map, Except.error.injEq] at hl; subst hl; rfl
          | ok o => rw [h2] at hl; simp [Except.map] at hl
        | ok o =>
          obtain ⟨ch, cols⟩ := o
          rw [h1] at hl
          cases h2 : chainLoop s'.chain (amplified g out) [] with
          | error e' => rw [h2] at hl; simp [Except.map] at hl
          | ok o' =>
            obtain ⟨ch', cols'⟩ := o'
            rw [h2] at hl
            simp only [Except.map, Except.ok.injEq] at hl
            subst hl
            simp only
            have hbase : (louderBaseline g b1).baseline = b1.baseline.map (g * ·) := rfl
            rw [hbase, paramDict_scaled g factor hf]
            cases paramDict rd.nPixels e b1.baseline cols with
            | error err => rfl
            | ok params =>
              simp only [Except.map]
              rw [frameOf_scaled]
              cases frameOf rd.nPixels params with
              | error err => rfl
              | ok rows =>
                simp only [Except.map]
                have g1 := chainLoop_sig _ _ _ _ _ h1
                have g2 := chainLoop_sig _ _ _ _ _ h2
                exact ⟨_, rfl, rfl, by rw [g1, g2, hc], followsGain_sig g factor _ _ g1 hfol⟩

/-! ### the shipped reducers -/

theorem columnFactor_own (g : ℚ) : OwnFactors g (columnFactor g) := by
  refine ⟨rfl, ?_⟩
  intro c hc
  simp only [List.mem_cons, List.not_mem_nil, or_false] at hc
  rcases hc with rfl | rfl | rfl | rfl | rfl | rfl <;> simp [columnFactor]

theorem value_factor (c : ReducerClass Setting RedState (List (List ℚ)) ColVal) (hc : c ∈ [averageWf, saturation, common]) (kwargs : Config Setting) (g : ℚ) (s : RedState)
    (name : String) (v : ColVal) (h : c.value kwargs s name = .ok v) :
    (timesCol (gainFactor name g) v).frame = timesFrame (τ := τ) (columnFactor g name) v.frame := by
  have hsc : ∀ x : ℚ, columnFactor g name = 1 → (timesCol (gainFactor name g) (.scalar x)).frame = timesFrame (τ := τ) (columnFactor g name) (ColVal.scalar x).frame := by
    intro x h1
    rw [h1]
    simp [timesCol, ColVal.frame, timesFrame, Cell.times]
  have hpp : ∀ xs : List ℚ, columnFactor g name = gainFactor name g →
      (timesCol (gainFactor name g) (.perPixel xs)).frame = timesFrame (τ := τ) (columnFactor g name) (ColVal.perPixel xs).frame := by
    intro xs h1
    rw [h1]
    simp [timesCol, ColVal.frame, timesFrame, Cell.times]
  simp only [List.mem_cons, List.not_mem_nil, or_false] at hc
  rcases hc with rfl | rfl | rfl
  · simp only [averageWf] at h
    split at h
    · next hn => obtain rfl := Except.ok.inj h; exact hsc _ (by simp [hn, columnFactor])
    · split at h
      · next hn => obtain rfl := Except.ok.inj h; exact hpp _ (by simp [hn, columnFactor, gainFactor])
      · simp at h
  · simp only [saturation] at h
    split at h
    · next hn =>
      split at h
      · simp at h
      · obtain rfl := Except.ok.inj h; exact hpp _ (by simp [hn, columnFactor, gainFactor])
    · simp at h
  · simp only [common] at h
    split at h
    · next hn => obtain rfl := Except.ok.inj h; exact hpp _ (by simp [hn, columnFactor, gainFactor])
    split at h
    · next hn => obtain rfl := Except.ok.inj h; exact hpp _ (by simp [hn, columnFactor, gainFactor])
    split at h
    · next hn => obtain rfl := Except.ok.inj h; exact hpp _ (by simp [hn, columnFactor, gainFactor])
    split at h
    · next hn => obtain rfl := Except.ok.inj h; exact hpp _ (by simp [hn, columnFactor, gainFactor])
    split at h
    · next hn => obtain rfl := Except.ok.inj h; exact hpp _ (by simp [hn, columnFactor, gainFactor])
    split at h
    · next hn => obtain rfl := Except.ok.inj h; exact hpp _ (by simp [hn, columnFactor, gainFactor])
    split at h
    · next hn =>
      split at h
      · simp at h
      · obtain rfl := Except.ok.inj h; exact hpp _ (by simp [hn, columnFactor, gainFactor])
    · simp at h

/-- `AverageWF`, `Saturation` and `Common` follow the gain, whatever their configuration -/
theorem shipped_followsGain (c : ReducerClass Setting RedState (List (List ℚ)) ColVal) (hc : c ∈ [averageWf, saturation, common]) (kwargs : Config Setting) (g : ℚ) (hg : 0 < g) :
    FollowsGain g (columnFactor g) (framedClass (τ := τ) c) kwargs := by
  intro s s' w
  have hprep : ∀ s0 ws, c.prepare kwargs s0 ws = c.prepare kwargs ⟨[], 0⟩ ws := by
    intro s0 ws
    simp only [List.mem_cons, List.not_mem_nil, or_false] at hc
    rcases hc with rfl | rfl | rfl <;> rfl
  have herr : ∀ e, c.prepare kwargs ⟨[], 0⟩ w = .error e → c.prepare kwargs ⟨[], 0⟩ (amplified g w) = .error e := by
    intro e he
    simp only [List.mem_cons, List.not_mem_nil, or_false] at hc
    rcases hc with rfl | rfl | rfl
    · simp only [averageWf] at he ⊢
      rw [extractionTime_times kwargs _ g hg]
      split at he
      · exact he
      · simp at he
    · simp [saturation] at he
    · simp [common] at he
  have hok : ∀ t, c.prepare kwargs ⟨[], 0⟩ w = .ok t → ∃ t', c.prepare kwargs ⟨[], 0⟩ (amplified g w) = .ok t' := by
    intro t ht
    simp only [List.mem_cons, List.not_mem_nil, or_false] at hc
    rcases hc with rfl | rfl | rfl
    · simp only [averageWf] at ht ⊢
      rw [extractionTime_times kwargs _ g hg]
      split at ht
      · simp at ht
      · exact ⟨_, rfl⟩
    · exact ⟨_, rfl⟩
    · exact ⟨_, rfl⟩
  simp only [framedClass]
  rw [hprep s w, hprep s' (amplified g w)]
  cases hp : c.prepare kwargs ⟨[], 0⟩ w with
  | error e => exact herr e hp
  | ok t =>
    obtain ⟨t', ht'⟩ := hok t hp
    refine ⟨t', ht', fun name => ?_⟩
    have := C132_columns c hc kwargs g hg w name
    unfold columnOf at this
    rw [hp, ht'] at this
    simp only at this
    rw [this]
    cases hv : c.value kwargs t name with
    | error e => rfl
    | ok v =>
      simp only [Except.map, Except.ok.injEq]
      exact value_factor c hc kwargs g t name v hv

/-- **C152** for the shipped reducers `AverageWF`, `Saturation` and `Common` with any configuration: with a positive gain, times and labels of every row stay, amplitudes are multiplied
by the gain and variances by its square; extraction fails for both runs or for none -/
theorem C152_shipped (g : ℚ) (hg : 0 < g) (rd : RawReader τ (RawWf τ) (Dict String (Cell τ)) ν) (tCor : List ℚ)
    (chain : List (Reducer Setting RedState (List (List ℚ)) (FrameCol (Cell τ)))) (hchain : ∀ r ∈ chain, ∃ c ∈ [averageWf, saturation, common], r.cls = framedClass c)
    (config : MetaDict ν) :
    match newExtractor rd tCor (.ok chain) config with
    | .error e => newExtractor (louderRun g rd) tCor (.ok chain) config = .error e
    | .ok x => ∃ x', newExtractor (louderRun g rd) tCor (.ok chain) config = .ok x' ∧
        extractAll x' x'.init (goodEvents (louderRun g rd).events) = (extractAll x x.init (goodEvents rd.events)).map (List.map (List.map (scaledRow (columnFactor g)))) := by
  have h := C152_extracted g _ (columnFactor_own g) rd tCor chain (fun r hr => by
    obtain ⟨c, hc, h⟩ := hchain r hr
    rw [h]
    exact shipped_followsGain c hc r.kwargs g hg) config
  cases hx : newExtractor rd tCor (.ok chain) config with
  | error e => rw [hx] at h; exact h
  | ok x => rw [hx] at h; exact h

/-! ### the file -/

theorem get?_scaledRow (factor : String → ℚ) (row : Dict String (Cell τ)) (c : String) : Dict.get? (scaledRow factor row) c = (Dict.get? row c).map (Cell.times (factor c)) :=
  get?_castColumns (fun c => Cell.times (factor c)) row c

/-- the files of a run and of the same run with another gain: the same events and pixels, and in each column the value of the one run and this value multiplied by the factor of the
column, both converted to the type of the file -/
def ScaledFile [DecidableEq ν] (factor : String → ℚ) (cast : String → Cell τ → Cell τ) (r r' : HReader (DRow (Dict String (Cell τ))) ν) : Prop :=
  ∀ id : Int, match dl1GetItem r id with
    | .error err => dl1GetItem r' id = .error err
    | .ok rows => ∃ rows', dl1GetItem r' id = .ok rows' ∧ rows'.length = rows.length ∧ ∀ (i : Nat) row row', rows[i]? = some row → rows'[i]? = some row' →
        row'.iev = row.iev ∧ row'.pixel = row.pixel ∧
          ∀ c, ∃ v : Option (Cell τ), Dict.get? row.vals c = v.map (cast c) ∧ Dict.get? row'.vals c = v.map fun a => cast c (Cell.times (factor c) a)

/-- **C152**, the file: if the run can be written, so can the run with another gain, and reading any event gives the same values in the columns that do not depend on the gain, and
multiplied values in the others -/
theorem C152_file [DecidableEq ν] (g : ℚ) (factor : String → ℚ) (hf : OwnFactors g factor) (rd : RawReader τ (RawWf τ) (Dict String (Cell τ)) ν) (tCor : List ℚ)
    (chain : List (Reducer V σ (List (List ℚ)) (FrameCol (Cell τ)))) (hchain : ∀ r ∈ chain, FollowsGain g factor r.cls r.kwargs) (config : MetaDict ν)
    (hnum : ∀ j (hj : j < rd.events.length), rd.events[j].iev = j)
    (hlen' : rd.events.length ≤ 2 ^ 32) (hp : 1 ≤ rd.nPixels) (hp' : rd.nPixels ≤ 2 ^ 32) (hne : goodEvents rd.events ≠ [])
    (hm : (Dict.keys rd.otherMeta).Nodup) (x x' : Extractor (ExtractState V σ τ) τ (RawWf τ) (Dict String (Cell τ)) ν)
    (hx : newExtractor rd tCor (.ok chain) config = .ok x) (hx' : newExtractor (louderRun g rd) tCor (.ok chain) config = .ok x')
    (enc : Option τ → ν) (mem mem' : List (DRow (Dict String (Cell τ))) → Nat) (cast : String → Cell τ → Cell τ) (order order' : List String)
    (ho : IsOrder (dl1Calls rd x enc).1 order) (ho' : IsOrder (dl1Calls (louderRun g rd) x' enc).1 order') :
    (dl1Calls (louderRun g rd) x' enc).2 = (dl1Calls rd x enc).2 ∧
    ((dl1Calls rd x enc).2 = none → ∃ s s' r r', writeDl1File mem (castColumns cast) rd x enc order = (.ok s, none) ∧
      writeDl1File mem' (castColumns cast) (louderRun g rd) x' enc order' = (.ok s', none) ∧
      openReader s = .ok r ∧ openReader s' = .ok r' ∧ ScaledFile factor cast r r') := by
  have hall := C152_extracted g factor hf rd tCor chain hchain config
  rw [hx] at hall
  simp only at hall
  obtain ⟨y', hy', hall⟩ := hall
  obtain rfl := Except.ok.inj (hy'.symm.trans hx')
  obtain ⟨-, -, e3, -⟩ := newExtractor_ok _ _ _ _ _ hx
  obtain ⟨-, -, e3', -⟩ := newExtractor_ok _ _ _ _ _ hx'
  have herr : (dl1Calls (louderRun g rd) y' enc).2 = (dl1Calls rd x enc).2 := by
    rw [dl1Calls_err (louderRun g rd) y' enc (by intro s e s' vs h; rw [e3'] at h; exact extractEvent_width _ _ _ _ _ _ h),
      dl1Calls_err rd x enc (by intro s e s' vs h; rw [e3] at h; exact extractEvent_width _ _ _ _ _ _ h), hall]
    cases extractAll x x.init (goodEvents rd.events) <;> rfl
  refine ⟨herr, fun hok => ?_⟩
  have hgood : goodEvents (louderRun g rd).events = (goodEvents rd.events).map (louderEvent g) :=
    goodEvents_map (louderEvent g) (fun e => ⟨rfl, rfl⟩) rd.events
  have hids : (rd.events.map Event.iev).Nodup := by
    have : rd.events.map Event.iev = List.range rd.events.length := by
      apply List.ext_getElem (by simp)
      intro i h1 h2
      simp only [List.getElem_map, List.getElem_range]
      exact hnum i (by simpa using h1)
    rw [this]
    exact List.nodup_range
  have hid : ((goodEvents rd.events).map Event.iev).Nodup := List.Nodup.sublist (List.filter_sublist.map _) hids
  have hbd : ∀ e ∈ goodEvents rd.events, e.iev < 2 ^ 32 := by
    intro e he
    obtain ⟨i, hi, rfl⟩ := List.mem_iff_getElem.1 (List.mem_of_mem_filter he)
    rw [hnum i hi]
    omega
  have hsame : ((goodEvents (louderRun g rd).events).map Event.iev) = (goodEvents rd.events).map Event.iev := by
    rw [hgood, List.map_map]
    rfl
  obtain ⟨s, r, vss, w1, w2, w3, w4, w5, w6, w7⟩ := C25_event_round_trip mem (castColumns cast) rd x enc order hok ho hm hid hbd hp hp' hne
  obtain ⟨s', r', vss', w1', w2', w3', w4', w5', w6', w7'⟩ := C25_event_round_trip mem' (castColumns cast) (louderRun g rd) y' enc order' (by rw [herr]; exact hok) ho' hm
    (by rw [hsame]; exact hid) (by
      intro e he
      rw [hgood] at he
      obtain ⟨e0, h0, rfl⟩ := List.mem_map.1 he
      exact hbd e0 h0) hp hp' (by rw [hgood]; simpa using hne)
  refine ⟨s, s', r, r', w1, w1', w2, w2', fun id => ?_⟩
  have hv : vss' = vss.map (List.map (scaledRow factor)) := by
    rw [hall, w3] at w3'
    exact (Except.ok.inj w3').symm
  by_cases hex : ∃ e ∈ goodEvents rd.events, (e.iev : Int) = id
  · obtain ⟨e, he, rfl⟩ := hex
    obtain ⟨k, hk, hke⟩ := List.mem_iff_getElem.1 he
    have hk' : k < vss.length := by omega
    have hz : (e, vss[k]) ∈ (goodEvents rd.events).zip vss := by
      rw [List.mem_iff_getElem?]
      exact ⟨k, by rw [List.getElem?_zip_eq_some]; exact ⟨by rw [List.getElem?_eq_getElem hk, hke], List.getElem?_eq_getElem hk'⟩⟩
    have hz' : (louderEvent g e, vss[k].map (scaledRow factor)) ∈ (goodEvents (louderRun g rd).events).zip vss' := by
      rw [hgood, hv, List.mem_iff_getElem?]
      exact ⟨k, by
        rw [List.getElem?_zip_eq_some]
        exact ⟨by rw [List.getElem?_map, List.getElem?_eq_getElem hk, hke]; rfl, by rw [List.getElem?_map, List.getElem?_eq_getElem hk']; rfl⟩⟩
    have g1 := w6 _ hz
    have g1' := w6' _ hz'
    simp only at g1 g1'
    rw [g1]
    refine ⟨_, g1', by simp [eventRows], ?_⟩
    intro i row row' hi hi'
    unfold eventRows at hi hi'
    rw [List.getElem?_mapIdx] at hi hi'
    rw [List.getElem?_map] at hi'
    cases hrow : vss[k][i]? with
    | none => rw [hrow] at hi; simp at hi
    | some v =>
      rw [hrow] at hi hi'
      simp only [Option.map_some, Option.some.injEq] at hi hi'
      subst hi hi'
      refine ⟨rfl, rfl, fun c => ⟨Dict.get? v c, ?_, ?_⟩⟩
      · simp only
        rw [get?_castColumns]
      · simp only
        rw [get?_castColumns, get?_scaledRow, Option.map_map]
        rfl
  · have hno : ∀ e ∈ goodEvents rd.events, (e.iev : Int) ≠ id := fun e he h => hex ⟨e, he, h⟩
    rw [w7 id hno]
    simp only
    refine w7' id ?_
    intro e he
    rw [hgood] at he
    obtain ⟨e0, h0, rfl⟩ := List.mem_map.1 he
    exact hno e0 h0

/-! ### the cases the theorems speak about -/

/-- `Common` and `Saturation` with some of their columns enabled -/
def gainChain : List (Reducer Setting RedState (List (List ℚ)) (FrameCol (Cell Nat))) :=
  [⟨framedClass saturation, [("t_event", .num 8), ("saturation_sum", .flag true)], ["saturation_sum"], ⟨[], 0⟩⟩,
   ⟨framedClass common, [("waveform_rms", .flag true), ("waveform_max", .flag true)], ["waveform_rms", "waveform_max"], ⟨[], 0⟩⟩]

theorem gainChain_shipped : ∀ r ∈ gainChain, ∃ c ∈ [averageWf, saturation, common], r.cls = framedClass c := by
  intro r hr
  simp only [gainChain, List.mem_cons, List.not_mem_nil, or_false] at hr
  rcases hr with rfl | rfl
  · exact ⟨saturation, by simp, rfl⟩
  · exact ⟨common, by simp, rfl⟩

/-- the rows of a run with a gain -/
def gainRows (g : ℚ) : Except Err (List (List (Dict String (Cell Nat)))) := match newExtractor (louderRun g longRun) [1 / 2] (.ok gainChain) [] with
  | .error e => .error e
  | .ok x => extractAll x x.init (goodEvents (louderRun g longRun).events)

/-- the tenth processed event of the run with fifty events -/
theorem gainRows_ok : (gainRows 1).toOption.map (fun vss => vss[9]?) =
    some (some [[("t_cpu", .time 111), ("t_tack", .num 5), ("first_cell_id", .num 7), ("baseline_subtracted", .num (1233 / 50)), ("saturation_sum", .num (12 * (11 - 1233 / 50))),
      ("waveform_rms", .num 0), ("waveform_max", .num (11 - 1233 / 50))]]) := by
  decide +kernel

/-- the same event with the gain 3 -/
theorem gainRows_louder : (gainRows 3).toOption.map (fun vss => vss[9]?) =
    some (some [[("t_cpu", .time 111), ("t_tack", .num 5), ("first_cell_id", .num 7), ("baseline_subtracted", .num (3699 / 50)), ("saturation_sum", .num (36 * (11 - 1233 / 50))),
      ("waveform_rms", .num 0), ("waveform_max", .num (3 * (11 - 1233 / 50)))]]) := by
  decide +kernel

example := C152_shipped 3 (by decide) longRun [1 / 2] gainChain gainChain_shipped []

/-- the hypotheses of `C152_file` are met by the long run with and without the gain 3 -/
example : ∃ s s' r r', openReader s = .ok r ∧ openReader s' = .ok r' ∧ ScaledFile (τ := Nat) (ν := Unit) (columnFactor 3) (fun _ c => c) r r' := by
  have hfol : ∀ r ∈ gainChain, FollowsGain 3 (columnFactor 3) r.cls r.kwargs := fun r hr => by
    obtain ⟨c, hc, h⟩ := gainChain_shipped r hr
    rw [h]
    exact shipped_followsGain c hc r.kwargs 3 (by decide)
  have hgen : ∀ g : ℚ, (gainRows g).toOption.isSome = true → ∃ x, newExtractor (louderRun g longRun) [1 / 2] (.ok gainChain) [] = .ok x ∧
      (dl1Calls (louderRun g longRun) x fun _ => ()).2 = none := by
    intro g h
    unfold gainRows at h
    cases hx : newExtractor (louderRun g longRun) [1 / 2] (.ok gainChain) [] with
    | error e => rw [hx] at h; simp [Except.toOption] at h
    | ok x =>
      rw [hx] at h
      simp only at h
      obtain ⟨-, -, e3, -⟩ := newExtractor_ok _ _ _ _ _ hx
      refine ⟨x, rfl, ?_⟩
      rw [dl1Calls_err (louderRun g longRun) x _ (by intro s e s' vs h; rw [e3] at h; exact extractEvent_width _ _ _ _ _ _ h)]
      cases hv : extractAll x x.init (goodEvents (louderRun g longRun).events) with
      | error e => rw [hv] at h; simp [Except.toOption] at h
      | ok vss => rfl
  have h1 : (gainRows 1).toOption.isSome = true := by
    have := gainRows_ok
    cases hg : (gainRows 1).toOption with
    | none => rw [hg] at this; simp at this
    | some v => rfl
  have h3 : (gainRows 3).toOption.isSome = true := by
    have := gainRows_louder
    cases hg : (gainRows 3).toOption with
    | none => rw [hg] at this; simp at this
    | some v => rfl
  have hone : louderRun (ν := Unit) 1 longRun = longRun := by
    unfold louderRun
    have : longRun.events.map (louderEvent 1) = longRun.events := by
      apply (List.map_congr_left (g := id) ?_).trans (List.map_id _)
      rintro ⟨iev, st, mp, tc, ⟨rows, ty, tt, fc, mc⟩⟩ -
      simp [louderEvent, amplified]
    rw [this]
  obtain ⟨x, hx, hd⟩ := hgen 1 h1
  obtain ⟨x', hx', hd'⟩ := hgen 3 h3
  rw [hone] at hx hd
  have hne : goodEvents longRun.events ≠ [] := by decide +kernel
  obtain ⟨s, s', r, r', -, -, g1, g2, g3⟩ := (C152_file 3 (columnFactor 3) (columnFactor_own 3) longRun [1 / 2] gainChain hfol [] longRun_good.1 (by rw [longRun_good.2.2]; decide)
    (by decide) (by decide) hne (by decide) x x' hx hx' (fun _ => ()) List.length (fun _ => 0) (fun _ c => c) ["data"] ["data"]
    (order_data _ _ _ hd rfl hne) (order_data _ _ _ hd' rfl (by
      show goodEvents (longRun.events.map (louderEvent _)) ≠ []
      rw [goodEvents_map (louderEvent _) (fun e => ⟨rfl, rfl⟩)]
      simpa using hne))).2 hd
  exact ⟨s, s', r, r', g1, g2, g3⟩

end Verif.Props
