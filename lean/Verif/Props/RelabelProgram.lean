import Verif.Props.GainProgram
import Verif.Props.Relabel

/-!
# C167: the numbers of the pixels in the file `extract_dl1` makes with its own chain

C131 has the numbering of the pixels for single reducers. Here it is the whole run: the same recording, with its pixels numbered otherwise, gives the same rows under the other numbers.
-/

namespace Verif.Props

open Verif.Py Verif.Model Verif.Spec Verif.Lemmas

variable {τ ν : Type}

/-! ### vocabulary -/

/-- what an event has for each pixel in the other order; what it has once stays -/
def pickFrame {α : Type} (idx : List Nat) : FrameCol α → FrameCol α
  | .scalar a => .scalar a
  | .array l => .array (pick idx l)

/-- the event with its pixels numbered otherwise: pixel `k` is what was pixel `idx[k]` -/
def renumberedEvent (idx : List Nat) (e : Model.Event τ (RawWf τ)) : Model.Event τ (RawWf τ) :=
  { e with payload := { e.payload with rows := pick idx e.payload.rows, firstCellId := pickFrame idx e.payload.firstCellId, mcTrue := e.payload.mcTrue.map (pickFrame idx) } }

/-- the run with the pixels of every event numbered otherwise -/
def renumberedRun (idx : List Nat) (rd : RawReader τ (RawWf τ) (Dict String (Cell τ)) ν) : RawReader τ (RawWf τ) (Dict String (Cell τ)) ν :=
  { rd with events := rd.events.map (renumberedEvent idx) }

/-! ### lists in another order -/

theorem pick_get {α : Type} (idx : List Nat) (xs : List α) (h : ∀ i ∈ idx, i < xs.length) (p q : Nat) (hp : idx[p]? = some q) : (pick idx xs)[p]? = xs[q]? := by
  unfold pick
  induction idx generalizing p with
  | nil => simp at hp
  | cons i idx ih =>
    have hi : i < xs.length := h i (by simp)
    rw [List.filterMap_cons, List.getElem?_eq_getElem hi]
    cases p with
    | zero =>
      simp only [List.getElem?_cons_zero, Option.some.injEq] at hp ⊢
      subst hp
      rw [List.getElem?_eq_getElem hi]
    | succ p =>
      simp only [List.getElem?_cons_succ] at hp ⊢
      exact ih (fun j hj => h j (by simp [hj])) p hp

theorem renumbers_lt {idx : List Nat} {np : Nat} (h : Renumbers idx np) : ∀ i ∈ idx, i < np := fun _ hi => List.mem_range.1 (h.subset hi)

theorem renumbers_length {idx : List Nat} {np : Nat} (h : Renumbers idx np) : idx.length = np := by rw [h.length_eq, List.length_range]

theorem pick_getD {α : Type} (idx : List Nat) (np : Nat) (h : Renumbers idx np) (xs : List α) (hx : xs.length = np) (d : α) (p q : Nat) (hp : idx[p]? = some q) :
    (pick idx xs).getD p d = xs.getD q d := by
  rw [List.getD_eq_getElem?_getD, List.getD_eq_getElem?_getD, pick_get idx xs (by rw [hx]; exact renumbers_lt h) p q hp]

theorem pick_length {α : Type} (idx : List Nat) (np : Nat) (h : Renumbers idx np) (xs : List α) (hx : xs.length = np) : (pick idx xs).length = np := by
  subst hx
  exact (pick_perm idx xs h).length_eq

theorem cameraSum_pick (idx : List Nat) (w : List (List ℚ)) (h : Renumbers idx w.length) : cameraSum (pick idx w) = cameraSum w := by
  funext j
  unfold cameraSum
  exact ((pick_perm idx w h).map _).sum_eq

theorem at_pick (idx : List Nat) (np : Nat) (h : Renumbers idx np) (c : FrameCol (Cell τ)) (hc : ∀ l, c = .array l → l.length = np) (p q : Nat) (hp : idx[p]? = some q) :
    (pickFrame idx c).at p = c.at q := by
  cases c with
  | scalar a => rfl
  | array l => exact pick_getD idx np h l (hc l rfl) _ p q hp

/-! ### the row -/

theorem columns_pick (idx : List Nat) (C : Configured) (n : Nat) (y : List ℚ) (w : List (List ℚ)) (h : Renumbers idx w.length) (p q : Nat) (hp : idx[p]? = some q)
    (full full' : Dict String (Cell τ)) (hf : ConfiguredColumns C n y w q full) (hf' : ConfiguredColumns C n y (pick idx w) p full') :
    (∀ c ∈ plainColumns, c ≠ "t_cc" → Dict.get? full' c = Dict.get? full c) ∧ (MatchedInside n y w → Dict.get? full' "t_cc" = Dict.get? full "t_cc") := by
  have hrow : (pick idx w).getD p [] = w.getD q [] := pick_getD idx _ h w rfl _ p q hp
  obtain ⟨t, t1, t2, t3, t4⟩ := hf.average
  obtain ⟨u, u1, u2, u3, u4⟩ := hf'.average
  rw [cameraSum_pick idx w h] at u1
  obtain rfl := firstMax_unique t1 u1
  obtain ⟨am, peak, hh, tc, a1, a2, a3, -, -, a4, a5, a6, a7⟩ := hf.correlation
  obtain ⟨am', peak', hh', tc', b1, b2, b3, -, -, b4, b5, b6, b7⟩ := hf'.correlation
  obtain rfl := firstMax_unique a1 b1
  have hsum : (fun i => ((pick idx w).map fun r => matchedCharge y am r i).sum) = fun i => (w.map fun r => matchedCharge y am r i).sum :=
    funext fun i => ((pick_perm idx w h).map _).sum_eq
  rw [hsum] at b2
  obtain rfl := firstMax_unique a2 b2
  obtain rfl : hh = hh' := le_antisymm (b3.2 _ a3.1) (a3.2 _ b3.1)
  have e1 := hf'.startMean
  have e2 := hf'.startRms
  have e3 := hf'.endMean
  have e4 := hf'.endRms
  have e5 := hf'.waveMean
  have e6 := hf'.waveRms
  rw [hrow] at u3 u4 b4 b5 b6 e1 e2 e3 e4 e5 e6
  refine ⟨?_, ?_⟩
  · intro c hc hne
    simp only [plainColumns, List.mem_cons, List.not_mem_nil, or_false] at hc
    rcases hc with rfl | rfl | rfl | rfl | rfl | rfl | rfl | rfl | rfl | rfl | rfl | rfl
    · rw [t2, u2]
    · rw [t3, u3]
    · rw [hf.startMean, e1]
    · rw [hf.startRms, e2]
    · rw [hf.endMean, e3]
    · rw [hf.endRms, e4]
    · rw [hf.waveMean, e5]
    · rw [hf.waveRms, e6]
    · exact absurd rfl hne
    · rw [a5, b5]
    · rw [a6, b6]
    · rw [t4, u4]
  · intro hin
    obtain ⟨i1, i2⟩ := hin am peak a1 a2
    rw [a7, b7, a4 i1 i2, b4 i1 i2]

theorem row_pick (idx : List Nat) (np : Nat) (h : Renumbers idx np) (C : Configured) (hplain : ∀ c ∈ C.columns, c ∈ plainColumns) (n : Nat) (y : List ℚ) (e : Model.Event τ (RawWf τ))
    (hc : ∀ l, e.payload.firstCellId = .array l → l.length = np) (ht : ∀ l, e.payload.mcTrue = some (.array l) → l.length = np) (w : List (List ℚ)) (hw : w.length = np) (base : ℚ) (p q : Nat)
    (hp : idx[p]? = some q) (row row' : Dict String (Cell τ)) (hr : ConfiguredRow C n y e w base q row) (hr' : ConfiguredRow C n y (renumberedEvent idx e) (pick idx w) base p row') :
    (∀ c, c ≠ "t_cc" → Dict.get? row' c = Dict.get? row c) ∧ (MatchedInside n y w → Dict.get? row' "t_cc" = Dict.get? row "t_cc") := by
  obtain ⟨full, f1, f2⟩ := hr.columns
  obtain ⟨full', f1', f2'⟩ := hr'.columns
  obtain ⟨k1, k2⟩ := columns_pick idx C n y w (by rw [hw]; exact h) p q hp full full' f1 f1'
  refine ⟨?_, ?_⟩
  · intro c hne
    by_cases hm : c ∈ C.columns
    · rw [f2 c hm, f2' c hm]
      exact k1 c (hplain c hm) hne
    by_cases hown : c ∈ ["t_cpu", "t_tack", "first_cell_id", "baseline_subtracted", "mc_true"]
    · simp only [List.mem_cons, List.not_mem_nil, or_false] at hown
      rcases hown with rfl | rfl | rfl | rfl | rfl
      · rw [hr.tCpu, hr'.tCpu]; rfl
      · rw [hr.tTack, hr'.tTack]; rfl
      · rw [hr.firstCell, hr'.firstCell]
        exact congrArg some (at_pick idx np h _ hc p q hp)
      · rw [hr.baseline, hr'.baseline]
      · rw [hr.truth, hr'.truth]
        show (e.payload.mcTrue.map (pickFrame idx)).map _ = _
        cases hm : e.payload.mcTrue with
        | none => rfl
        | some v => exact congrArg some (at_pick idx np h v (fun l hl => ht l (by rw [hm, hl])) p q hp)
    · rw [hr.nothingElse c hown hm, hr'.nothingElse c hown hm]
  · intro hin
    by_cases hm : "t_cc" ∈ C.columns
    · rw [f2 _ hm, f2' _ hm]
      exact k2 hin
    · rw [hr.nothingElse _ (by decide) hm, hr'.nothingElse _ (by decide) hm]

/-! ### the waveforms -/

theorem place_lt {idx : List Nat} {np : Nat} (h : Renumbers idx np) {p : Nat} (hp : p < np) : ∃ q, idx[p]? = some q ∧ q < np := by
  have hl : p < idx.length := by rw [renumbers_length h]; exact hp
  exact ⟨idx[p], List.getElem?_eq_getElem hl, renumbers_lt h _ (List.getElem_mem hl)⟩

theorem aligned_pick (idx : List Nat) (np : Nat) (h : Renumbers idx np) (isMc : Bool) (tCor : List ℚ) (hcor : isMc = false → ∀ p q, idx[p]? = some q → tCor.getD p 0 = tCor.getD q 0) (n : Nat)
    (rows tc tc' : List (List ℚ)) (hrows : rows.length = np) (ha : Aligned isMc tCor n rows tc) (ha' : Aligned isMc tCor n (pick idx rows) tc') : tc' = pick idx tc := by
  obtain ⟨l, hl⟩ := ha
  obtain ⟨l', hl'⟩ := ha'
  have hlen := pick_length idx np h rows hrows
  have hlen' := pick_length idx np h tc (by omega)
  refine List.ext_getElem? fun p => ?_
  by_cases hp : p < np
  · obtain ⟨q, hq, hqn⟩ := place_lt h hp
    have hr : rows[q]? = some rows[q] := List.getElem?_eq_getElem (by omega)
    rw [pick_get idx tc (by rw [l, hrows]; exact renumbers_lt h) p q hq, hl q _ hr, hl' p rows[q] (by rw [pick_get idx rows (by rw [hrows]; exact renumbers_lt h) p q hq, hr])]
    cases isMc
    · rw [hcor rfl p q hq]
    · rfl
  · rw [List.getElem?_eq_none (by omega), List.getElem?_eq_none (by omega)]

theorem headSum_pick (idx : List Nat) (np : Nat) (h : Renumbers idx np) (m : Nat) (rows : List (List ℚ)) (hrows : rows.length = np) (p q : Nat) (hp : idx[p]? = some q) :
    headSum m (pick idx rows) p = headSum m rows q := by
  unfold headSum
  rw [pick_getD idx np h rows hrows _ p q hp]

theorem rollingBaseline_pick (idx : List Nat) (np : Nat) (h : Renumbers idx np) (n m : Nat) (source source' : List WfEvent) (hs : source'.map (·.rows) = source.map fun e => pick idx e.rows)
    (hsl : ∀ e ∈ source, e.rows.length = np) (ws : List (List (List ℚ))) (hws : ∀ w ∈ ws, w.length = np) (p q : Nat) (hp : idx[p]? = some q) :
    rollingBaseline n m source' (ws.map (pick idx)) p = rollingBaseline n m source ws q := by
  unfold rollingBaseline
  have h1 : ((ws.map (pick idx)).drop ((ws.map (pick idx)).length - n)).map (fun w => headSum m w p) = (ws.drop (ws.length - n)).map fun w => headSum m w q := by
    rw [List.length_map, ← List.map_drop, List.map_map]
    exact List.map_congr_left fun w hw => headSum_pick idx np h m w (hws w (List.mem_of_mem_drop hw)) p q hp
  have h2 : ((source'.take n).drop (ws.map (pick idx)).length).map (fun e => headSum m e.rows p) = ((source.take n).drop ws.length).map fun e => headSum m e.rows q := by
    have e1 : ((source'.take n).drop (ws.map (pick idx)).length).map (fun e => headSum m e.rows p) = (((source'.map (·.rows)).take n).drop ws.length).map fun r => headSum m r p := by
      rw [List.length_map, ← List.map_take, ← List.map_drop, List.map_map]
      rfl
    rw [e1, hs, ← List.map_take, ← List.map_drop, List.map_map]
    exact List.map_congr_left fun e he => headSum_pick idx np h m e.rows (hsl e (List.mem_of_mem_take (List.mem_of_mem_drop he))) p q hp
  rw [h1, h2]

theorem minusBaseline_pick (idx : List Nat) (np : Nat) (h : Renumbers idx np) (rows : List (List ℚ)) (hrows : rows.length = np) (b b' : Nat → ℚ)
    (hb : ∀ p q, idx[p]? = some q → b' p = b q) : minusBaseline (pick idx rows) b' = pick idx (minusBaseline rows b) := by
  have hlen := pick_length idx np h rows hrows
  have hm : (minusBaseline rows b).length = np := by rw [← hrows]; simp [minusBaseline]
  have hlen' := pick_length idx np h (minusBaseline rows b) hm
  refine List.ext_getElem? fun p => ?_
  by_cases hp : p < np
  · obtain ⟨q, hq, hqn⟩ := place_lt h hp
    rw [pick_get idx _ (by rw [hm]; exact renumbers_lt h) p q hq]
    unfold minusBaseline
    rw [List.getElem?_mapIdx, List.getElem?_mapIdx, pick_get idx rows (by rw [hrows]; exact renumbers_lt h) p q hq, hb p q hq]
  · rw [List.getElem?_eq_none (by simp [minusBaseline]; omega), List.getElem?_eq_none (by omega)]

theorem renumbered_plain (idx : List Nat) (rd : RawReader τ (RawWf τ) (Dict String (Cell τ)) ν) (h : Renumbers idx rd.nPixels) (n : Nat) (hr : PlainRun rd n) :
    PlainRun (renumberedRun idx rd) n := by
  have hm : ∀ e ∈ (renumberedRun idx rd).events, ∃ e0 ∈ rd.events, e = renumberedEvent idx e0 := fun e he => by
    obtain ⟨e0, h1, h2⟩ := List.mem_map.1 he
    exact ⟨e0, h1, h2.symm⟩
  refine ⟨?_, ?_, ?_, ?_, ?_⟩
  · intro j hj
    have hj' : j < rd.events.length := by simpa [renumberedRun] using hj
    have := hr.numbered j hj'
    simpa [renumberedRun, renumberedEvent] using this
  · intro e he
    obtain ⟨e0, h0, rfl⟩ := hm e he
    obtain ⟨s1, s2⟩ := hr.shape e0 h0
    have hp := pick_perm idx e0.payload.rows (by rw [s1]; exact h)
    exact ⟨hp.length_eq.trans s1, fun r hr' => s2 r (hp.subset hr')⟩
  · intro hmc e he
    obtain ⟨e0, h0, rfl⟩ := hm e he
    exact hr.floats hmc e0 h0
  · intro e he l hl
    obtain ⟨e0, h0, rfl⟩ := hm e he
    change pickFrame idx e0.payload.firstCellId = _ at hl
    cases hc : e0.payload.firstCellId with
    | scalar a => rw [hc] at hl; cases hl
    | array l0 =>
      rw [hc] at hl
      obtain rfl := FrameCol.array.inj hl
      exact pick_length idx _ h l0 (hr.cells e0 h0 l0 hc)
  · intro e he l hl
    obtain ⟨e0, h0, rfl⟩ := hm e he
    change e0.payload.mcTrue.map (pickFrame idx) = _ at hl
    cases hc : e0.payload.mcTrue with
    | none => rw [hc] at hl; cases hl
    | some v =>
      rw [hc] at hl
      cases v with
      | scalar a => cases hl
      | array l0 =>
        obtain rfl := FrameCol.array.inj (Option.some.inj hl)
        exact pick_length idx _ h l0 (hr.truth e0 h0 l0 hc)

/-! ### the file -/

/-- **C167**: a run and the same run with its pixels numbered otherwise are both extracted by the chain the program builds, and the row of a pixel of the second is, before the conversion
to the type of the column, the row of that pixel under its old number in the first; the time of the correlation is the same if the best match is inside the readout. For a run that
is not simulated the pixels that change places have to have the same time correction. -/
theorem C167_program [DecidableEq ν] (idx : List Nat) (pulse : String → Except Err (List ℚ)) (after : List (List ℚ) → Option ℚ)
    (rest : Shipped → ReducerClass RSetting ProgState (List (List ℚ)) ColVal) (found : List Shipped) (hall : ∀ c, c ∈ found) (C : Configured)
    (file : Config RSetting) (hs : Sets C file) (load : String → Yaml RSetting) (configPath : Option String) (hl : Loaded load configPath file)
    (path : String) (y : List ℚ) (hy : (∃ col ∈ Shipped.crossCorrelation.columns, col ∈ C.columns) → path ≠ "" ∧ pulse path = .ok y) (hA : 0 < area y)
    (rd : RawReader τ (RawWf τ) (Dict String (Cell τ)) ν) (hidx : Renumbers idx rd.nPixels) (n : Nat) (hrun : PlainRun rd n) (hn : 20 ≤ n) (hp : 1 ≤ rd.nPixels) (hp' : rd.nPixels ≤ 2048)
    (hlen : rd.events.length ≤ 2 ^ 32) (hne : goodEvents rd.events ≠ []) (hm : (Dict.keys rd.otherMeta).Nodup) (hmc : rd.isMc = true → rd.mcheader ≠ none)
    (tCor : List ℚ) (hread : ReadFrom tCor shippedTCor) (hcor : rd.isMc = false → ∀ p q, idx[p]? = some q → tCor.getD p 0 = tCor.getD q 0) (config : MetaDict ν) (enc : Option τ → ν) :
    ∃ chain x x', programChain pulse after rest found load configPath path = .ok chain ∧ newExtractor rd tCor (.ok chain) config = .ok x ∧
      newExtractor (renumberedRun idx rd) tCor (.ok chain) config = .ok x' ∧
      ∀ (mem mem' : List (DRow (Dict String (Cell τ))) → Nat) (cast : String → Cell τ → Cell τ) (order order' : List String),
        IsOrder (dl1Calls rd x enc).1 order → IsOrder (dl1Calls (renumberedRun idx rd) x' enc).1 order' →
        ∃ s r s' r', writeDl1File mem (castColumns cast) rd x enc order = (.ok s, none) ∧ openReader s = .ok r ∧
          writeDl1File mem' (castColumns cast) (renumberedRun idx rd) x' enc order' = (.ok s', none) ∧ openReader s' = .ok r' ∧
          (∀ e ∈ goodEvents rd.events, ∃ rows rows', dl1GetItem r e.iev = .ok rows ∧ dl1GetItem r' e.iev = .ok rows' ∧ rows.length = rd.nPixels ∧ rows'.length = rd.nPixels ∧
            ∃ w : List (List ℚ), ∀ p q : Nat, idx[p]? = some q → ∃ base vals vals', ConfiguredRow C n y e w base q vals ∧
              rows[q]? = some ⟨e.iev, some q, castColumns cast vals⟩ ∧ rows'[p]? = some ⟨e.iev, some p, castColumns cast vals'⟩ ∧
              (∀ c, c ≠ "t_cc" → Dict.get? vals' c = Dict.get? vals c) ∧ (MatchedInside n y w → Dict.get? vals' "t_cc" = Dict.get? vals "t_cc")) ∧
          ∀ id : Int, (∀ e ∈ goodEvents rd.events, (e.iev : Int) ≠ id) → dl1GetItem r id = .error .indexError ∧ dl1GetItem r' id = .error .indexError := by
  have hgood : goodEvents (renumberedRun idx rd).events = (goodEvents rd.events).map (renumberedEvent idx) := goodEvents_map (renumberedEvent idx) (fun e => ⟨rfl, rfl⟩) _
  obtain ⟨chain, x, tcs, c1, c2, -, c4, c5⟩ := C157_configured_run pulse after rest found hall C file hs load configPath hl path y hy hA rd n hrun hn hp hp' hlen hne hm hmc tCor hread config enc
  obtain ⟨chain', x', tcs', d1, d2, -, d4, d5⟩ := C157_configured_run pulse after rest found hall C file hs load configPath hl path y hy hA (renumberedRun idx rd) n
    (renumbered_plain idx rd hidx n hrun) hn hp hp' (by simpa [renumberedRun] using hlen) (by rw [hgood]; simpa using hne) hm hmc tCor hread config enc
  rw [c1] at d1
  obtain rfl := Except.ok.inj d1
  have hgl : ∀ e ∈ goodEvents rd.events, e ∈ rd.events := fun e he => (List.mem_filter.1 he).1
  have hshape : ∀ e ∈ goodEvents rd.events, e.payload.rows.length = rd.nPixels := fun e he => (hrun.shape e (hgl e he)).1
  have htl : ∀ tc ∈ tcs, tc.length = rd.nPixels := by
    intro tc htc
    obtain ⟨k, hk⟩ := List.mem_iff_getElem?.1 htc
    have hkl := (List.getElem?_eq_some_iff.1 hk).1
    have hke : k < (goodEvents rd.events).length := by rw [c4.length_eq]; exact hkl
    have := (List.forall₂_iff_get.1 c4).2 k hke hkl
    simp only [List.get_eq_getElem] at this
    rw [(List.getElem?_eq_some_iff.1 hk).2] at this
    rw [this.1]
    exact hshape _ (List.getElem_mem hke)
  have htcs : tcs' = tcs.map (pick idx) := by
    rw [hgood, List.forall₂_map_left_iff] at d4
    generalize goodEvents rd.events = es at c4 d4 hshape
    clear c5 d5 htl
    induction es generalizing tcs tcs' with
    | nil => cases c4; cases d4; rfl
    | cons e es ih =>
      cases c4 with
      | cons a1 a2 =>
        cases d4 with
        | cons b1 b2 =>
          rw [List.map_cons, ih _ _ a2 b2 (fun e he => hshape e (by simp [he])), aligned_pick idx _ hidx _ _ hcor _ _ _ _ (hshape e (by simp)) a1 b1]
  have hsrc : (wfEvents (renumberedRun idx rd).events).map (·.rows) = (wfEvents rd.events).map fun e => pick idx e.rows := by
    simp [wfEvents, renumberedRun, renumberedEvent]
  have hsl : ∀ e ∈ wfEvents rd.events, e.rows.length = rd.nPixels := by
    intro e he
    obtain ⟨e0, h0, rfl⟩ := List.mem_map.1 he
    exact (hrun.shape e0 h0).1
  refine ⟨chain, x, x', c1, c2, d2, fun mem mem' cast order order' ho ho' => ?_⟩
  obtain ⟨s, r, s1, s2, s3, s4⟩ := c5 mem cast order ho
  obtain ⟨s', r', s1', s2', s3', s4'⟩ := d5 mem' cast order' ho'
  refine ⟨s, r, s', r', s1, s2, s1', s2', ?_, ?_⟩
  · intro e he
    obtain ⟨k, hk⟩ := List.mem_iff_getElem?.1 he
    have hkl := (List.getElem?_eq_some_iff.1 hk).1
    have hlt : tcs.length = (goodEvents rd.events).length := c4.length_eq.symm
    obtain ⟨tc, htc⟩ : ∃ tc, tcs[k]? = some tc := ⟨tcs[k], List.getElem?_eq_getElem (by omega)⟩
    have htcl := htl tc (List.mem_of_getElem? htc)
    obtain ⟨rows, r1, r2, r3⟩ := s3 k e tc hk htc
    obtain ⟨rows', r1', r2', r3'⟩ := s3' k (renumberedEvent idx e) (pick idx tc) (by rw [hgood, List.getElem?_map, hk]; rfl) (by rw [htcs, List.getElem?_map, htc]; rfl)
    refine ⟨rows, rows', r1, r1', r2, r2', minusBaseline tc fun q => rollingBaseline 50 16 (wfEvents rd.events) (tcs.take (k + 1)) q, fun p q hpq => ?_⟩
    have hpn : p < rd.nPixels := by rw [← renumbers_length hidx]; exact (List.getElem?_eq_some_iff.1 hpq).1
    have hqn : q < rd.nPixels := renumbers_lt hidx _ (List.mem_of_getElem? hpq)
    obtain ⟨vals, v1, v2⟩ := r3 q hqn
    obtain ⟨vals', v1', v2'⟩ := r3' p hpn
    have hb : ∀ p q, idx[p]? = some q → rollingBaseline 50 16 (wfEvents (renumberedRun idx rd).events) (tcs'.take (k + 1)) p = rollingBaseline 50 16 (wfEvents rd.events) (tcs.take (k + 1)) q := by
      intro p q h
      rw [htcs, ← List.map_take]
      exact rollingBaseline_pick idx _ hidx 50 16 _ _ hsrc hsl _ (fun w hw => htl w (List.mem_of_mem_take hw)) p q h
    rw [minusBaseline_pick idx _ hidx tc htcl (fun q => rollingBaseline 50 16 (wfEvents rd.events) (tcs.take (k + 1)) q) _ hb, hb p q hpq] at v2'
    obtain ⟨z1, z2⟩ := row_pick idx _ hidx C hs.plain n y e (hrun.cells e (hgl e he)) (hrun.truth e (hgl e he)) _ (by simpa [minusBaseline] using htcl) _ p q hpq vals vals' v2 v2'
    exact ⟨_, vals, vals', v2, v1, v1', z1, z2⟩
  · intro id hid
    refine ⟨s4 id hid, s4' id fun e he => ?_⟩
    rw [hgood] at he
    obtain ⟨e0, h0, rfl⟩ := List.mem_map.1 he
    exact hid e0 h0

/-! ### runs meeting the hypotheses, and the correction -/

/-- a simulated run: that of `C155` with a header -/
def simulatedRun : RawReader Nat (RawWf Nat) (Dict String (Cell Nat)) Unit := { pulseRun with isMc := true, mcheader := some [] }

theorem simulatedRun_plain : PlainRun simulatedRun 24 :=
  ⟨pulseRun_plain.numbered, pulseRun_plain.shape, (fun h => by cases h), pulseRun_plain.cells, pulseRun_plain.truth⟩

/-- The hypotheses can be met: a simulated run of two pixels with their numbers exchanged, the built-in table. -/
example := C167_program (ν := Unit) [1, 0] (fun _ => .ok [1, 2, 1]) (fun _ => none) (fun c => ⟨"", c.columns, fun _ => .error .runtimeError, fun _ _ _ => .error .runtimeError,
    fun _ _ _ => .error .runtimeError, fun _ s => s⟩) everyReducer (by intro c; cases c <;> decide) builtIn _ builtIn_sets (fun _ => .null) none (Or.inl ⟨Or.inl rfl, rfl⟩) "pulse.txt"
  [1, 2, 1] (fun _ => ⟨by decide, rfl⟩) (by decide +kernel) simulatedRun (by unfold Renumbers; decide) 24 simulatedRun_plain (by decide) (by decide) (by decide) (by decide) (by decide)
  (by decide) (by intro _ h; cases h) shippedTCor (List.forall₂_same.2 fun x _ => by norm_num) (by intro h; cases h) [] (fun _ => ())

/-- the first event of that run and the same with its pixels exchanged -/
example : (pulseEvent 0 false 11).payload.rows.map (·.getD 11 0) = [8, 2] ∧ (renumberedEvent [1, 0] (pulseEvent 0 false 11)).payload.rows.map (·.getD 11 0) = [2, 8] ∧
    (renumberedEvent [1, 0] (pulseEvent 0 false 11)).payload.firstCellId = .array [.num 8, .num 7] := by
  decide +kernel

/-- the numbers in the columns made without a reducer, for every pixel of every processed event -/
def recordedRows (rd : RawReader Nat (RawWf Nat) (Dict String (Cell Nat)) Unit) : Except Err (List (List (Dict String (Cell Nat)))) :=
  match newExtractor (V := Unit) (σ := Unit) rd shippedTCor (.ok []) [] with
  | .error e => .error e
  | .ok x => extractAll x x.init (goodEvents rd.events)

/-- an event of two pixels with rising samples, in the second twice as steep -/
def rampEvent : Model.Event Nat (RawWf Nat) := ⟨0, false, false, 100, ⟨[(List.range 20).map fun j : Nat => (j : ℚ), (List.range 20).map fun j : Nat => 2 * (j : ℚ)], .float32, .num 5, .scalar (.num 7), none⟩⟩

/-- **C167**: the condition on the corrections is needed. For a run that is not simulated the correction belongs to the number, so that a pixel has another baseline under another
number. -/
theorem C167_correction : ∃ rd : RawReader Nat (RawWf Nat) (Dict String (Cell Nat)) Unit, PlainRun rd 20 ∧ Renumbers [1, 0] rd.nPixels ∧ rd.isMc = false ∧
    ∃ a b a' b', recordedRows rd = .ok [[a, b]] ∧ recordedRows (renumberedRun [1, 0] rd) = .ok [[a', b']] ∧
      Dict.get? a' "baseline_subtracted" ≠ Dict.get? b "baseline_subtracted" ∧ Dict.get? b' "baseline_subtracted" ≠ Dict.get? a "baseline_subtracted" := by
  refine ⟨{ flatRun [rampEvent] with nPixels := 2 }, ⟨?_, ?_, ?_, ?_, ?_⟩, by unfold Renumbers; decide, rfl, ?_⟩
  · intro j hj
    match j, hj with
    | 0, _ => rfl
  · intro e he
    obtain rfl : e = rampEvent := by simpa [flatRun] using he
    exact ⟨rfl, by decide +kernel⟩
  · intro _ e he
    obtain rfl : e = rampEvent := by simpa [flatRun] using he
    decide
  · intro e he l hl
    obtain rfl : e = rampEvent := by simpa [flatRun] using he
    cases hl
  · intro e he l hl
    obtain rfl : e = rampEvent := by simpa [flatRun] using he
    cases hl
  · have key : (match recordedRows { flatRun [rampEvent] with nPixels := 2 }, recordedRows (renumberedRun [1, 0] { flatRun [rampEvent] with nPixels := 2 }) with
        | .ok [[a, b]], .ok [[a', b']] => decide (Dict.get? a' "baseline_subtracted" ≠ Dict.get? b "baseline_subtracted" ∧ Dict.get? b' "baseline_subtracted" ≠ Dict.get? a "baseline_subtracted")
        | _, _ => false) = true := by decide +kernel
    split at key
    · next a b a' b' h1 h2 => exact ⟨a, b, a', b', h1, h2, of_decide_eq_true key⟩
    · cases key

end Verif.Props
