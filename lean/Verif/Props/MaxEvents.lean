import Verif.Props.Extraction
import Verif.Props.WaveformReader

/-! # C166: extracting only the first events of a run -/

namespace Verif.Props

open Verif.Py Verif.Model Verif.Spec Verif.Lemmas

variable {τ ν V σ : Type}

/-- the run as read with `--maxevents N`: only its first `N` events (`core/io/tio.py:76-77`, C03) -/
def limitedRun {ε β : Type} (N : Nat) (rd : RawReader τ ε β ν) : RawReader τ ε β ν := { rd with events := rd.events.take N }

/-- **C166**: what a reader hands out with a limit is the beginning of what it hands out without one, as `limitedRun` has it -/
theorem C166_events {ρ : Type} (f N : Nat) (hN : 0 < N) (raw : Int → ρ) : (tioReader f (some N) raw).iter = (tioReader f none raw).iter.take N := by
  rw [C03_tio_iter f N hN raw, C03_iter (tioReader f none raw) f rfl, ← List.map_take, List.take_range]
  rfl

example : ((tioReader 3 (some 2) fun i => i).iter.map (·.iev), (tioReader 3 none fun i => i).iter.map (·.iev)) = ([0, 1], [0, 1, 2]) := by decide

theorem goodEvents_take {ε : Type} (es : List (Model.Event τ ε)) (N : Nat) : goodEvents (es.take N) <+: goodEvents es := by
  conv_rhs => rw [← List.take_append_drop N es]
  unfold goodEvents
  rw [List.filter_append]
  exact List.prefix_append _ _

theorem extractAll_prefix {S ε β : Type} (x : Extractor S τ ε β ν) (a b : List (Model.Event τ ε)) (s : S) (vss : List (List β)) (h : extractAll x s (a ++ b) = .ok vss) :
    extractAll x s a = .ok (vss.take a.length) := by
  induction a generalizing s vss with
  | nil => rfl
  | cons e a ih =>
    rw [List.cons_append, extractAll] at h
    rw [extractAll]
    split at h
    · cases h
    · next s' vals he =>
      split at h
      · cases h
      · next rest hr =>
        obtain rfl := Except.ok.inj h
        simp only [ih _ _ hr, List.length_cons, List.take_succ_cons]

theorem limited_numbered {ε β : Type} (N : Nat) (rd : RawReader τ ε β ν) (hnum : ∀ j (hj : j < rd.events.length), rd.events[j].iev = j) :
    ∀ j (hj : j < (limitedRun N rd).events.length), (limitedRun N rd).events[j].iev = j := by
  intro j hj
  simp only [limitedRun, List.length_take] at hj ⊢
  rw [List.getElem_take]
  exact hnum j (by omega)

theorem limited_extractor (N : Nat) (rd : RawReader τ (RawWf τ) (Dict String (Cell τ)) ν) (tCor : List ℚ)
    (chain : Except Err (List (Reducer V σ (List (List ℚ)) (FrameCol (Cell τ))))) (config : MetaDict ν)
    (hnum : ∀ j (hj : j < rd.events.length), rd.events[j].iev = j) (hN : 50 ≤ N) :
    newExtractor (limitedRun N rd) tCor chain config = newExtractor rd tCor chain config := by
  refine C143_first_partial rd (limitedRun N rd) tCor chain config rfl rfl hnum (limited_numbered N rd hnum) ?_
  show (rd.events.take N).take 50 = _
  rw [List.take_take, Nat.min_eq_left hN]

theorem limited_succeeds {S ε β : Type} (N : Nat) (rd : RawReader τ ε β ν) (x : Extractor S τ ε β ν) (enc : Option τ → ν) (h : (dl1Calls rd x enc).2 = none) :
    (dl1Calls (limitedRun N rd) x enc).2 = none := by
  by_contra hne
  obtain ⟨err, herr⟩ := Option.ne_none_iff_exists'.1 hne
  obtain ⟨t, ht⟩ := goodEvents_take rd.events N
  rcases (C27_fails_iff _ _ _ _).1 herr with ⟨before, e, after, vss, h1, h2, h3, h4⟩ | ⟨hno, h2, h3, h4⟩
  · have : (dl1Calls rd x enc).2 = some err := (C27_fails_iff _ _ _ _).2 (.inl ⟨before, e, after ++ t, vss, by
      rw [← ht, show goodEvents (rd.events.take N) = before ++ e :: after from h1]; simp, h2, h3, h4⟩)
    rw [h] at this
    cases this
  · by_cases hs : ∃ e', StopsWith rd x x.init rd.events e'
    · obtain ⟨e', he'⟩ := hs
      have : (dl1Calls rd x enc).2 = some e' := (C27_fails_iff _ _ _ _).2 (.inl he')
      rw [h] at this
      cases this
    · have : (dl1Calls rd x enc).2 = some err := (C27_fails_iff _ _ _ _).2 (.inr ⟨fun e' he' => hs ⟨e', he'⟩, h2, h3, h4⟩)
      rw [h] at this
      cases this

theorem good_increasing {ε : Type} (es : List (Model.Event τ ε)) (hnum : ∀ j (hj : j < es.length), es[j].iev = j) :
    ((goodEvents es).map Model.Event.iev).Pairwise (· < ·) ∧ ∀ e ∈ goodEvents es, e.iev < es.length := by
  constructor
  · have : (es.map Model.Event.iev).Pairwise (· < ·) := by
      rw [List.pairwise_iff_getElem]
      intro i j hi hj hij
      rw [List.length_map] at hi hj
      rw [List.getElem_map, List.getElem_map, hnum i hi, hnum j hj]
      exact hij
    exact this.sublist (List.Sublist.map _ List.filter_sublist)
  · intro e he
    obtain ⟨i, hi, rfl⟩ := List.mem_iff_getElem.1 (List.mem_of_mem_filter he)
    rw [hnum i hi]
    exact hi

/-- **C166** (part): with `--maxevents N`, `N ≥ 50`, the file is that of the whole run cut after the first `N` events: the extraction succeeds if that of the
whole run does, iterating over its events gives the first events of the other file, and each event which it has is read back with the same rows from
both. Whatever the reducers are and keep -/
theorem C166_partial [DecidableEq ν] (N : Nat) (hN : 50 ≤ N) (rd : RawReader τ (RawWf τ) (Dict String (Cell τ)) ν) (tCor : List ℚ)
    (chain : Except Err (List (Reducer V σ (List (List ℚ)) (FrameCol (Cell τ))))) (config : MetaDict ν)
    (hnum : ∀ j (hj : j < rd.events.length), rd.events[j].iev = j) (hlen : rd.events.length ≤ 2 ^ 32) (hp : 1 ≤ rd.nPixels) (hp' : rd.nPixels ≤ 2 ^ 32)
    (hm : (Dict.keys rd.otherMeta).Nodup) (hne : goodEvents (rd.events.take N) ≠ []) (enc : Option τ → ν)
    (x : Extractor (ExtractState V σ τ) τ (RawWf τ) (Dict String (Cell τ)) ν) (hx : newExtractor rd tCor chain config = .ok x) (hok : (dl1Calls rd x enc).2 = none) :
    newExtractor (limitedRun N rd) tCor chain config = .ok x ∧ (dl1Calls (limitedRun N rd) x enc).2 = none ∧
    ∀ (mem mem' : List (DRow (Dict String (Cell τ))) → Nat) (castVals : Dict String (Cell τ) → Dict String (Cell τ)) (order order' : List String),
      IsOrder (dl1Calls rd x enc).1 order → IsOrder (dl1Calls (limitedRun N rd) x enc).1 order' →
      ∃ s s' r r' blocks, writeDl1File mem castVals rd x enc order = (.ok s, none) ∧ openReader s = .ok r ∧
        writeDl1File mem' castVals (limitedRun N rd) x enc order' = (.ok s', none) ∧ openReader s' = .ok r' ∧
        iterateOverEvents r = .ok blocks ∧ iterateOverEvents r' = .ok (blocks.take (goodEvents (rd.events.take N)).length) ∧
        ∀ e ∈ goodEvents (rd.events.take N), ∃ rows, dl1GetItem r e.iev = .ok rows ∧ dl1GetItem r' e.iev = .ok rows ∧ rows.length = rd.nPixels := by
  have hok' := limited_succeeds N rd x enc hok
  refine ⟨(limited_extractor N rd tCor chain config hnum hN).trans hx, hok', ?_⟩
  intro mem mem' castVals order order' ho ho'
  obtain ⟨t, ht⟩ := goodEvents_take rd.events N
  have hne0 : goodEvents rd.events ≠ [] := by rw [← ht]; simp [hne]
  obtain ⟨i1, i2⟩ := good_increasing rd.events hnum
  obtain ⟨j1, j2⟩ := good_increasing (limitedRun N rd).events (limited_numbered N rd hnum)
  have hle : (limitedRun N rd).events.length ≤ 2 ^ 32 := by
    have : (limitedRun N rd).events.length ≤ rd.events.length := by simp [limitedRun]
    omega
  have b1 : ∀ e ∈ goodEvents rd.events, e.iev < 2 ^ 32 := fun e he => by have := i2 e he; omega
  have b2 : ∀ e ∈ goodEvents (limitedRun N rd).events, e.iev < 2 ^ 32 := fun e he => by have := j2 e he; omega
  obtain ⟨s, r, vss, a1, a2, a3, a4, a5⟩ := C26_produced_file mem castVals rd x enc order hok ho hm i1 b1 hp hp' hne0
  obtain ⟨s', r', vss', c1, c2, c3, c4, c5⟩ := C26_produced_file mem' castVals (limitedRun N rd) x enc order' hok' ho' hm j1 b2 hp hp' hne
  obtain ⟨s0, r0, vss0, d1, d2, d3, d4, d5, d6, -⟩ := C25_event_round_trip mem castVals rd x enc order hok ho hm (i1.imp fun h => by omega) b1 hp hp' hne0
  obtain ⟨s1, r1, vss1, e1, e2, e3, e4, e5, e6, -⟩ := C25_event_round_trip mem' castVals (limitedRun N rd) x enc order' hok' ho' hm (j1.imp fun h => by omega) b2 hp hp' hne
  rw [a1] at d1
  obtain rfl := Except.ok.inj (Prod.ext_iff.1 d1).1
  obtain rfl := Except.ok.inj (a2.symm.trans d2)
  obtain rfl := Except.ok.inj (a3.symm.trans d3)
  rw [c1] at e1
  obtain rfl := Except.ok.inj (Prod.ext_iff.1 e1).1
  obtain rfl := Except.ok.inj (c2.symm.trans e2)
  obtain rfl := Except.ok.inj (c3.symm.trans e3)
  have hv : vss' = vss.take (goodEvents (rd.events.take N)).length := by
    rw [← ht] at a3
    exact Except.ok.inj (c3.symm.trans (extractAll_prefix x _ _ _ _ a3))
  have hz : (goodEvents (rd.events.take N)).zip vss' = ((goodEvents rd.events).zip vss).take (goodEvents (rd.events.take N)).length := by
    rw [hv, List.zip_eq_zipWith, List.zip_eq_zipWith, List.take_zipWith, ← ht, List.take_left]
  refine ⟨s, s', r, r', _, a1, a2, c1, c2, a5, ?_, ?_⟩
  · rw [c5, ← List.map_take, ← hz]
    rfl
  · intro e he
    obtain ⟨k, hk, rfl⟩ := List.mem_iff_getElem.1 he
    have c4' : vss'.length = (goodEvents (rd.events.take N)).length := c4
    have hm' : ((goodEvents (rd.events.take N))[k], vss'[k]'(by omega)) ∈ (goodEvents (rd.events.take N)).zip vss' := by
      rw [List.mem_iff_getElem]
      exact ⟨k, by simp [c4', hk], by simp⟩
    have hm0 : ((goodEvents (rd.events.take N))[k], vss'[k]'(by omega)) ∈ (goodEvents rd.events).zip vss := by
      rw [hz] at hm'
      exact List.mem_of_mem_take hm'
    refine ⟨_, d6 _ hm0, e6 _ hm', ?_⟩
    unfold eventRows
    rw [List.length_mapIdx]
    exact d4 _ (List.of_mem_zip hm0).2

/-- what was claimed: `--maxevents` only leaves out the events behind -/
def LimitOnlyCuts : Prop :=
  ∀ (N : Nat) (rd : RawReader Nat (RawWf Nat) (Dict String (Cell Nat)) Unit) (tCor : List ℚ) (x x' : Extractor (ExtractState Unit Unit Nat) Nat (RawWf Nat) (Dict String (Cell Nat)) Unit)
    (vss vss' : List (List (Dict String (Cell Nat)))),
    0 < N → (∀ j (hj : j < rd.events.length), rd.events[j].iev = j) → (∀ e ∈ rd.events, Regular rd.nPixels 16 e.payload.rows) →
    newExtractor rd tCor (.ok []) [] = .ok x → newExtractor (limitedRun N rd) tCor (.ok []) [] = .ok x' →
    extractAll x x.init (goodEvents rd.events) = .ok vss → extractAll x' x'.init (goodEvents (limitedRun N rd).events) = .ok vss' →
    vss' = vss.take (goodEvents (limitedRun N rd).events).length

theorem mapM_prefix {α γ : Type} (f : α → Except Err γ) (a b : List α) (out : List γ) (h : (a ++ b).mapM f = .ok out) : a.mapM f = .ok (out.take a.length) := by
  induction a generalizing out with
  | nil => rfl
  | cons e a ih =>
    rw [List.cons_append, List.mapM_cons] at h
    rw [List.mapM_cons]
    cases he : f e with
    | error err => rw [he] at h; cases h
    | ok v =>
      rw [he] at h
      cases hr : (a ++ b).mapM f with
      | error err => rw [hr] at h; cases h
      | ok rest =>
        rw [hr] at h
        have h' : (Except.ok (v :: rest) : Except Err (List γ)) = .ok out := h
        obtain rfl := Except.ok.inj h'
        rw [ih _ hr]
        rfl

/-- **C166** (part): with fewer than 50 events, `k`-th processed event and pixel `p`: what is subtracted in the limited extraction is smaller by
the eight hundredth part of the first 16 samples of the events which are left out, as far as they belong to the first 50 -/
theorem C166_baseline_partial (N : Nat) (rd : RawReader τ (RawWf τ) (Dict String (Cell τ)) ν) (tCor : List ℚ)
    (chain : List (Reducer V σ (List (List ℚ)) (FrameCol (Cell τ)))) (config : MetaDict ν)
    (hnum : ∀ j (hj : j < rd.events.length), rd.events[j].iev = j) (hreg : ∀ e ∈ rd.events, Regular rd.nPixels 16 e.payload.rows)
    (x x' : Extractor (ExtractState V σ τ) τ (RawWf τ) (Dict String (Cell τ)) ν) (hx : newExtractor rd tCor (.ok chain) config = .ok x)
    (hx' : newExtractor (limitedRun N rd) tCor (.ok chain) config = .ok x') (vss vss' : List (List (Dict String (Cell τ))))
    (h : extractAll x x.init (goodEvents rd.events) = .ok vss) (h' : extractAll x' x'.init (goodEvents (limitedRun N rd).events) = .ok vss')
    (k : Nat) (hk : k < (goodEvents (rd.events.take N)).length) (p : Nat) (hp : p < rd.nPixels) :
    ∃ rows rows' row row' b b', vss[k]? = some rows ∧ vss'[k]? = some rows' ∧ rows[p]? = some row ∧ rows'[p]? = some row' ∧
      Dict.get? row "baseline_subtracted" = some (.num b) ∧ Dict.get? row' "baseline_subtracted" = some (.num b') ∧
      b = b' + (((rd.events.take 50).drop N).map fun e => ((e.payload.rows.getD p []).take 16).sum).sum / 800 := by
  obtain ⟨tcs, fin, outs, a1, a2, a3, a4, a5⟩ := C141_rows rd tCor chain config hnum hreg x hx vss h
  obtain ⟨tcs', fin', outs', b1, b2, b3, b4, b5⟩ := C141_rows (limitedRun N rd) tCor chain config (limited_numbered N rd hnum)
    (fun e he => hreg e (List.mem_of_mem_take he)) x' hx' vss' h'
  obtain ⟨t, ht⟩ := goodEvents_take rd.events N
  have hkN : k < N := by
    have h1 : (goodEvents (rd.events.take N)).length ≤ (rd.events.take N).length := List.length_filter_le _ _
    rw [List.length_take] at h1
    omega
  have hk0 : k < (goodEvents rd.events).length := by rw [← ht, List.length_append]; omega
  have hk' : k < (goodEvents (limitedRun N rd).events).length := hk
  have htc : tcs' = tcs.take (goodEvents (rd.events.take N)).length := by
    rw [← ht] at a1
    exact Except.ok.inj (b1.symm.trans (mapM_prefix _ _ _ _ a1))
  obtain ⟨w, row, e1, e2, e3⟩ : ∃ vs row, vss[k]? = some vs ∧ vs[p]? = some row ∧
      Dict.get? row "baseline_subtracted" = some (.num (rollingBaseline 50 16 (wfEvents rd.events) (tcs.take (k + 1)) p)) := by
    obtain ⟨-, h2⟩ := a5 k _ _ _ (List.getElem?_eq_getElem hk0) (List.getElem?_eq_getElem (by omega)) (List.getElem?_eq_getElem (by omega))
    obtain ⟨row, h3, h4⟩ := h2 p hp
    exact ⟨_, row, List.getElem?_eq_getElem (by omega), h3, h4.baseline⟩
  obtain ⟨w', row', f1, f2, f3⟩ : ∃ vs row, vss'[k]? = some vs ∧ vs[p]? = some row ∧
      Dict.get? row "baseline_subtracted" = some (.num (rollingBaseline 50 16 (wfEvents (rd.events.take N)) (tcs'.take (k + 1)) p)) := by
    obtain ⟨-, h2⟩ := b5 k _ _ _ (List.getElem?_eq_getElem hk') (List.getElem?_eq_getElem (by omega)) (List.getElem?_eq_getElem (by omega))
    obtain ⟨row, h3, h4⟩ := h2 p hp
    exact ⟨_, row, List.getElem?_eq_getElem (by omega), h3, h4.baseline⟩
  refine ⟨w, w', row, row', _, _, e1, f1, e2, f2, e3, f3, ?_⟩
  have hl : (tcs.take (k + 1)).length = k + 1 := by
    have := mapM_len _ _ _ a1
    rw [List.length_take]
    omega
  rw [htc, List.take_take, Nat.min_eq_left (by omega : k + 1 ≤ (goodEvents (rd.events.take N)).length)]
  unfold rollingBaseline
  rw [hl]
  have hsplit : (((wfEvents rd.events).take 50).drop (k + 1)).map (fun e => headSum 16 e.rows p) =
      (((wfEvents (rd.events.take N)).take 50).drop (k + 1)).map (fun e => headSum 16 e.rows p) ++
        ((rd.events.take 50).drop N).map fun e => ((e.payload.rows.getD p []).take 16).sum := by
    unfold wfEvents
    rw [← List.map_take, ← List.map_drop, List.map_map, ← List.map_take, ← List.map_drop, List.map_map]
    conv_lhs => rw [show (rd.events.take 50).drop (k + 1) = (((rd.events.take 50).drop (k + 1)).take (N - (k + 1))) ++ (((rd.events.take 50).drop (k + 1)).drop (N - (k + 1)))
      from (List.take_append_drop _ _).symm]
    rw [List.map_append, List.drop_drop, show k + 1 + (N - (k + 1)) = N by omega]
    congr 1
    congr 1
    rw [List.take_drop, show k + 1 + (N - (k + 1)) = N by omega, List.take_take, List.take_take, Nat.min_comm]
  rw [hsplit, List.sum_append]
  push_cast
  ring

/-- a run of 51 events with pulses in some of them -/
def longEvents : List (Model.Event Nat (RawWf Nat)) := (List.range 51).map fun i => flatEvent i (i = 7) (i % 5 : Nat)

/-- it is extracted -/
theorem longRun_ok : ((newExtractor (V := Unit) (σ := Unit) (flatRun longEvents) [1 / 2] (.ok []) []).toOption.map fun x =>
    (dl1Calls (flatRun longEvents) x fun _ => ()).2.isNone) = some true := by decide +kernel

/-- the hypotheses of `C166_partial` for `--maxevents 50` -/
example : ∃ x : Extractor (ExtractState Unit Unit Nat) Nat (RawWf Nat) (Dict String (Cell Nat)) Unit,
    newExtractor (flatRun longEvents) [1 / 2] (.ok []) [] = .ok x ∧ (dl1Calls (flatRun longEvents) x fun _ => ()).2 = none ∧
    (∀ j (hj : j < (flatRun longEvents).events.length), (flatRun longEvents).events[j].iev = j) ∧ (flatRun longEvents).events.length = 51 ∧
    (flatRun longEvents).nPixels = 1 ∧ (Dict.keys (flatRun longEvents).otherMeta).Nodup ∧ (goodEvents ((flatRun longEvents).events.take 50)).length = 49 := by
  have h := longRun_ok
  cases hx : newExtractor (V := Unit) (σ := Unit) (flatRun longEvents) [1 / 2] (.ok []) [] with
  | error e => rw [hx] at h; simp [Except.toOption] at h
  | ok x =>
    rw [hx] at h
    refine ⟨x, rfl, by simpa [Except.toOption] using h, ?_, by simp [flatRun, longEvents], rfl, by decide, by decide +kernel⟩
    intro j hj
    simp [flatRun, longEvents, flatEvent]

/-- a processed event followed by another -/
def pairRun : RawReader Nat (RawWf Nat) (Dict String (Cell Nat)) Unit := flatRun [flatEvent 0 false 0, flatEvent 1 false 500]

/-- the extracted rows -/
def extractedRows (rd : RawReader Nat (RawWf Nat) (Dict String (Cell Nat)) Unit) : Except Err (List (List (Dict String (Cell Nat)))) :=
  match newExtractor (V := Unit) (σ := Unit) rd [1 / 2] (.ok []) [] with
  | .error e => .error e
  | .ok x => extractAll x x.init (goodEvents rd.events)

theorem pairRun_rows :
    (extractedRows pairRun).toOption.map (fun v => v.take 1) = some [[[("t_cpu", .time 100), ("t_tack", .num 5), ("first_cell_id", .num 7), ("baseline_subtracted", .num 10)]]] ∧
    (extractedRows (limitedRun 1 pairRun)).toOption = some [[[("t_cpu", .time 100), ("t_tack", .num 5), ("first_cell_id", .num 7), ("baseline_subtracted", .num 0)]]] := by
  decide +kernel

/-- **C166** is false: the first event alone is extracted with another baseline than in front of a second one -/
theorem C166_false : ¬ LimitOnlyCuts := by
  intro h
  obtain ⟨r0, r1⟩ := pairRun_rows
  unfold extractedRows at r0 r1
  cases hx : newExtractor (V := Unit) (σ := Unit) pairRun [1 / 2] (.ok []) [] with
  | error e => rw [hx] at r0; simp [Except.toOption] at r0
  | ok x =>
    rw [hx] at r0
    cases hx' : newExtractor (V := Unit) (σ := Unit) (limitedRun 1 pairRun) [1 / 2] (.ok []) [] with
    | error e => rw [hx'] at r1; simp [Except.toOption] at r1
    | ok x' =>
      rw [hx'] at r1
      simp only at r0 r1
      cases hv : extractAll x x.init (goodEvents pairRun.events) with
      | error e => rw [hv] at r0; simp [Except.toOption] at r0
      | ok vss =>
        cases hv' : extractAll x' x'.init (goodEvents (limitedRun 1 pairRun).events) with
        | error e => rw [hv'] at r1; simp [Except.toOption] at r1
        | ok vss' =>
          have := h 1 pairRun [1 / 2] x x' vss vss' (by omega)
            (by intro j hj; match j, hj with | 0, _ => rfl | 1, _ => rfl)
            (by
              intro e he
              have : e = flatEvent 0 false 0 ∨ e = flatEvent 1 false 500 := by simpa [pairRun, flatRun] using he
              rcases this with rfl | rfl
              · exact ⟨rfl, by simp [flatEvent]⟩
              · exact ⟨rfl, by simp [flatEvent]⟩) hx hx' hv hv'
          rw [hv] at r0
          rw [hv'] at r1
          simp only [Except.toOption, Option.map_some, Option.some.injEq] at r0 r1
          have hg : (goodEvents (limitedRun 1 pairRun).events).length = 1 := by decide
          rw [hg, r0, r1] at this
          revert this
          decide

end Verif.Props
