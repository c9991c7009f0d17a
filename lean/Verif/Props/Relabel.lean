import Verif.Lemmas.Reducers
import Verif.Model.CrossCorr
import Mathlib.Algebra.BigOperators.Group.List.Basic
import Mathlib.Tactic.Ring
import Mathlib.Tactic.Linarith

/-!
# Numbering of the pixels and gain (C131, C132)
-/

namespace Verif.Props

open Verif.Py Verif.Model Verif.Spec Verif.Lemmas

/-- the elements of a list in another order: place `k` gets element `idx[k]` -/
def pick {α : Type} (idx : List Nat) (xs : List α) : List α := idx.filterMap fun i => xs[i]?

/-- `idx` has every pixel of the camera exactly once -/
def Renumbers (idx : List Nat) (nPixels : Nat) : Prop := idx.Perm (List.range nPixels)

theorem pick_map {α β : Type} (idx : List Nat) (f : α → β) (xs : List α) : pick idx (xs.map f) = (pick idx xs).map f := by
  unfold pick
  rw [List.map_filterMap]
  congr 1
  funext i
  rw [List.getElem?_map]

theorem pick_range {α : Type} (xs : List α) : pick (List.range xs.length) xs = xs := by
  unfold pick
  induction xs using List.reverseRecOn with
  | nil => rfl
  | append_singleton xs x ih =>
    rw [List.length_append, List.length_singleton, List.range_succ, List.filterMap_append]
    congr 1
    · refine Eq.trans ?_ ih
      apply List.filterMap_congr
      intro i hi
      rw [List.getElem?_append_left (by simpa using hi)]
    · simp

theorem pick_perm {α : Type} (idx : List Nat) (xs : List α) (h : Renumbers idx xs.length) : (pick idx xs).Perm xs := by
  have := List.Perm.filterMap (fun i => xs[i]?) h
  rw [show (List.range xs.length).filterMap (fun i => xs[i]?) = xs from pick_range xs] at this
  exact this

theorem pick_zipWith {α β γ : Type} (f : α → β → γ) (idx : List Nat) (xs : List α) (ys : List β) (h : xs.length = ys.length) :
    pick idx (List.zipWith f xs ys) = List.zipWith f (pick idx xs) (pick idx ys) := by
  unfold pick
  induction idx with
  | nil => rfl
  | cons i idx ih =>
    simp only [List.filterMap_cons, ih]
    rw [List.getElem?_zipWith]
    by_cases hi : i < xs.length
    · rw [List.getElem?_eq_getElem hi, List.getElem?_eq_getElem (by omega : i < ys.length)]
      simp only [List.zipWith_cons_cons]
    · rw [List.getElem?_eq_none (by omega : xs.length ≤ i), List.getElem?_eq_none (by omega : ys.length ≤ i)]

theorem pick_event (idx : List Nat) (n : Nat) (ws : List (List ℚ)) (h : Renumbers idx ws.length) (hw : Event n ws) : Event n (pick idx ws) := by
  have hp := pick_perm idx ws h
  refine ⟨fun he => hw.1 ?_, fun r hr => hw.2 r (hp.subset hr)⟩
  rw [he] at hp
  exact hp.symm.eq_nil

theorem colMeans_perm (n : Nat) (a b : List (List ℚ)) (h : a.Perm b) : colMeans n a = colMeans n b := by
  unfold colMeans mean column
  apply List.map_congr_left
  intro j _
  rw [(h.map _).sum_eq, (h.map fun r : List ℚ => r.getD j 0).length_eq]

theorem nSamples_pick (idx : List Nat) (n : Nat) (ws : List (List ℚ)) (h : Renumbers idx ws.length) (hw : Event n ws) : nSamples (pick idx ws) = nSamples ws := by
  rw [nSamples_event n _ (pick_event idx n ws h hw), nSamples_event n ws hw]

theorem extractionTime_pick (kwargs : Config Setting) (name : String) (idx : List Nat) (n : Nat) (ws : List (List ℚ)) (h : Renumbers idx ws.length) (hw : Event n ws) :
    extractionTime kwargs name (pick idx ws) = extractionTime kwargs name ws := by
  unfold extractionTime defaultTime
  rw [nSamples_pick idx n ws h hw, colMeans_perm _ _ _ (pick_perm idx ws h)]

theorem perPixel_pick (f : List ℚ → Except Err ℚ) (idx : List Nat) (ws : List (List ℚ)) (xs : List ℚ) (h : perPixel f ws = .ok xs) :
    perPixel f (pick idx ws) = .ok (pick idx xs) := by
  rw [perPixel_spec] at h ⊢
  rw [← pick_map, h, pick_map]

/-- a column of one event, from a fresh reducer -/
def columnOf (c : ReducerClass Setting RedState (List (List ℚ)) ColVal) (kwargs : Config Setting) (ws : List (List ℚ)) (name : String) : Except Err ColVal :=
  match c.prepare kwargs ⟨[], 0⟩ ws with
  | .error e => .error e
  | .ok s => c.value kwargs s name

/-- a column for the renumbered pixels -/
def pickCol (idx : List Nat) : ColVal → ColVal
  | .scalar x => .scalar x
  | .perPixel xs => .perPixel (pick idx xs)

/-- **C131**, reducers of the chain: when the pixels are numbered differently, every column has the same values with the pixels numbered differently; values of the whole event are the
same -/
theorem C131_columns (c : ReducerClass Setting RedState (List (List ℚ)) ColVal) (hc : c ∈ [averageWf, saturation, common]) (kwargs : Config Setting) (idx : List Nat) (n : Nat)
    (ws : List (List ℚ)) (h : Renumbers idx ws.length) (hw : Event n ws) (name : String) (v : ColVal) (hv : columnOf c kwargs ws name = .ok v) :
    columnOf c kwargs (pick idx ws) name = .ok (pickCol idx v) := by
  simp only [List.mem_cons, List.not_mem_nil, or_false] at hc
  rcases hc with rfl | rfl | rfl
  · unfold columnOf averageWf at hv ⊢
    simp only [extractionTime_pick kwargs "t_extract" idx n ws h hw] at hv ⊢
    cases ht : extractionTime kwargs "t_extract" ws with
    | error e => rw [ht] at hv; cases hv
    | ok t =>
      rw [ht] at hv
      simp only at hv ⊢
      split at hv
      · obtain rfl := Except.ok.inj hv
        simp [*, pickCol]
      · rename_i hne
        rw [if_neg hne]
        split at hv
        · rename_i hc2
          rw [if_pos hc2]
          obtain rfl := Except.ok.inj hv
          simp only [pickCol, pick_map]
        · cases hv
  · unfold columnOf saturation at hv ⊢
    simp only [extractionTime_pick kwargs "t_event" idx n ws h hw] at hv ⊢
    split at hv
    · rename_i hc2
      rw [if_pos hc2]
      split at hv
      · cases hv
      · obtain rfl := Except.ok.inj hv
        simp only [pickCol, pick_map, *]
    · cases hv
  · unfold columnOf common at hv ⊢
    simp only at hv ⊢
    by_cases c1 : name = "baseline_start_mean"
    · simp only [c1, if_true] at hv ⊢
      obtain rfl := Except.ok.inj hv
      simp only [pickCol, pick_map]
    by_cases c2 : name = "baseline_start_rms"
    · rw [if_neg c1, if_pos c2] at hv ⊢
      obtain rfl := Except.ok.inj hv
      simp only [pickCol, pick_map]
    by_cases c3 : name = "baseline_end_mean"
    · rw [if_neg c1, if_neg c2, if_pos c3] at hv ⊢
      obtain rfl := Except.ok.inj hv
      simp only [pickCol, pick_map]
    by_cases c4 : name = "baseline_end_rms"
    · rw [if_neg c1, if_neg c2, if_neg c3, if_pos c4] at hv ⊢
      obtain rfl := Except.ok.inj hv
      simp only [pickCol, pick_map]
    by_cases c5 : name = "waveform_mean"
    · rw [if_neg c1, if_neg c2, if_neg c3, if_neg c4, if_pos c5] at hv ⊢
      obtain rfl := Except.ok.inj hv
      simp only [pickCol, pick_map]
    by_cases c6 : name = "waveform_rms"
    · rw [if_neg c1, if_neg c2, if_neg c3, if_neg c4, if_neg c5, if_pos c6] at hv ⊢
      obtain rfl := Except.ok.inj hv
      simp only [pickCol, pick_map]
    by_cases c7 : name = "waveform_max"
    · rw [if_neg c1, if_neg c2, if_neg c3, if_neg c4, if_neg c5, if_neg c6, if_pos c7] at hv ⊢
      cases hp : perPixel rowMax ws with
      | error e => rw [hp] at hv; cases hv
      | ok xs =>
        rw [hp] at hv
        obtain rfl := Except.ok.inj hv
        rw [perPixel_pick rowMax idx ws xs hp]
        rfl
    · rw [if_neg c1, if_neg c2, if_neg c3, if_neg c4, if_neg c5, if_neg c6, if_neg c7] at hv
      cases hv

theorem correlateRows_iff (weights : List ℚ) (origin : Int) (ws cs : List (List ℚ)) :
    correlateRows weights origin ws = .ok cs ↔ ws.map (fun r => correlate1d r weights origin) = cs.map .ok := by
  induction ws generalizing cs with
  | nil => cases cs <;> simp [correlateRows]
  | cons r rs ih =>
    unfold correlateRows
    cases hr : correlate1d r weights origin with
    | error e => cases cs <;> simp [hr]
    | ok c =>
      cases hrs : correlateRows weights origin rs with
      | error e =>
        constructor
        · intro hx; cases hx
        · intro hx
          cases cs with
          | nil => simp at hx
          | cons d ds =>
            simp only [List.map_cons, List.cons.injEq] at hx
            rw [(ih ds).2 hx.2] at hrs
            cases hrs
      | ok cs' =>
        have := (ih cs').1 hrs
        constructor
        · intro hx
          obtain rfl := Except.ok.inj hx
          rw [List.map_cons, List.map_cons, hr, this]
        · intro hx
          cases cs with
          | nil => simp at hx
          | cons d ds =>
            simp only [List.map_cons, List.cons.injEq] at hx
            rw [hr] at hx
            obtain rfl := Except.ok.inj hx.1
            have := (ih ds).2 hx.2
            rw [hrs] at this
            obtain rfl := Except.ok.inj this
            rfl

theorem argmaxRows_iff (cs : List (List ℚ)) (ps : List Nat) : argmaxRows cs = .ok ps ↔ cs.map argmax = ps.map .ok := by
  induction cs generalizing ps with
  | nil => cases ps <;> simp [argmaxRows]
  | cons r rs ih =>
    unfold argmaxRows
    cases hr : argmax r with
    | error e => cases ps <;> simp [hr]
    | ok c =>
      cases hrs : argmaxRows rs with
      | error e =>
        constructor
        · intro hx; cases hx
        · intro hx
          cases ps with
          | nil => simp at hx
          | cons d ds =>
            simp only [List.map_cons, List.cons.injEq] at hx
            rw [(ih ds).2 hx.2] at hrs
            cases hrs
      | ok cs' =>
        have := (ih cs').1 hrs
        constructor
        · intro hx
          obtain rfl := Except.ok.inj hx
          rw [List.map_cons, List.map_cons, hr, this]
        · intro hx
          cases ps with
          | nil => simp at hx
          | cons d ds =>
            simp only [List.map_cons, List.cons.injEq] at hx
            rw [hr] at hx
            obtain rfl := Except.ok.inj hx.1
            have := (ih ds).2 hx.2
            rw [hrs] at this
            obtain rfl := Except.ok.inj this
            rfl

theorem correlate1d_rowLength (r weights : List ℚ) (origin : Int) (c : List ℚ) (h : correlate1d r weights origin = .ok c) : c.length = r.length := by
  unfold correlate1d at h
  split at h
  · cases h
  · split at h
    · cases h
    · obtain rfl := Except.ok.inj h
      simp

theorem correlateRows_rows (weights : List ℚ) (origin : Int) (n : Nat) (ws cs : List (List ℚ)) (hw : Event n ws) (h : correlateRows weights origin ws = .ok cs) :
    cs.length = ws.length ∧ Event n cs := by
  rw [correlateRows_iff] at h
  have hl : cs.length = ws.length := by simpa using (congrArg List.length h).symm
  refine ⟨hl, ?_, ?_⟩
  · intro he
    rw [he] at hl
    exact hw.1 (List.length_eq_zero_iff.1 hl.symm)
  · intro c hc
    obtain ⟨i, hi⟩ := List.mem_iff_getElem?.1 hc
    have hget := congrArg (fun l => l[i]?) h
    simp only [List.getElem?_map, hi, Option.map_some] at hget
    cases hr : ws[i]? with
    | none => rw [hr] at hget; cases hget
    | some r =>
      rw [hr] at hget
      have := Option.some.inj hget
      rw [correlate1d_rowLength _ _ _ _ this, hw.2 r (List.mem_of_getElem? hr)]

/-- attributes for the renumbered pixels -/
def pickState (idx : List Nat) (s : CcState) : CcState := ⟨pick idx s.cc, pick idx s.peaks, pick idx s.charge⟩

/-- **C131**, cross correlation: charges, heights and extraction samples are the same with the pixels numbered differently -/
theorem C131_cross_correlation (r : CcReducer) (idx : List Nat) (n : Nat) (ws : List (List ℚ)) (h : Renumbers idx ws.length) (hw : Event n ws) (s : CcState) :
    (ccPrepare r ws = .ok s → ccPrepare r (pick idx ws) = .ok (pickState idx s)) ∧
    (ccLocalPrepare r ws = .ok s → ccLocalPrepare r (pick idx ws) = .ok (pickState idx s)) ∧
    chargeCc (pickState idx s) = pick idx (chargeCc s) ∧
    ∀ hs, heightCc r s = .ok hs → heightCc r (pickState idx s) = .ok (pick idx hs) := by
  have hcor : ∀ cc, correlateRows r.reference r.origin ws = .ok cc → correlateRows r.reference r.origin (pick idx ws) = .ok (pick idx cc) := by
    intro cc hcc
    rw [correlateRows_iff] at hcc ⊢
    rw [← pick_map, hcc, pick_map]
  refine ⟨?_, ?_, rfl, ?_⟩
  · intro hs
    unfold ccPrepare at hs ⊢
    cases hcc : correlateRows r.reference r.origin ws with
    | error e => rw [hcc] at hs; cases hs
    | ok cc =>
      rw [hcc] at hs
      rw [hcor cc hcc]
      simp only at hs ⊢
      obtain ⟨hl, hev⟩ := correlateRows_rows _ _ n ws cc hw hcc
      have hr : Renumbers idx cc.length := by rw [hl]; exact h
      rw [nSamples_pick idx n cc hr hev, colMeans_perm _ _ _ (pick_perm idx cc hr)]
      split at hs
      · cases hs
      · obtain rfl := Except.ok.inj hs
        simp only [pickState, takePeaks]
        rw [pick_zipWith _ _ _ _ (by simp), pick_map]
  · intro hs
    unfold ccLocalPrepare at hs ⊢
    cases hcc : correlateRows r.reference r.origin ws with
    | error e => rw [hcc] at hs; cases hs
    | ok cc =>
      rw [hcc] at hs
      rw [hcor cc hcc]
      simp only at hs ⊢
      cases hp : argmaxRows cc with
      | error e => rw [hp] at hs; cases hs
      | ok ps =>
        rw [hp] at hs
        have hp' := (argmaxRows_iff cc ps).1 hp
        have : argmaxRows (pick idx cc) = .ok (pick idx ps) := by
          rw [argmaxRows_iff, ← pick_map, hp', pick_map]
        rw [this]
        obtain rfl := Except.ok.inj hs
        have hlen : cc.length = ps.length := by simpa using congrArg List.length hp'
        simp only [pickState, takePeaks]
        rw [pick_zipWith _ _ _ _ hlen]
  · intro hs hhs
    unfold heightCc at hhs ⊢
    split at hhs
    · cases hhs
    · obtain rfl := Except.ok.inj hhs
      simp only [pickState, pick_map]

/-- **C131**, sliding windows -/
theorem C131_sliding (size : Nat) (idx : List Nat) (n : Nat) (ws : List (List ℚ)) (h : Renumbers idx ws.length) (hw : Event n ws) (qs : List ℚ) :
    slidingPrepare size (pick idx ws) = slidingPrepare size ws ∧
    (chargeSliding size ws = .ok qs → chargeSliding size (pick idx ws) = .ok (pick idx qs)) ∧
    (chargeSlidingLocal size ws = .ok qs → chargeSlidingLocal size (pick idx ws) = .ok (pick idx qs)) := by
  have hprep : slidingPrepare size (pick idx ws) = slidingPrepare size ws := by
    unfold slidingPrepare
    rw [nSamples_pick idx n ws h hw, colMeans_perm _ _ _ (pick_perm idx ws h)]
  refine ⟨hprep, ?_, ?_⟩
  · intro hq
    unfold chargeSliding at hq ⊢
    rw [hprep]
    split at hq
    · cases hq
    · obtain rfl := Except.ok.inj hq
      simp only [pick_map, *]
  · intro hq
    unfold chargeSlidingLocal at hq ⊢
    cases hcc : correlateRows (slidingWindow size).1 (slidingWindow size).2 ws with
    | error e => rw [hcc] at hq; cases hq
    | ok cc =>
      rw [hcc] at hq
      have : correlateRows (slidingWindow size).1 (slidingWindow size).2 (pick idx ws) = .ok (pick idx cc) := by
        rw [correlateRows_iff] at hcc ⊢
        rw [← pick_map, hcc, pick_map]
      rw [this]
      exact perPixel_pick rowMax idx cc qs hq

theorem filterMap_total_getElem {α β : Type} (l : List α) (f : α → Option β) (h : ∀ a ∈ l, (f a).isSome) (k : Nat) :
    (l.filterMap f)[k]? = l[k]?.bind f := by
  induction l generalizing k with
  | nil => simp
  | cons a l ih =>
    obtain ⟨b, hb⟩ := Option.isSome_iff_exists.1 (h a (by simp))
    rw [List.filterMap_cons, hb]
    cases k with
    | zero => simp [hb]
    | succ k => simpa using ih (fun x hx => h x (by simp [hx])) k

/-- the numbering back: every renumbering can be undone by another -/
theorem renumber_back (idx : List Nat) (N : Nat) (h : Renumbers idx N) :
    ∃ back, Renumbers back N ∧ ∀ {α : Type} (xs : List α), xs.length = N → pick back (pick idx xs) = xs := by
  have hlen : idx.length = N := by rw [h.length_eq, List.length_range]
  have hnd : idx.Nodup := h.nodup_iff.2 List.nodup_range
  have hmem : ∀ i, i ∈ idx ↔ i < N := fun i => by rw [h.mem_iff, List.mem_range]
  have hpick : ∀ {α : Type} (xs : List α), xs.length = N → ∀ k : Nat, (pick idx xs)[k]? = idx[k]?.bind fun i : Nat => xs[i]? := by
    intro α xs hx
    unfold pick
    have hall : ∀ i ∈ idx, i < xs.length := fun i hi => by rw [hx]; exact (hmem i).1 hi
    exact filterMap_total_getElem idx _ (fun i hi => by rw [List.getElem?_eq_getElem (hall i hi)]; rfl)
  refine ⟨(List.range N).map fun i => idx.idxOf i, ?_, ?_⟩
  · unfold Renumbers
    have hnd' : ((List.range N).map fun i => idx.idxOf i).Nodup := by
      refine List.Nodup.map_on ?_ List.nodup_range
      intro a ha b hb hab
      rw [List.mem_range] at ha hb
      exact (List.idxOf_inj ((hmem a).2 ha)).1 hab
    refine (List.subperm_of_subset hnd' ?_).perm_of_length_le (by simp)
    intro k hk
    obtain ⟨i, hi, rfl⟩ := List.mem_map.1 hk
    rw [List.mem_range] at hi ⊢
    rw [← hlen]
    exact List.idxOf_lt_length_iff.2 ((hmem i).2 hi)
  · intro α xs hx
    conv_rhs => rw [← pick_range xs]
    rw [pick, pick, List.filterMap_map, hx]
    apply List.filterMap_congr
    intro i hi
    rw [List.mem_range] at hi
    simp only [Function.comp]
    change (pick idx xs)[_]? = _
    rw [hpick xs hx, List.getElem?_idxOf ((hmem i).2 hi)]
    rfl

/-- **C131**, refusals: the event with the pixels numbered differently is refused exactly when the event itself is -/
theorem C131_refused (idx : List Nat) (n : Nat) (ws : List (List ℚ)) (h : Renumbers idx ws.length) (hw : Event n ws) :
    (∀ c ∈ [averageWf, saturation, common], ∀ kwargs name, (∃ v, columnOf c kwargs (pick idx ws) name = .ok v) ↔ ∃ v, columnOf c kwargs ws name = .ok v) ∧
    (∀ r : CcReducer, ((∃ s, ccPrepare r (pick idx ws) = .ok s) ↔ ∃ s, ccPrepare r ws = .ok s) ∧
      ((∃ s, ccLocalPrepare r (pick idx ws) = .ok s) ↔ ∃ s, ccLocalPrepare r ws = .ok s)) ∧
    ∀ size, ((∃ q, chargeSliding size (pick idx ws) = .ok q) ↔ ∃ q, chargeSliding size ws = .ok q) ∧
      ((∃ q, chargeSlidingLocal size (pick idx ws) = .ok q) ↔ ∃ q, chargeSlidingLocal size ws = .ok q) := by
  obtain ⟨back, hb, hback⟩ := renumber_back idx ws.length h
  have hl : (pick idx ws).length = ws.length := (pick_perm idx ws h).length_eq
  have hb' : Renumbers back (pick idx ws).length := by rw [hl]; exact hb
  have hw' : Event n (pick idx ws) := pick_event idx n ws h hw
  have e := hback ws rfl
  refine ⟨fun c hc kwargs name => ⟨fun ⟨v, hv⟩ => ⟨pickCol back v, ?_⟩, fun ⟨v, hv⟩ => ⟨_, C131_columns c hc kwargs idx n ws h hw name v hv⟩⟩,
    fun r => ⟨⟨fun ⟨s, hs⟩ => ⟨pickState back s, ?_⟩, fun ⟨s, hs⟩ => ⟨_, (C131_cross_correlation r idx n ws h hw s).1 hs⟩⟩,
      ⟨fun ⟨s, hs⟩ => ⟨pickState back s, ?_⟩, fun ⟨s, hs⟩ => ⟨_, (C131_cross_correlation r idx n ws h hw s).2.1 hs⟩⟩⟩,
    fun size => ⟨⟨fun ⟨q, hq⟩ => ⟨pick back q, ?_⟩, fun ⟨q, hq⟩ => ⟨_, (C131_sliding size idx n ws h hw q).2.1 hq⟩⟩,
      ⟨fun ⟨q, hq⟩ => ⟨pick back q, ?_⟩, fun ⟨q, hq⟩ => ⟨_, (C131_sliding size idx n ws h hw q).2.2 hq⟩⟩⟩⟩
  · have := C131_columns c hc kwargs back n (pick idx ws) hb' hw' name v hv
    rwa [e] at this
  · have := (C131_cross_correlation r back n (pick idx ws) hb' hw' s).1 hs
    rwa [e] at this
  · have := (C131_cross_correlation r back n (pick idx ws) hb' hw' s).2.1 hs
    rwa [e] at this
  · have := (C131_sliding size back n (pick idx ws) hb' hw' q).2.1 hq
    rwa [e] at this
  · have := (C131_sliding size back n (pick idx ws) hb' hw' q).2.2 hq
    rwa [e] at this

/-- three pixels, numbered the other way round -/
example : Renumbers [2, 0, 1] 3 ∧ chargeSliding 2 [[1, 5, 2], [0, 3, 0], [1, 1, 4]] = .ok [7, 3, 5] ∧
    pick [2, 0, 1] [[1, 5, 2], [0, 3, 0], [1, 1, 4]] = [[1, 1, 4], [1, 5, 2], [0, 3, 0]] ∧
    chargeSliding 2 [[1, 1, 4], [1, 5, 2], [0, 3, 0]] = .ok [5, 7, 3] ∧
    columnOf averageWf [("t_extract", .num 1), ("window_shift", .num 1), ("window_size", .num 2)] [[1, 5, 2], [0, 3, 0], [1, 1, 4]] "charge_averagewf" =
      .ok (.perPixel [6, 3, 2]) := by
  refine ⟨by unfold Renumbers; decide, ?_⟩
  decide +kernel

/-- an event that is refused: a column that the reducer does not have -/
example : (¬ ∃ v, columnOf averageWf [] [[1, 5, 2], [0, 3, 0]] "charge_cc" = .ok v) ∧
    ¬ ∃ v, columnOf averageWf [] (pick [1, 0] [[1, 5, 2], [0, 3, 0]]) "charge_cc" = .ok v := by
  have h0 : ¬ ∃ v, columnOf averageWf [] [[1, 5, 2], [0, 3, 0]] "charge_cc" = .ok v := by
    rintro ⟨v, hv⟩
    have : columnOf averageWf [] [[1, 5, 2], [0, 3, 0]] "charge_cc" = .error .attributeError := by decide +kernel
    rw [this] at hv
    cases hv
  refine ⟨h0, fun h => h0 ?_⟩
  exact ((C131_refused [1, 0] 3 [[1, 5, 2], [0, 3, 0]] (by unfold Renumbers; decide) ⟨by simp, by simp⟩).1 averageWf (by simp) [] "charge_cc").1 h

end Verif.Props
