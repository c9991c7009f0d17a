import Verif.Model.Resolutions
import Verif.Spec.Resolutions
import Verif.Lemmas.Resolutions
import Mathlib.Tactic.Ring
import Mathlib.Tactic.FieldSimp
import Mathlib.Tactic.NormNum
import Mathlib.Tactic.Positivity

/-! # C40, C41, C70: charge resolution and charge statistics -/

namespace Verif.Props

open Verif.Py Verif.Model Verif.Spec Verif.Lemmas

/-- keys with a true charge different from 0 -/
def nonZeroKey (k : ResKey) : Bool := decide ((ofLex k).2 ≠ 0)

/-! ## running sessions -/

theorem finishResolution_ok (mc : Bool) (s : ResState) (h : Started s) :
    finishResolution mc s = .ok (⟨[], some ((groupByPixel (contents s)).filter fun r => nonZeroKey r.resKey), 0⟩,
      ((groupByPixel (contents s)).filter fun r => nonZeroKey r.resKey).map (resolutionColumns mc),
      (groupByKey ((groupByPixel (contents s)).filter fun r => nonZeroKey r.resKey)).map (resolutionColumns mc)) := by
  unfold finishResolution
  rw [amalgamate_ok s h]
  have : (fun r : ResRow => decide (r.key ≠ 0)) = fun r => nonZeroKey r.resKey := rfl
  simp only [Option.getD_some, this]

theorem runResolution_agree (mem : List ResRow → Nat) (mc : Bool) (ops : List ResOp) (s0 s : ResState)
    (h : runResolution mem mc s0 ops = .ok s) :
    Agree nonZeroKey (contents s) (contents s0 ++ (entries ops).map resolutionRow) := by
  induction ops generalizing s0 with
  | nil =>
    injection h with h
    subst h
    simpa [entries] using Agree.refl _ _
  | cons op ops ih =>
    cases op with
    | add es =>
      obtain ⟨s1, h1, -, h3⟩ := addFrame_ok mem s0 (es.map resolutionRow)
      rw [runResolution, h1] at h
      refine (ih s1 h).trans ?_
      have := (h3 nonZeroKey).append ((entries ops).map resolutionRow)
      rwa [List.append_assoc, ← List.map_append] at this
    | finish =>
      rw [runResolution] at h
      by_cases hst : Started s0
      · rw [finishResolution_ok mc s0 hst] at h
        simp only at h
        refine (ih _ h).trans ?_
        refine Agree.append ?_ _
        have : contents ⟨[], some ((groupByPixel (contents s0)).filter fun r => nonZeroKey r.resKey), 0⟩ =
            (groupByPixel (contents s0)).filter fun r => nonZeroKey r.resKey := by simp [contents]
        rw [this]
        exact (Agree.filter _ _).trans (Agree.group _ _)
      · unfold finishResolution at h
        rw [amalgamate_fails s0 hst] at h
        cases h

theorem runResolution_started (mem : List ResRow → Nat) (mc : Bool) (ops : List ResOp) (s0 : ResState) (h : Started s0) :
    ∃ s, runResolution mem mc s0 ops = .ok s ∧ Started s := by
  induction ops generalizing s0 with
  | nil => exact ⟨s0, rfl, h⟩
  | cons op ops ih =>
    cases op with
    | add es =>
      obtain ⟨s1, h1, h2, -⟩ := addFrame_ok mem s0 (es.map resolutionRow)
      obtain ⟨s, h3, h4⟩ := ih s1 h2
      exact ⟨s, by rw [runResolution, h1]; exact h3, h4⟩
    | finish =>
      obtain ⟨s, h3, h4⟩ := ih ⟨[], some ((groupByPixel (contents s0)).filter fun r => nonZeroKey r.resKey), 0⟩ (Or.inl (by simp))
      exact ⟨s, by rw [runResolution, finishResolution_ok mc s0 h]; exact h3, h4⟩

theorem finishStatistics_ok (s : ResState) (h : Started s) :
    finishStatistics s = .ok (⟨[], some (groupByPixel (contents s)), 0⟩, (groupByPixel (contents s)).map statisticsColumns,
      (groupByKey (groupByPixel (contents s))).map statisticsColumns) := by
  unfold finishStatistics
  rw [amalgamate_ok s h]
  rfl

theorem runStatistics_agree (mem : List ResRow → Nat) (ops : List ResOp) (s0 s : ResState) (h : runStatistics mem s0 ops = .ok s) :
    Agree (fun _ => true) (contents s) (contents s0 ++ (entries ops).map statisticsRow) := by
  induction ops generalizing s0 with
  | nil =>
    injection h with h
    subst h
    simpa [entries] using Agree.refl _ _
  | cons op ops ih =>
    cases op with
    | add es =>
      obtain ⟨s1, h1, -, h3⟩ := addFrame_ok mem s0 (es.map statisticsRow)
      rw [runStatistics, h1] at h
      refine (ih s1 h).trans ?_
      have := (h3 (fun _ => true)).append ((entries ops).map statisticsRow)
      rwa [List.append_assoc, ← List.map_append] at this
    | finish =>
      rw [runStatistics] at h
      by_cases hst : Started s0
      · rw [finishStatistics_ok s0 hst] at h
        simp only at h
        refine (ih _ h).trans ?_
        refine Agree.append ?_ _
        have : contents ⟨[], some (groupByPixel (contents s0)), 0⟩ = groupByPixel (contents s0) := by simp [contents]
        rw [this]
        exact Agree.group _ _
      · unfold finishStatistics at h
        rw [amalgamate_fails s0 hst] at h
        cases h

theorem runStatistics_started (mem : List ResRow → Nat) (ops : List ResOp) (s0 : ResState) (h : Started s0) :
    ∃ s, runStatistics mem s0 ops = .ok s ∧ Started s := by
  induction ops generalizing s0 with
  | nil => exact ⟨s0, rfl, h⟩
  | cons op ops ih =>
    cases op with
    | add es =>
      obtain ⟨s1, h1, h2, -⟩ := addFrame_ok mem s0 (es.map statisticsRow)
      obtain ⟨s, h3, h4⟩ := ih s1 h2
      exact ⟨s, by rw [runStatistics, h1]; exact h3, h4⟩
    | finish =>
      obtain ⟨s, h3, h4⟩ := ih ⟨[], some (groupByPixel (contents s0)), 0⟩ (Or.inl (by simp))
      exact ⟨s, by rw [runStatistics, finishStatistics_ok s0 h]; exact h3, h4⟩

/-! ## the sums in terms of the entries -/

theorem sumAt_entries {M : Type} [AddCommMonoid M] (row : ChargeEntry → ResRow) (hrow : ∀ e, (row e).resKey = toLex (e.pixel, e.key))
    (P : ResKey → Bool) (f : ResRow → M) (E : List ChargeEntry) :
    sumAt P f (E.map row) = ((E.filter fun e => P (toLex (e.pixel, e.key))).map fun e => f (row e)).sum := by
  unfold sumAt
  rw [List.filter_map, List.map_map]
  congr 3
  funext e
  simp [hrow]

theorem sum_ones (G : List ChargeEntry) : (G.map fun _ => 1).sum = G.length := by
  induction G with
  | nil => rfl
  | cons a G ih => rw [List.map_cons, List.sum_cons, ih]; simp; omega

theorem key_eq_iff (e : ChargeEntry) (k : ResKey) : (toLex (e.pixel, e.key) = k) ↔ e.pixel = (ofLex k).1 ∧ e.key = (ofLex k).2 := by
  constructor
  · rintro rfl; exact ⟨rfl, rfl⟩
  · rintro ⟨h1, h2⟩
    rw [h1, h2]; rfl

theorem groupRow_resolution (E : List ChargeEntry) (k : ResKey) :
    groupRow (E.map resolutionRow) k = ⟨(ofLex k).1, (ofLex k).2,
      some (((groupOf E (ofLex k).1 (ofLex k).2).map fun e => (e.measured.getD e.key - e.key) ^ 2).sum), some 0,
      (groupOf E (ofLex k).1 (ofLex k).2).length⟩ := by
  unfold groupRow groupOf
  rw [sumAt_entries _ (fun _ => rfl), sumAt_entries _ (fun _ => rfl), sumAt_entries _ (fun _ => rfl)]
  have hf : (fun e : ChargeEntry => decide (toLex (e.pixel, e.key) = k)) = fun e => decide (e.pixel = (ofLex k).1 ∧ e.key = (ofLex k).2) := by
    funext e; exact decide_eq_decide.2 (key_eq_iff e k)
  rw [hf]
  congr 1
  · congr 2
    refine List.map_congr_left fun e _ => ?_
    unfold resolutionRow
    cases e.measured <;> simp
  · congr 1
    simp [resolutionRow]
  · exact sum_ones _

theorem cameraRow_resolution (E : List ChargeEntry) (k : ℚ) :
    cameraRow (E.map resolutionRow) k = ⟨0, k, some (((cameraGroupOf E k).map fun e => (e.measured.getD e.key - e.key) ^ 2).sum), some 0,
      (cameraGroupOf E k).length⟩ := by
  unfold cameraRow cameraGroupOf
  rw [sumAt_entries _ (fun _ => rfl), sumAt_entries _ (fun _ => rfl), sumAt_entries _ (fun _ => rfl)]
  congr 1
  · congr 2
    refine List.map_congr_left fun e _ => ?_
    unfold resolutionRow
    cases e.measured <;> simp
  · congr 1
    simp [resolutionRow]
  · exact sum_ones _

theorem groupRow_statistics (E : List ChargeEntry) (k : ResKey) :
    groupRow (E.map statisticsRow) k = ⟨(ofLex k).1, (ofLex k).2,
      some (((groupOf E (ofLex k).1 (ofLex k).2).map fun e => e.measured.getD 0).sum),
      some (((groupOf E (ofLex k).1 (ofLex k).2).map fun e => e.measured.getD 0 ^ 2).sum),
      (groupOf E (ofLex k).1 (ofLex k).2).length⟩ := by
  unfold groupRow groupOf
  rw [sumAt_entries _ (fun _ => rfl), sumAt_entries _ (fun _ => rfl), sumAt_entries _ (fun _ => rfl)]
  have hf : (fun e : ChargeEntry => decide (toLex (e.pixel, e.key) = k)) = fun e => decide (e.pixel = (ofLex k).1 ∧ e.key = (ofLex k).2) := by
    funext e; exact decide_eq_decide.2 (key_eq_iff e k)
  rw [hf]
  congr 1
  · congr 2
    refine List.map_congr_left fun e _ => ?_
    unfold statisticsRow
    cases e.measured <;> simp
  · exact sum_ones _

theorem cameraRow_statistics (E : List ChargeEntry) (k : ℚ) :
    cameraRow (E.map statisticsRow) k = ⟨0, k, some (((cameraGroupOf E k).map fun e => e.measured.getD 0).sum),
      some (((cameraGroupOf E k).map fun e => e.measured.getD 0 ^ 2).sum), (cameraGroupOf E k).length⟩ := by
  unfold cameraRow cameraGroupOf
  rw [sumAt_entries _ (fun _ => rfl), sumAt_entries _ (fun _ => rfl), sumAt_entries _ (fun _ => rfl)]
  congr 1
  · congr 2
    refine List.map_congr_left fun e _ => ?_
    unfold statisticsRow
    cases e.measured <;> simp
  · exact sum_ones _

/-- the camera rows only need agreement on the kept keys -/
theorem cameraTable_eq (keep : ResKey → Bool) (hkeep : ∀ a b : ResKey, (ofLex a).2 = (ofLex b).2 → keep a = keep b) (A B : List ResRow)
    (h : Agree keep A B) (hA : ∀ r ∈ A, keep r.resKey = true) :
    groupByKey A = ((unique ((B.filter fun r => keep r.resKey).map (·.key)))).map (cameraRow B) := by
  rw [groupByKey_eq]
  have e : unique (A.map (·.key)) = unique ((B.filter fun r => keep r.resKey).map (·.key)) := by
    refine List.Pairwise.eq_of_mem_iff (r := (· < ·)) (pairwise_unique _) (pairwise_unique _) fun k => ?_
    rw [mem_unique, mem_unique]
    simp only [List.mem_map, List.mem_filter]
    constructor
    · rintro ⟨r, hr, rfl⟩
      obtain ⟨r', hr', he⟩ := List.mem_map.1 ((h.keys _ (hA r hr)).1 (List.mem_map.2 ⟨r, hr, rfl⟩))
      exact ⟨r', ⟨hr', by rw [he]; exact hA r hr⟩, congrArg (fun x : ResKey => (ofLex x).2) he⟩
    · rintro ⟨r, ⟨hr, hk⟩, rfl⟩
      obtain ⟨r', hr', he⟩ := List.mem_map.1 ((h.keys _ hk).2 (List.mem_map.2 ⟨r, hr, rfl⟩))
      exact ⟨r', hr', congrArg (fun x : ResKey => (ofLex x).2) he⟩
  rw [e]
  refine List.map_congr_left fun k hk => ?_
  rw [mem_unique, List.mem_map] at hk
  obtain ⟨r, hr, rfl⟩ := hk
  rw [List.mem_filter] at hr
  have hP : ∀ x : ResKey, decide ((ofLex x).2 = r.key) = true → keep x = true := by
    intro x hx
    rw [hkeep x r.resKey (of_decide_eq_true hx)]; exact hr.2
  unfold cameraRow
  rw [h.sum _ hP, h.sum2 _ hP, h.n _ hP]

theorem nonZeroKey_congr (a b : ResKey) (h : (ofLex a).2 = (ofLex b).2) : nonZeroKey a = nonZeroKey b := by
  unfold nonZeroKey; rw [h]

/-- the result of `finish` after any session, as a function of the entries -/
theorem finish_resolution_eq (mem : List ResRow → Nat) (mc : Bool) (ops : List ResOp) (s s' : ResState) (P C : List ResolutionRow)
    (hrun : runResolution mem mc ResState.init ops = .ok s) (hfin : finishResolution mc s = .ok (s', P, C)) :
    P = (((unique (((entries ops).map resolutionRow).map ResRow.resKey)).filter nonZeroKey).map
      (groupRow ((entries ops).map resolutionRow))).map (resolutionColumns mc) ∧
    C = ((unique ((((entries ops).map resolutionRow).filter fun r => nonZeroKey r.resKey).map (·.key))).map
      (cameraRow ((entries ops).map resolutionRow))).map (resolutionColumns mc) := by
  have hA := runResolution_agree mem mc ops _ _ hrun
  have hi : contents ResState.init = [] := rfl
  rw [hi, List.nil_append] at hA
  have hst : Started s := by
    by_contra h
    unfold finishResolution at hfin
    rw [amalgamate_fails s h] at hfin
    cases hfin
  rw [finishResolution_ok mc s hst] at hfin
  injection hfin with hfin
  injection hfin with h1 h2
  injection h2 with h2 h3
  have e := hA.group_eq
  rw [filter_group_eq nonZeroKey ((entries ops).map resolutionRow)] at e
  refine ⟨?_, ?_⟩
  · rw [← h2, e]
  · rw [← h3, cameraTable_eq nonZeroKey nonZeroKey_congr _ ((entries ops).map resolutionRow) ?_ ?_]
    · exact ((Agree.filter _ _).trans (Agree.group _ _)).trans hA
    · intro r hr
      exact (List.mem_filter.1 hr).2

/-! ## C40 -/

/-- C40: after any session of `add` and `finish` calls, with any memory sizes (amalgamation schedule), the table per pixel
has exactly one row for each pixel and true charge other than 0 that was added, in ascending order. `n` counts its entries,
the absolute resolution is the root of the mean squared deviation (plus the true charge for simulations), and the
resolution is that divided by the size of the true charge. -/
theorem C40_pixel_table (mem : List ResRow → Nat) (mc : Bool) (ops : List ResOp) (s s' : ResState) (P C : List ResolutionRow)
    (hrun : runResolution mem mc ResState.init ops = .ok s) (hfin : finishResolution mc s = .ok (s', P, C)) :
    P.Pairwise (fun a b => a.row.pixel < b.row.pixel ∨ (a.row.pixel = b.row.pixel ∧ a.row.key < b.row.key)) ∧
    (∀ p t, (∃ r ∈ P, r.row.pixel = p ∧ r.row.key = t) ↔ t ≠ 0 ∧ ∃ e ∈ entries ops, e.pixel = p ∧ e.key = t) ∧
    ∀ r ∈ P, r.row.n = (groupOf (entries ops) r.row.pixel r.row.key).length ∧
      r.abs = npSqrt (meanSquare (groupOf (entries ops) r.row.pixel r.row.key) + if mc then r.row.key else 0) ∧
      r.rel = r.abs.map fun x => x / |(r.row.key : ℝ)| := by
  obtain ⟨h, -⟩ := finish_resolution_eq mem mc ops s s' P C hrun hfin
  rw [List.map_map] at h
  subst h
  refine ⟨?_, ?_, ?_⟩
  · rw [List.pairwise_map]
    refine ((pairwise_unique _).filter _).imp fun {a b} hab => ?_
    exact (Prod.Lex.lt_iff).1 hab
  · intro p t
    simp only [List.mem_map, List.mem_filter, mem_unique]
    constructor
    · rintro ⟨r, ⟨k, ⟨⟨x, ⟨e, he, rfl⟩, rfl⟩, hk⟩, rfl⟩, rfl, rfl⟩
      exact ⟨of_decide_eq_true hk, e, he, rfl, rfl⟩
    · rintro ⟨ht, e, he, rfl, rfl⟩
      exact ⟨_, ⟨toLex (e.pixel, e.key), ⟨⟨resolutionRow e, ⟨e, he, rfl⟩, rfl⟩, decide_eq_true ht⟩, rfl⟩, rfl, rfl⟩
  · intro r hr
    obtain ⟨k, hk, rfl⟩ := List.mem_map.1 hr
    simp only [Function.comp_apply]
    rw [groupRow_resolution]
    refine ⟨rfl, ?_, rfl⟩
    unfold resolutionColumns resolutionSquare meanSquare
    cases mc <;> simp

/-- C40: the table of the camera has exactly one row for each true charge other than 0 that was added, in ascending order,
computed from all entries with that true charge. -/
theorem C40_camera_table (mem : List ResRow → Nat) (mc : Bool) (ops : List ResOp) (s s' : ResState) (P C : List ResolutionRow)
    (hrun : runResolution mem mc ResState.init ops = .ok s) (hfin : finishResolution mc s = .ok (s', P, C)) :
    C.Pairwise (fun a b => a.row.key < b.row.key) ∧
    (∀ t, (∃ r ∈ C, r.row.key = t) ↔ t ≠ 0 ∧ ∃ e ∈ entries ops, e.key = t) ∧
    ∀ r ∈ C, r.row.n = (cameraGroupOf (entries ops) r.row.key).length ∧
      r.abs = npSqrt (meanSquare (cameraGroupOf (entries ops) r.row.key) + if mc then r.row.key else 0) ∧
      r.rel = r.abs.map fun x => x / |(r.row.key : ℝ)| := by
  obtain ⟨-, h⟩ := finish_resolution_eq mem mc ops s s' P C hrun hfin
  rw [List.map_map] at h
  subst h
  refine ⟨?_, ?_, ?_⟩
  · rw [List.pairwise_map]
    exact (pairwise_unique _).imp fun {a b} hab => hab
  · intro t
    simp only [List.mem_map, List.mem_filter, mem_unique]
    constructor
    · rintro ⟨r, ⟨k, ⟨x, ⟨⟨e, he, rfl⟩, hk⟩, rfl⟩, rfl⟩, rfl⟩
      exact ⟨of_decide_eq_true hk, e, he, rfl⟩
    · rintro ⟨ht, e, he, rfl⟩
      exact ⟨_, ⟨e.key, ⟨resolutionRow e, ⟨⟨e, he, rfl⟩, decide_eq_true ht⟩, rfl⟩, rfl⟩, rfl⟩
  · intro r hr
    obtain ⟨k, hk, rfl⟩ := List.mem_map.1 hr
    simp only [Function.comp_apply]
    rw [cameraRow_resolution]
    refine ⟨rfl, ?_, rfl⟩
    unfold resolutionColumns resolutionSquare meanSquare
    cases mc <;> simp

/-- C40: two sessions whose entries are the same up to order give the same tables, however the entries were split over the
`add` calls, in which order they came, when amalgamations happened, and whether `finish` was called in between. -/
theorem C40_independent (mem mem' : List ResRow → Nat) (mc : Bool) (ops ops' : List ResOp) (s t s' t' : ResState)
    (P C P' C' : List ResolutionRow) (hrun : runResolution mem mc ResState.init ops = .ok s)
    (hfin : finishResolution mc s = .ok (s', P, C)) (hrun' : runResolution mem' mc ResState.init ops' = .ok t)
    (hfin' : finishResolution mc t = .ok (t', P', C')) (hperm : (entries ops).Perm (entries ops')) : P = P' ∧ C = C' := by
  obtain ⟨h1, h2⟩ := finish_resolution_eq mem mc ops s s' P C hrun hfin
  obtain ⟨h1', h2'⟩ := finish_resolution_eq mem' mc ops' t t' P' C' hrun' hfin'
  have hp : ((entries ops).map resolutionRow).Perm ((entries ops').map resolutionRow) := hperm.map _
  have hg : ∀ keep : ResKey → Bool, (groupByPixel ((entries ops).map resolutionRow)).filter (fun r => keep r.resKey) =
      (groupByPixel ((entries ops').map resolutionRow)).filter (fun r => keep r.resKey) := fun keep => (Agree.perm hp).group_eq
  constructor
  · rw [h1, h1', ← filter_group_eq, ← filter_group_eq, hg]
  · rw [h2, h2']
    have e : ∀ A : List ResRow, unique ((A.filter fun r => nonZeroKey r.resKey).map (·.key)) = (unique (A.map (·.key))).filter (fun k => k ≠ 0) := by
      intro A
      refine List.Pairwise.eq_of_mem_iff (r := (· < ·)) (pairwise_unique _) ((pairwise_unique _).filter _) fun k => ?_
      rw [mem_unique, List.mem_filter, mem_unique]
      simp only [List.mem_map, List.mem_filter]
      constructor
      · rintro ⟨r, ⟨h1, h2⟩, rfl⟩
        exact ⟨⟨r, h1, rfl⟩, h2⟩
      · rintro ⟨⟨r, h1, rfl⟩, h2⟩
        exact ⟨r, ⟨h1, h2⟩, rfl⟩
    have eu : unique (((entries ops).map resolutionRow).map (·.key)) = unique (((entries ops').map resolutionRow).map (·.key)) := by
      refine List.Pairwise.eq_of_mem_iff (r := (· < ·)) (pairwise_unique _) (pairwise_unique _) fun k => ?_
      rw [mem_unique, mem_unique, (hp.map _).mem_iff]
    rw [e, e, eu]
    congr 1
    refine List.map_congr_left fun k _ => ?_
    unfold cameraRow
    rw [sumAt_perm _ _ _ _ hp, sumAt_perm _ _ _ _ hp, sumAt_perm _ _ _ _ hp]

/-- C40: a session that begins with an `add` (of any number of entries, even none) never fails, and neither does `finish`. -/
theorem C40_total (mem : List ResRow → Nat) (mc : Bool) (es : List ChargeEntry) (ops : List ResOp) :
    ∃ s r, runResolution mem mc ResState.init (.add es :: ops) = .ok s ∧ finishResolution mc s = .ok r := by
  obtain ⟨s1, h1, h2, -⟩ := addFrame_ok mem ResState.init (es.map resolutionRow)
  obtain ⟨s, h3, h4⟩ := runResolution_started mem mc ops s1 h2
  exact ⟨s, _, by rw [runResolution, h1]; exact h3, finishResolution_ok mc s h4⟩

/-- C40: `finish` without any `add` raises `KeyError`. -/
theorem C40_nothing_added (mc : Bool) : finishResolution mc ResState.init = .error .keyError := rfl

/-- the frames waiting to be merged are counted, and never exceed the limit -/
def Counted (mem : List ResRow → Nat) (s : ResState) : Prop := (s.dfList.map mem).sum = s.nBytes ∧ s.nBytes ≤ 1000000000

theorem addFrame_counted (mem : List ResRow → Nat) (s s' : ResState) (df : List ResRow) (h : Counted mem s) (ha : addFrame mem s df = .ok s') :
    Counted mem s' ∧ ((s.dfList.map mem).sum + mem df ≤ 1000000000 → s'.dfList = s.dfList ++ [df] ∧ s'.df = s.df) := by
  unfold addFrame at ha
  simp only at ha
  split at ha
  · rename_i hlim
    rw [amalgamate_ok _ (Or.inr (by simp))] at ha
    injection ha with ha
    subst ha
    exact ⟨⟨rfl, Nat.zero_le _⟩, fun hle => absurd (h.1 ▸ hle) (by omega)⟩
  · rename_i hlim
    injection ha with ha
    subst ha
    exact ⟨⟨by simp [h.1], by simpa using hlim⟩, fun _ => ⟨rfl, rfl⟩⟩

/-- C40: whatever is added in whatever portions, the entries waiting to be merged never take more than 1e9 bytes. -/
theorem C40_memory (mem : List ResRow → Nat) (mc : Bool) (ops : List ResOp) (s : ResState) (h : runResolution mem mc ResState.init ops = .ok s) :
    (s.dfList.map mem).sum ≤ 1000000000 := by
  have key : ∀ (ops : List ResOp) (s0 s : ResState), Counted mem s0 → runResolution mem mc s0 ops = .ok s → Counted mem s := by
    intro ops
    induction ops with
    | nil => intro s0 s h0 h; injection h with h; exact h ▸ h0
    | cons op ops ih =>
      intro s0 s h0 h
      cases op with
      | add es =>
        simp only [runResolution] at h
        cases ha : addFrame mem s0 (es.map resolutionRow) with
        | error e => rw [ha] at h; cases h
        | ok s1 => rw [ha] at h; exact ih s1 s (addFrame_counted mem s0 s1 _ h0 ha).1 h
      | finish =>
        simp only [runResolution] at h
        by_cases hst : Started s0
        · rw [finishResolution_ok mc s0 hst] at h
          exact ih _ s ⟨rfl, Nat.zero_le _⟩ h
        · unfold finishResolution at h
          rw [amalgamate_fails s0 hst] at h
          cases h
  obtain ⟨h1, h2⟩ := key ops _ s ⟨rfl, Nat.zero_le _⟩ h
  omega

/-- C40: nothing is merged before the limit is passed. -/
theorem C40_merged_at_limit (mem : List ResRow → Nat) (mc : Bool) (portions : List (List ChargeEntry))
    (hmem : (portions.map fun es => mem (es.map resolutionRow)).sum ≤ 1000000000) :
    ∃ s, runResolution mem mc ResState.init (portions.map .add) = .ok s ∧ s.dfList = portions.map (·.map resolutionRow) ∧ s.df = none := by
  have key : ∀ (portions : List (List ChargeEntry)) (s0 : ResState), Counted mem s0 →
      (s0.dfList.map mem).sum + (portions.map fun es => mem (es.map resolutionRow)).sum ≤ 1000000000 →
      ∃ s, runResolution mem mc s0 (portions.map .add) = .ok s ∧ s.dfList = s0.dfList ++ portions.map (·.map resolutionRow) ∧ s.df = s0.df := by
    intro portions
    induction portions with
    | nil => intro s0 _ _; exact ⟨s0, rfl, by simp, rfl⟩
    | cons es portions ih =>
      intro s0 h0 hle
      rw [List.map_cons, List.sum_cons] at hle
      obtain ⟨s1, h1, -, -⟩ := addFrame_ok mem s0 (es.map resolutionRow)
      obtain ⟨h2, h3⟩ := addFrame_counted mem s0 s1 _ h0 h1
      obtain ⟨h4, h5⟩ := h3 (by omega)
      obtain ⟨s, h6, h7, h8⟩ := ih s1 h2 (by rw [h4]; simp; omega)
      refine ⟨s, ?_, by rw [h7, h4]; simp, h8.trans h5⟩
      rw [List.map_cons, runResolution, h1]
      exact h6
  simpa [ResState.init] using key portions ResState.init ⟨rfl, Nat.zero_le _⟩ (by simpa [ResState.init] using hmem)

/-- a session with two pixels, a zero true charge and an intermediate `finish` -/
example : ∃ s r, runResolution (fun df => df.length * 600000000) true ResState.init
    [.add [⟨0, 4, some 5⟩, ⟨1, 4, some 3⟩], .finish, .add [⟨0, 4, some 1⟩, ⟨0, 0, some 1⟩]] = .ok s ∧ finishResolution true s = .ok r :=
  C40_total _ true _ _

example : meanSquare (groupOf [⟨0, 4, some 5⟩, ⟨1, 4, some 3⟩, ⟨0, 4, some 1⟩, ⟨0, 0, some 1⟩] 0 4) = 5 := by decide +kernel

/-! ## C70: missing measurements -/

/-- C70 is false: an entry without measured charge (NaN) lowers the resolution: it is counted in `n` but adds nothing to the
sum, so a single deviation of 2 is reported as the root of 2 instead of 2. -/
theorem C70_false :
    meanSquare (groupOf [⟨0, 4, some 6⟩] 0 4) = 4 ∧ meanSquare (groupOf [⟨0, 4, some 6⟩, ⟨0, 4, none⟩] 0 4) = 2 ∧
    ∀ mem : List ResRow → Nat, ∃ s s' P C P' C' t t',
      runResolution mem false ResState.init [.add [⟨0, 4, some 6⟩]] = .ok s ∧ finishResolution false s = .ok (s', P, C) ∧
      runResolution mem false ResState.init [.add [⟨0, 4, some 6⟩, ⟨0, 4, none⟩]] = .ok t ∧ finishResolution false t = .ok (t', P', C') ∧
      (∃ r ∈ P, r.row.pixel = 0 ∧ r.row.key = 4 ∧ r.abs = some 2) ∧ ∃ r ∈ P', r.row.pixel = 0 ∧ r.row.key = 4 ∧ r.abs = some (Real.sqrt 2) := by
  have m1 : meanSquare (groupOf [⟨0, 4, some 6⟩] 0 4) = 4 := by decide +kernel
  have m2 : meanSquare (groupOf [⟨0, 4, some 6⟩, ⟨0, 4, none⟩] 0 4) = 2 := by decide +kernel
  refine ⟨m1, m2, fun mem => ?_⟩
  obtain ⟨s, ⟨s', P, C⟩, h1, h2⟩ := C40_total mem false [⟨0, 4, some 6⟩] []
  obtain ⟨t, ⟨t', P', C'⟩, h1', h2'⟩ := C40_total mem false [⟨0, 4, some 6⟩, ⟨0, 4, none⟩] []
  refine ⟨s, s', P, C, P', C', t, t', h1, h2, h1', h2', ?_, ?_⟩
  · obtain ⟨-, ha, hb⟩ := C40_pixel_table mem false _ s s' P C h1 h2
    obtain ⟨r, hr, e1, e2⟩ := (ha 0 4).2 ⟨by norm_num, ⟨0, 4, some 6⟩, by simp [entries], rfl, rfl⟩
    refine ⟨r, hr, e1, e2, ?_⟩
    rw [(hb r hr).2.1, e1, e2]
    simp only [entries, List.append_nil, m1, npSqrt]
    norm_num
    rw [show (4 : ℝ) = 2 ^ 2 by norm_num, Real.sqrt_sq (by norm_num)]
  · obtain ⟨-, ha, hb⟩ := C40_pixel_table mem false _ t t' P' C' h1' h2'
    obtain ⟨r, hr, e1, e2⟩ := (ha 0 4).2 ⟨by norm_num, ⟨0, 4, some 6⟩, by simp [entries], rfl, rfl⟩
    refine ⟨r, hr, e1, e2, ?_⟩
    rw [(hb r hr).2.1, e1, e2]
    simp only [entries, List.append_nil, m2, npSqrt]
    norm_num

/-- C70, what holds (missing: that the divisor counts only the measured entries): the missing entries enter only through the
divisor `n`; the reported mean square is that of the measured entries scaled by their share of the group. -/
theorem C70_partial (mem : List ResRow → Nat) (mc : Bool) (ops : List ResOp) (s s' : ResState) (P C : List ResolutionRow)
    (hrun : runResolution mem mc ResState.init ops = .ok s) (hfin : finishResolution mc s = .ok (s', P, C)) (r : ResolutionRow) (hr : r ∈ P) :
    let G := groupOf (entries ops) r.row.pixel r.row.key
    let M := G.filter (·.measured.isSome)
    r.abs = npSqrt (meanSquare M * M.length / G.length + if mc then r.row.key else 0) := by
  intro G M
  obtain ⟨-, -, h⟩ := C40_pixel_table mem mc ops s s' P C hrun hfin
  rw [(h r hr).2.1]
  have hs : ∀ L : List ChargeEntry, (L.map fun e => (e.measured.getD e.key - e.key) ^ 2).sum =
      ((L.filter (·.measured.isSome)).map fun e => (e.measured.getD e.key - e.key) ^ 2).sum := by
    intro L
    induction L with
    | nil => rfl
    | cons a L ih =>
      cases hm : a.measured with
      | none => simp [hm, ih]
      | some x => simp [hm, ih]
  have e : meanSquare G = meanSquare M * M.length / G.length := by
    unfold meanSquare
    rw [hs G]
    by_cases h0 : M.length = 0
    · rw [show M = [] from List.length_eq_zero_iff.1 h0, show G.filter (·.measured.isSome) = [] from List.length_eq_zero_iff.1 h0]
      simp
    · rw [div_mul_cancel₀]
      exact_mod_cast h0
  rw [← e]

/-- **C70, exactly**: for a true charge that is not negative, the resolution reported for a group is that of its measured entries if and only if no entry is
missing or all measured charges are the true charge. -/
theorem C70_exactly_partial (mem : List ResRow → Nat) (mc : Bool) (ops : List ResOp) (s s' : ResState) (P C : List ResolutionRow)
    (hrun : runResolution mem mc ResState.init ops = .ok s) (hfin : finishResolution mc s = .ok (s', P, C)) (r : ResolutionRow) (hr : r ∈ P)
    (hkey : 0 ≤ r.row.key) :
    let G := groupOf (entries ops) r.row.pixel r.row.key
    let M := G.filter (·.measured.isSome)
    r.abs = npSqrt (meanSquare M + if mc then r.row.key else 0) ↔
      (∀ e ∈ G, e.measured ≠ none) ∨ ∀ e ∈ G, ∀ x, e.measured = some x → x = e.key := by
  intro G M
  have habs : r.abs = npSqrt (meanSquare M * M.length / G.length + if mc then r.row.key else 0) := C70_partial mem mc ops s s' P C hrun hfin r hr
  have hk : 0 ≤ (if mc then r.row.key else 0) := by split_ifs <;> simp [hkey]
  generalize (if mc then r.row.key else 0) = k at habs hk
  have hsum : ∀ L : List ChargeEntry, 0 ≤ (L.map fun e => (e.measured.getD e.key - e.key) ^ 2).sum := by
    intro L
    refine List.sum_nonneg fun x hx => ?_
    obtain ⟨e, -, rfl⟩ := List.mem_map.1 hx
    positivity
  have hM0 : 0 ≤ meanSquare M := div_nonneg (hsum M) (by positivity)
  have hzero : meanSquare M = 0 ↔ ∀ e ∈ G, ∀ x, e.measured = some x → x = e.key := by
    unfold meanSquare
    constructor
    · intro h e he x hx
      have hmem : e ∈ M := List.mem_filter.2 ⟨he, by simp [hx]⟩
      have hlen : (M.length : ℚ) ≠ 0 := by exact_mod_cast (List.length_pos_of_mem hmem).ne'
      have hs0 : (M.map fun e => (e.measured.getD e.key - e.key) ^ 2).sum = 0 := by
        rcases div_eq_zero_iff.1 h with h | h
        · exact h
        · exact absurd h hlen
      have hle := List.single_le_sum (l := M.map fun e => (e.measured.getD e.key - e.key) ^ 2)
        (fun y hy => by obtain ⟨e', -, rfl⟩ := List.mem_map.1 hy; positivity) _ (List.mem_map.2 ⟨e, hmem, rfl⟩)
      rw [hs0, hx] at hle
      have : (x - e.key) ^ 2 = 0 := le_antisymm hle (by positivity)
      have := pow_eq_zero_iff (two_ne_zero) |>.1 this
      linarith
    · intro h
      rw [div_eq_zero_iff]
      left
      refine List.sum_eq_zero fun y hy => ?_
      obtain ⟨e, he, rfl⟩ := List.mem_map.1 hy
      obtain ⟨heG, hsome⟩ := List.mem_filter.1 he
      obtain ⟨x, hx⟩ := Option.isSome_iff_exists.1 hsome
      rw [hx, h e heG x hx]
      simp
  have hall : M.length = G.length ↔ ∀ e ∈ G, e.measured ≠ none := by
    rw [List.length_filter_eq_length_iff]
    simp [Option.isSome_iff_ne_none]
  have hinj : ∀ a b : ℚ, 0 ≤ a → 0 ≤ b → (npSqrt a = npSqrt b ↔ a = b) := by
    intro a b ha hb
    refine ⟨fun h => ?_, fun h => by rw [h]⟩
    unfold npSqrt at h
    rw [if_neg (not_lt.2 ha), if_neg (not_lt.2 hb)] at h
    have := (Real.sqrt_inj (by exact_mod_cast ha) (by exact_mod_cast hb)).1 (Option.some.inj h)
    exact_mod_cast this
  rw [habs, hinj _ _ (add_nonneg (div_nonneg (mul_nonneg hM0 (by positivity)) (by positivity)) hk) (add_nonneg hM0 hk), ← hall, ← hzero]
  constructor
  · intro h
    have h : meanSquare M * M.length / G.length = meanSquare M := by linarith
    by_cases hz : meanSquare M = 0
    · exact .inr hz
    · left
      by_cases hG : (G.length : ℚ) = 0
      · rw [hG, div_zero] at h
        exact absurd h.symm hz
      · rw [div_eq_iff hG] at h
        exact_mod_cast mul_left_cancel₀ hz h
  · rintro (h | h)
    · by_cases hG : (G.length : ℚ) = 0
      · have : M = [] := List.length_eq_zero_iff.1 (by rw [h]; exact_mod_cast hG)
        rw [this]
        simp [meanSquare]
      · rw [h, mul_div_cancel_right₀ _ hG]
    · rw [h]
      simp

/-- half of the group measured -/
example : (groupOf [⟨0, 4, some 6⟩, ⟨0, 4, none⟩] 0 4).filter (·.measured.isSome) = [⟨0, 4, some 6⟩] := by decide +kernel

/-! ## C41 -/

theorem finish_statistics_eq (mem : List ResRow → Nat) (ops : List ResOp) (s s' : ResState) (P C : List StatisticsRow)
    (hrun : runStatistics mem ResState.init ops = .ok s) (hfin : finishStatistics s = .ok (s', P, C)) :
    P = ((unique (((entries ops).map statisticsRow).map ResRow.resKey)).map (groupRow ((entries ops).map statisticsRow))).map statisticsColumns ∧
    C = ((unique (((entries ops).map statisticsRow).map (·.key))).map (cameraRow ((entries ops).map statisticsRow))).map statisticsColumns := by
  have hA := runStatistics_agree mem ops _ _ hrun
  have hi : contents ResState.init = [] := rfl
  rw [hi, List.nil_append] at hA
  have hst : Started s := by
    by_contra h
    unfold finishStatistics at hfin
    rw [amalgamate_fails s h] at hfin
    cases hfin
  rw [finishStatistics_ok s hst] at hfin
  injection hfin with hfin
  injection hfin with h1 h2
  injection h2 with h2 h3
  have e := hA.group_eq
  simp only [List.filter_true] at e
  refine ⟨?_, ?_⟩
  · rw [← h2, e, groupByPixel_eq]
  · rw [← h3, cameraTable_eq (fun _ => true) (fun _ _ _ => rfl) _ ((entries ops).map statisticsRow) ((Agree.group _ _).trans hA) (fun _ _ => rfl)]
    simp

/-- the textbook identity behind the standard deviation -/
theorem variance_identity (G : List ChargeEntry) (h : G ≠ []) :
    (G.map fun e => e.measured.getD 0 ^ 2).sum / G.length - measuredMean G ^ 2 = measuredVariance G := by
  have hn : (G.length : ℚ) ≠ 0 := by
    have := List.length_pos_iff.2 h
    exact_mod_cast Nat.pos_iff_ne_zero.1 this
  have key : ∀ (G : List ChargeEntry) (μ : ℚ), (G.map fun e => (e.measured.getD 0 - μ) ^ 2).sum =
      (G.map fun e => e.measured.getD 0 ^ 2).sum - 2 * μ * (G.map fun e => e.measured.getD 0).sum + G.length * μ ^ 2 := by
    intro G μ
    induction G with
    | nil => simp
    | cons a G ih =>
      simp only [List.map_cons, List.sum_cons, List.length_cons, ih]
      push_cast
      ring
  unfold measuredVariance
  rw [key]
  unfold measuredMean
  field_simp
  ring

theorem variance_nonneg (G : List ChargeEntry) : 0 ≤ measuredVariance G := by
  unfold measuredVariance
  refine div_nonneg (List.sum_nonneg ?_) (by positivity)
  intro x hx
  obtain ⟨e, _, rfl⟩ := List.mem_map.1 hx
  positivity

/-- C41: after any session, with any memory sizes, the table per pixel has exactly one row for each pixel and amplitude that was
added, in ascending order; `n` counts its entries, `mean` and `std` are the arithmetic mean and the population standard
deviation of its measured charges (in particular a number, never NaN), where a missing measurement counts as 0. -/
theorem C41_pixel_table (mem : List ResRow → Nat) (ops : List ResOp) (s s' : ResState) (P C : List StatisticsRow)
    (hrun : runStatistics mem ResState.init ops = .ok s) (hfin : finishStatistics s = .ok (s', P, C)) :
    P.Pairwise (fun a b => a.row.pixel < b.row.pixel ∨ (a.row.pixel = b.row.pixel ∧ a.row.key < b.row.key)) ∧
    (∀ p t, (∃ r ∈ P, r.row.pixel = p ∧ r.row.key = t) ↔ ∃ e ∈ entries ops, e.pixel = p ∧ e.key = t) ∧
    ∀ r ∈ P, r.row.n = (groupOf (entries ops) r.row.pixel r.row.key).length ∧
      r.mean = measuredMean (groupOf (entries ops) r.row.pixel r.row.key) ∧
      r.std = some (Real.sqrt (measuredVariance (groupOf (entries ops) r.row.pixel r.row.key))) := by
  obtain ⟨h, -⟩ := finish_statistics_eq mem ops s s' P C hrun hfin
  rw [List.map_map] at h
  subst h
  refine ⟨?_, ?_, ?_⟩
  · rw [List.pairwise_map]
    exact (pairwise_unique _).imp fun {a b} hab => (Prod.Lex.lt_iff).1 hab
  · intro p t
    simp only [List.mem_map, mem_unique]
    constructor
    · rintro ⟨r, ⟨k, ⟨x, ⟨e, he, rfl⟩, rfl⟩, rfl⟩, rfl, rfl⟩
      exact ⟨e, he, rfl, rfl⟩
    · rintro ⟨e, he, rfl, rfl⟩
      exact ⟨_, ⟨toLex (e.pixel, e.key), ⟨statisticsRow e, ⟨e, he, rfl⟩, rfl⟩, rfl⟩, rfl, rfl⟩
  · intro r hr
    obtain ⟨k, hk, rfl⟩ := List.mem_map.1 hr
    rw [mem_unique, List.map_map, List.mem_map] at hk
    obtain ⟨e, he, rfl⟩ := hk
    simp only [Function.comp_apply]
    rw [groupRow_statistics]
    have hne : groupOf (entries ops) e.pixel e.key ≠ [] := List.ne_nil_of_mem (List.mem_filter.2 ⟨he, by simp⟩)
    refine ⟨rfl, rfl, ?_⟩
    have hv := variance_identity _ hne
    have hv0 := variance_nonneg (groupOf (entries ops) e.pixel e.key)
    change npSqrt (((groupOf (entries ops) e.pixel e.key).map fun e => e.measured.getD 0 ^ 2).sum / ((groupOf (entries ops) e.pixel e.key).length : ℚ) -
      measuredMean (groupOf (entries ops) e.pixel e.key) ^ 2) = _
    rw [hv, npSqrt, if_neg (not_lt.2 hv0)]
    rfl

/-- C41: the table of the camera, likewise. -/
theorem C41_camera_table (mem : List ResRow → Nat) (ops : List ResOp) (s s' : ResState) (P C : List StatisticsRow)
    (hrun : runStatistics mem ResState.init ops = .ok s) (hfin : finishStatistics s = .ok (s', P, C)) :
    C.Pairwise (fun a b => a.row.key < b.row.key) ∧
    (∀ t, (∃ r ∈ C, r.row.key = t) ↔ ∃ e ∈ entries ops, e.key = t) ∧
    ∀ r ∈ C, r.row.n = (cameraGroupOf (entries ops) r.row.key).length ∧
      r.mean = measuredMean (cameraGroupOf (entries ops) r.row.key) ∧
      r.std = some (Real.sqrt (measuredVariance (cameraGroupOf (entries ops) r.row.key))) := by
  obtain ⟨-, h⟩ := finish_statistics_eq mem ops s s' P C hrun hfin
  rw [List.map_map] at h
  subst h
  refine ⟨?_, ?_, ?_⟩
  · rw [List.pairwise_map]
    exact (pairwise_unique _).imp fun {a b} hab => hab
  · intro t
    simp only [List.mem_map, mem_unique]
    constructor
    · rintro ⟨r, ⟨k, ⟨x, ⟨e, he, rfl⟩, rfl⟩, rfl⟩, rfl⟩
      exact ⟨e, he, rfl⟩
    · rintro ⟨e, he, rfl⟩
      exact ⟨_, ⟨e.key, ⟨statisticsRow e, ⟨e, he, rfl⟩, rfl⟩, rfl⟩, rfl⟩
  · intro r hr
    obtain ⟨k, hk, rfl⟩ := List.mem_map.1 hr
    rw [mem_unique, List.map_map, List.mem_map] at hk
    obtain ⟨e, he, rfl⟩ := hk
    simp only [Function.comp_apply]
    rw [cameraRow_statistics]
    have hne : cameraGroupOf (entries ops) e.key ≠ [] := List.ne_nil_of_mem (List.mem_filter.2 ⟨he, by simp⟩)
    refine ⟨rfl, rfl, ?_⟩
    have hv := variance_identity _ hne
    have hv0 := variance_nonneg (cameraGroupOf (entries ops) e.key)
    change npSqrt (((cameraGroupOf (entries ops) e.key).map fun e => e.measured.getD 0 ^ 2).sum / ((cameraGroupOf (entries ops) e.key).length : ℚ) -
      measuredMean (cameraGroupOf (entries ops) e.key) ^ 2) = _
    rw [hv, npSqrt, if_neg (not_lt.2 hv0)]
    rfl

/-- C41: the tables depend only on the entries up to order. -/
theorem C41_independent (mem mem' : List ResRow → Nat) (ops ops' : List ResOp) (s t s' t' : ResState)
    (P C P' C' : List StatisticsRow) (hrun : runStatistics mem ResState.init ops = .ok s) (hfin : finishStatistics s = .ok (s', P, C))
    (hrun' : runStatistics mem' ResState.init ops' = .ok t) (hfin' : finishStatistics t = .ok (t', P', C'))
    (hperm : (entries ops).Perm (entries ops')) : P = P' ∧ C = C' := by
  obtain ⟨h1, h2⟩ := finish_statistics_eq mem ops s s' P C hrun hfin
  obtain ⟨h1', h2'⟩ := finish_statistics_eq mem' ops' t t' P' C' hrun' hfin'
  have hp : ((entries ops).map statisticsRow).Perm ((entries ops').map statisticsRow) := hperm.map _
  have hg : groupByPixel ((entries ops).map statisticsRow) = groupByPixel ((entries ops').map statisticsRow) := by
    have := (Agree.perm (keep := fun _ => true) hp).group_eq
    simpa using this
  constructor
  · rw [h1, h1', ← groupByPixel_eq, ← groupByPixel_eq, hg]
  · have eu : unique (((entries ops).map statisticsRow).map (·.key)) = unique (((entries ops').map statisticsRow).map (·.key)) := by
      refine List.Pairwise.eq_of_mem_iff (r := (· < ·)) (pairwise_unique _) (pairwise_unique _) fun k => ?_
      rw [mem_unique, mem_unique, (hp.map _).mem_iff]
    rw [h2, h2', eu]
    congr 1
    refine List.map_congr_left fun k _ => ?_
    unfold cameraRow
    rw [sumAt_perm _ _ _ _ hp, sumAt_perm _ _ _ _ hp, sumAt_perm _ _ _ _ hp]

/-- C41: a session that begins with an `add` never fails; without any, `finish` raises `KeyError`. -/
theorem C41_total (mem : List ResRow → Nat) (es : List ChargeEntry) (ops : List ResOp) :
    (∃ s r, runStatistics mem ResState.init (.add es :: ops) = .ok s ∧ finishStatistics s = .ok r) ∧
    finishStatistics ResState.init = .error .keyError := by
  obtain ⟨s1, h1, h2, -⟩ := addFrame_ok mem ResState.init (es.map statisticsRow)
  obtain ⟨s, h3, h4⟩ := runStatistics_started mem ops s1 h2
  exact ⟨⟨s, _, by rw [runStatistics, h1]; exact h3, finishStatistics_ok s h4⟩, rfl⟩

example := (C41_total (fun df => df.length * 600000000) [⟨0, 4, some 5⟩, ⟨1, 4, some 3⟩] [.finish, .add [⟨0, 4, some 1⟩]]).1

example : measuredMean [⟨0, 4, some 5⟩, ⟨0, 4, some 1⟩] = 3 ∧ measuredVariance [⟨0, 4, some 5⟩, ⟨0, 4, some 1⟩] = 4 := by decide +kernel

end Verif.Props
