import Verif.Model.Matcher
import Verif.Spec.Matcher
import Verif.Lemmas.Matcher
import Mathlib.Tactic.Ring
import Mathlib.Algebra.Order.Ring.Abs
import Mathlib.Algebra.Order.Field.Basic
import Mathlib.Data.Int.Interval
import Mathlib.Algebra.BigOperators.Group.List.Basic
import Mathlib.Tactic.Linarith
import Mathlib.Tactic.NormNum
import Mathlib.Tactic.FieldSimp

/-! # C47 to C50: the amplitude matching procedure -/

namespace Verif.Props

open Verif.Py Verif.Model Verif.Spec Verif.Lemmas

/-! ## C47 -/

/-- both DAC values of every superpixel are allowed -/
def DacsAllowed (m : Matcher) : Prop := ∀ sp ∈ m.sps, Allowed sp.dac ∧ Allowed sp.prevDac

theorem stepSp_allowed (it : Nat) (masked : Bool) (dist : ℚ) (dir : Int) (sp : Sp) (h : Allowed sp.dac ∧ Allowed sp.prevDac) :
    Allowed (stepSp it masked dist dir sp).dac ∧ Allowed (stepSp it masked dist dir sp).prevDac := by
  refine ⟨?_, h.1⟩
  unfold Allowed at *
  unfold stepSp nextDac
  simp only
  generalize (if it = 0 then dist else sp.prevDist) = pd
  generalize (if sp.stage = 0 then sp.dac + 10 * dir else if sp.stage = 1 then sp.dac + 5 * dir else if sp.stage = 2 then sp.dac + 1 * dir else sp.dac) = nx
  split_ifs <;> simp only <;> omega

theorem process_allowed (m : Matcher) (n : Nat) (amp : List (List ℚ)) (h : DacsAllowed m) : DacsAllowed (process m n amp).1 := by
  intro sp' hsp'
  obtain ⟨i, hi⟩ := List.getElem?_of_mem hsp'
  obtain ⟨sp, h1, hc⟩ := process_change m n amp i sp' hi
  have hsp := h sp (List.mem_of_getElem? h1)
  have hseen : Allowed (seen m sp).dac ∧ Allowed (seen m sp).prevDac := by
    unfold seen
    split <;> exact hsp
  cases hc with
  | same => exact hsp
  | reset => exact hseen
  | step => exact stepSp_allowed _ _ _ _ _ hseen
  | spoil => exact hseen

theorem result_allowed (m : Matcher) (n : Nat) (amp : List (List ℚ)) (h : DacsAllowed m) (dacs : List Int) (fin : Bool)
    (hr : (process m n amp).2 = .ok (dacs, fin)) : ∀ d ∈ dacs, Allowed d := by
  have hp := process_allowed m n amp h
  intro d hd
  rcases process_ok_inv m n amp _ hr with ⟨-, he, hr'⟩ | ⟨-, he, hr'⟩ <;>
  · injection hr' with h1 h2
    subst h1
    rw [he] at hp
    obtain ⟨sp, hsp, rfl⟩ := List.mem_map.1 hd
    exact (hp sp hsp).1

/-- C47: if the starting DAC values are within [10, 255] then so is every DAC value of every table returned by any sequence of calls,
whatever amplitudes they are given and whichever superpixels are masked. -/
theorem C47_range (nPixels : Nat) (aim : ℚ) (starting : Option (List Int)) (badHv : Option (List Bool))
    (h : ∀ dacs, starting = some dacs → ∀ d ∈ dacs, 10 ≤ d ∧ d ≤ 255) (calls : List (Nat × List (List ℚ))) (dacs : List Int) (fin : Bool)
    (hr : .ok (dacs, fin) ∈ (processAll (newMatcher nPixels aim starting badHv) calls).2) : ∀ d ∈ dacs, 10 ≤ d ∧ d ≤ 255 := by
  have key : ∀ (calls : List (Nat × List (List ℚ))) (m : Matcher), DacsAllowed m → .ok (dacs, fin) ∈ (processAll m calls).2 →
      ∀ d ∈ dacs, Allowed d := by
    intro calls
    induction calls with
    | nil => intro m _ hr; cases hr
    | cons c calls ih =>
      obtain ⟨n, a⟩ := c
      intro m hm hr
      rcases List.mem_cons.1 hr with hr | hr
      · exact result_allowed m n a hm dacs fin hr.symm
      · exact ih _ (process_allowed m n a hm) hr
  refine key calls _ ?_ hr
  intro sp hsp
  obtain ⟨d, hd, rfl⟩ := List.mem_map.1 hsp
  have : Allowed d := by
    cases starting with
    | none => rw [Option.getD_none, List.mem_replicate] at hd; rw [hd.2]; unfold Allowed; omega
    | some l => exact h l rfl d hd
  exact ⟨this, this⟩

/-! ## C48 -/

theorem stepAt_stage (m : Matcher) (amp : List (List ℚ)) (i : Nat) (sp : Sp) (h : sp.stage ≤ 3) :
    sp.stage ≤ (stepAt m amp i sp).stage ∧ (stepAt m amp i sp).stage ≤ 3 ∧ (sp.stage = 3 → (stepAt m amp i sp).dac = sp.dac) := by
  unfold stepAt stepSp nextDac
  simp only
  generalize (if m.iteration = 0 then distanceOf m.aim (spAverage amp i) else sp.prevDist) = pd
  generalize (if sp.stage = 0 then sp.dac + 10 * directionOf m.aim (spAverage amp i)
    else if sp.stage = 1 then sp.dac + 5 * directionOf m.aim (spAverage amp i)
    else if sp.stage = 2 then sp.dac + 1 * directionOf m.aim (spAverage amp i) else sp.dac) = nx
  split_ifs with h1 h2 h3 h4 h5
  · exact ⟨le_refl _, h, fun _ => rfl⟩
  all_goals exact ⟨by simp only; omega, by simp only; omega, fun h3 => absurd h3 h1⟩

theorem process_stage (m : Matcher) (n : Nat) (amp : List (List ℚ)) (h : ∀ sp ∈ m.sps, sp.stage ≤ 3) :
    ∀ sp ∈ (process m n amp).1.sps, sp.stage ≤ 3 := by
  intro sp' hsp'
  obtain ⟨i, hi⟩ := List.getElem?_of_mem hsp'
  obtain ⟨sp, h1, hc⟩ := process_change m n amp i sp' hi
  have hsp := h sp (List.mem_of_getElem? h1)
  have hseen : (seen m sp).stage ≤ 3 := by
    unfold seen
    split
    · simp
    · exact hsp
  cases hc with
  | same => exact hsp
  | reset => exact hseen
  | step => exact (stepAt_stage _ _ _ _ hseen).2.1
  | spoil => exact (stepAt_stage _ _ _ _ hseen).2.1

/-- what every history of calls keeps -/
theorem reachable (m : Matcher) (calls : List (Nat × List (List ℚ))) (h : ∀ sp ∈ m.sps, sp.stage ≤ 3) (hg : m.globalStage ≤ 3) :
    (∀ sp ∈ (processAll m calls).1.sps, sp.stage ≤ 3) ∧ (processAll m calls).1.globalStage ≤ 3 ∧
    (processAll m calls).1.sps.length = m.sps.length := by
  induction calls generalizing m with
  | nil => exact ⟨h, hg, rfl⟩
  | cons c calls ih =>
    obtain ⟨n, a⟩ := c
    have hg' : (process m n a).1.globalStage ≤ 3 := by
      rcases process_global m n a hg with h | ⟨-, h⟩ | ⟨⟨-, h⟩ | ⟨-, h⟩, -⟩ <;> omega
    obtain ⟨e1, e2, e3⟩ := ih (process m n a).1 (process_stage m n a h) hg'
    exact ⟨e1, e2, by rw [← process_length m n a]; exact e3⟩

theorem new_stage (nPixels : Nat) (aim : ℚ) (starting : Option (List Int)) (badHv : Option (List Bool)) :
    (∀ sp ∈ (newMatcher nPixels aim starting badHv).sps, sp.stage = 0) ∧ (newMatcher nPixels aim starting badHv).globalStage = 0 := by
  refine ⟨fun sp hsp => ?_, rfl⟩
  obtain ⟨d, -, rfl⟩ := List.mem_map.1 hsp
  rfl

/-- C48: in any history, within a pass (no reset is due), no superpixel's stage decreases in a call, and a finished superpixel keeps its
DAC value. -/
theorem C48_within_pass (nPixels : Nat) (aim : ℚ) (starting : Option (List Int)) (badHv : Option (List Bool))
    (calls : List (Nat × List (List ℚ))) (n : Nat) (amp : List (List ℚ)) (i : Nat) (sp sp' : Sp) :
    let m := (processAll (newMatcher nPixels aim starting badHv) calls).1
    m.globalStage ≠ 1 → m.sps[i]? = some sp → (process m n amp).1.sps[i]? = some sp' →
      sp.stage ≤ sp'.stage ∧ (sp.stage = 3 → sp'.dac = sp.dac) := by
  intro m hg h1 h2
  obtain ⟨s1, -⟩ := new_stage nPixels aim starting badHv
  obtain ⟨hs, -, -⟩ := reachable (newMatcher nPixels aim starting badHv) calls (fun sp h => by rw [s1 sp h]; omega) (by decide : (0 : Nat) ≤ 3)
  have hst : sp.stage ≤ 3 := hs sp (List.mem_of_getElem? h1)
  obtain ⟨x, hx, hc⟩ := process_change m n amp i sp' h2
  rw [h1] at hx
  cases hx
  have hseen : seen m sp = sp := by simp [seen, hg]
  cases hc with
  | same => exact ⟨le_refl _, fun _ => rfl⟩
  | reset => rw [hseen]; exact ⟨le_refl _, fun _ => rfl⟩
  | step => rw [hseen]; exact ⟨(stepAt_stage _ _ _ _ hst).1, (stepAt_stage _ _ _ _ hst).2.2⟩
  | spoil => rw [hseen]; exact ⟨(stepAt_stage _ _ _ _ hst).1, fun _ => rfl⟩

/-- C48: completion is reported only after two complete passes: at two different earlier moments, the first at the end of the first pass, all
superpixels were finished. -/
theorem C48_two_passes (nPixels : Nat) (aim : ℚ) (starting : Option (List Int)) (badHv : Option (List Bool))
    (calls : List (Nat × List (List ℚ))) (n : Nat) (amp : List (List ℚ)) (dacs : List Int) :
    let m := newMatcher nPixels aim starting badHv
    (process (processAll m calls).1 n amp).2 = .ok (dacs, true) →
    ∃ i j, 0 < i ∧ i < j ∧ j ≤ calls.length ∧ (stateAfter m calls i).globalStage = 1 ∧ AllFinished (stateAfter m calls i) ∧
      (stateAfter m calls j).globalStage = 3 ∧ AllFinished (stateAfter m calls j) := by
  intro m h
  have hg0 : m.globalStage = 0 := rfl
  have hst : ∀ sp ∈ m.sps, sp.stage ≤ 3 := fun sp h => by rw [(new_stage nPixels aim starting badHv).1 sp h]; omega
  have key : ∀ calls : List (Nat × List (List ℚ)),
      ((processAll m calls).1.globalStage ≥ 1 → ∃ i, 0 < i ∧ i ≤ calls.length ∧ (stateAfter m calls i).globalStage = 1 ∧ AllFinished (stateAfter m calls i)) ∧
      ((processAll m calls).1.globalStage = 3 → ∃ i j, 0 < i ∧ i < j ∧ j ≤ calls.length ∧ (stateAfter m calls i).globalStage = 1 ∧
        AllFinished (stateAfter m calls i) ∧ (stateAfter m calls j).globalStage = 3 ∧ AllFinished (stateAfter m calls j)) := by
    intro calls
    induction calls using List.reverseRecOn with
    | nil => exact ⟨fun h => by simp [processAll, hg0] at h, fun h => by simp [processAll, hg0] at h⟩
    | append_singleton calls c ih =>
      obtain ⟨n, a⟩ := c
      have hlast : (processAll m (calls ++ [(n, a)])).1 = (process (processAll m calls).1 n a).1 := by
        rw [processAll_append]; rfl
      have hpre : ∀ i ≤ calls.length, stateAfter m (calls ++ [(n, a)]) i = stateAfter m calls i := by
        intro i hi
        unfold stateAfter
        rw [List.take_append_of_le_length hi]
      have hend : stateAfter m (calls ++ [(n, a)]) (calls.length + 1) = (process (processAll m calls).1 n a).1 := by
        unfold stateAfter
        rw [List.take_of_length_le (by simp), hlast]
      have hself : stateAfter m calls calls.length = (processAll m calls).1 := by
        unfold stateAfter; rw [List.take_of_length_le (le_refl _)]
      have lift1 : (∃ i, 0 < i ∧ i ≤ calls.length ∧ (stateAfter m calls i).globalStage = 1 ∧ AllFinished (stateAfter m calls i)) →
          ∃ i, 0 < i ∧ i ≤ (calls ++ [(n, a)]).length ∧ (stateAfter m (calls ++ [(n, a)]) i).globalStage = 1 ∧
            AllFinished (stateAfter m (calls ++ [(n, a)]) i) := by
        rintro ⟨i, h0, h1, h2, h3⟩
        exact ⟨i, h0, by simp; omega, by rw [hpre i h1]; exact h2, by rw [hpre i h1]; exact h3⟩
      have hle := (reachable m calls hst (by omega)).2.1
      rw [hlast]
      rcases process_global (processAll m calls).1 n a hle with hsame | ⟨h1, h2⟩ | ⟨hstep, hall⟩
      · rw [hsame]
        refine ⟨fun h => lift1 (ih.1 h), fun h => ?_⟩
        obtain ⟨i, j, a1, a2, a3, a4, a5, a6, a7⟩ := ih.2 h
        exact ⟨i, j, a1, a2, by simp; omega, by rw [hpre i (by omega)]; exact a4, by rw [hpre i (by omega)]; exact a5,
          by rw [hpre j a3]; exact a6, by rw [hpre j a3]; exact a7⟩
      · exact ⟨fun _ => lift1 (ih.1 (by omega)), fun h => by omega⟩
      · rcases hstep with ⟨h1, h2⟩ | ⟨h1, h2⟩
        · refine ⟨fun _ => ⟨calls.length + 1, by omega, by simp, by rw [hend]; exact h2, by rw [hend]; exact hall⟩, fun h => by omega⟩
        · obtain ⟨i, a1, a2, a3, a4⟩ := ih.1 (by omega)
          refine ⟨fun _ => lift1 ⟨i, a1, a2, a3, a4⟩, fun _ => ?_⟩
          exact ⟨i, calls.length + 1, a1, by omega, by simp, by rw [hpre i a2]; exact a3, by rw [hpre i a2]; exact a4,
            by rw [hend]; exact h2, by rw [hend]; exact hall⟩
  refine (key calls).2 ?_
  rcases process_ok_inv _ n amp _ h with ⟨hg, -, -⟩ | ⟨-, -, hr⟩
  · exact hg
  · injection hr with h1 h2; cases h2

/-- C48: once completion has been reported, every later call (with a number of pixels divisible by 4) reports completion with the same table. -/
theorem C48_final (m : Matcher) (n : Nat) (amp : List (List ℚ)) (dacs : List Int) (h : (process m n amp).2 = .ok (dacs, true))
    (calls : List (Nat × List (List ℚ))) (hc : ∀ c ∈ calls, c.1 % 4 = 0) :
    (processAll (process m n amp).1 calls).2 = calls.map fun _ => .ok (dacs, true) := by
  rcases process_ok_inv m n amp _ h with ⟨hg, he, hr⟩ | ⟨-, -, hr⟩
  · rw [he]
    injection hr with hr _
    subst hr
    have one : ∀ c : Nat × List (List ℚ), c.1 % 4 = 0 → process m c.1 c.2 = (m, .ok (m.sps.map Sp.dac, true)) := by
      intro c hc
      unfold process
      rw [if_neg (by omega)]
      have : resetIfDue m = m := (resetIfDue_const m).2.2.2.1 (by omega)
      simp only [this, if_pos hg]
    have : ∀ calls : List (Nat × List (List ℚ)), (∀ c ∈ calls, c.1 % 4 = 0) →
        (processAll m calls).2 = calls.map fun _ => .ok (m.sps.map Sp.dac, true) := by
      intro calls
      induction calls with
      | nil => intro _; rfl
      | cons c calls ih =>
        intro hc
        have hp := one c (hc c (by simp))
        obtain ⟨n', a'⟩ := c
        simp only [processAll, hp, List.map_cons, ih fun c h => hc c (by simp [h])]
    exact this calls hc
  · injection hr with h1 h2; cases h2

/-! ## C49 -/

theorem sum_four (l : List ℚ) (k : Nat) : l.getD k 0 + l.getD (k + 1) 0 + l.getD (k + 2) 0 + l.getD (k + 3) 0 = ((l.drop k).take 4).sum := by
  have hg : ∀ j, l.getD (k + j) 0 = (l.drop k).getD j 0 := fun j => by simp [List.getD_eq_getElem?_getD, List.getElem?_drop]
  have h0 := hg 0
  rw [Nat.add_zero] at h0
  rw [h0, hg 1, hg 2, hg 3]
  match l.drop k with
  | [] => simp
  | [a] => simp
  | [a, b] => simp
  | [a, b, c] => simp; ring
  | a :: b :: c :: d :: l => simp; ring

/-- the averages of the matcher are the means over events and pixels -/
theorem spAverage_mean (amp : List (List ℚ)) (hne : amp ≠ []) (i : Nat) (v : ℚ) : spAverage amp i = v ↔ MeanAmplitude amp i v := by
  have hl : ((4 * amp.length : Nat) : ℚ) ≠ 0 := by
    have := List.length_pos_iff.2 hne
    exact_mod_cast (by omega : 4 * amp.length ≠ 0)
  unfold spAverage MeanAmplitude
  rw [div_eq_iff hl]
  simp only [sum_four]
  push_cast
  exact Iff.rfl

theorem spAverage_frame (resp : Nat → Int → ℚ) (m : Matcher) (i : Nat) (sp : Sp) (h : m.sps[i]? = some sp) :
    spAverage (frame resp m) i = resp i sp.dac := by
  have hi := (List.getElem?_eq_some_iff.1 h).1
  have hg : ∀ j < 4, ((List.range (4 * m.sps.length)).map fun p => resp (p / 4) ((m.sps.map Sp.dac).getD (p / 4) 0)).getD (4 * i + j) 0 = resp i sp.dac := by
    intro j hj
    have hl : 4 * i + j < 4 * m.sps.length := by omega
    have hd : (4 * i + j) / 4 = i := by omega
    simp [List.getD_eq_getElem?_getD, List.getElem?_range hl, hd, List.getElem?_map, h]
  unfold spAverage frame
  simp only [List.map_cons, List.map_nil, List.sum_cons, List.sum_nil, List.length_singleton]
  have h0 := hg 0 (by omega)
  rw [Nat.add_zero] at h0
  rw [h0, hg 1 (by omega), hg 2 (by omega), hg 3 (by omega)]
  push_cast
  ring

theorem mean_frame (resp : Nat → Int → ℚ) (m : Matcher) (i : Nat) (sp : Sp) (h : m.sps[i]? = some sp) : MeanAmplitude (frame resp m) i (resp i sp.dac) :=
  (spAverage_mean _ (by simp [frame]) _ _).1 (spAverage_frame resp m i sp h)

/-- the course of one unmasked superpixel with response `f`, started at 100 -/
def course (f : Int → ℚ) (aim : ℚ) : Nat → Sp
  | 0 => ⟨100, 100, 0, 0⟩
  | k + 1 => stepSp k false (distanceOf aim (f (course f aim k).dac)) (directionOf aim (f (course f aim k).dac)) (course f aim k)

theorem loop_uniform (f : Int → ℚ) (aim : ℚ) (h : ∀ k, (course f aim k).stage ≠ 3) (k : Nat) :
    loopState (fun _ => f) (newMatcher 2048 aim none none) k =
      ⟨aim, List.replicate 512 false, 0, k, List.replicate 512 (course f aim k)⟩ ∧
    loopResult (fun _ => f) (newMatcher 2048 aim none none) k = .ok (List.replicate 512 (course f aim (k + 1)).dac, false) := by
  have hlen : (newMatcher 2048 aim none none).sps.length = 512 := by simp [newMatcher, -List.reduceReplicate]
  have one : ∀ k, process ⟨aim, List.replicate 512 false, 0, k, List.replicate 512 (course f aim k)⟩ 2048
      (frame (fun _ => f) ⟨aim, List.replicate 512 false, 0, k, List.replicate 512 (course f aim k)⟩) =
      (⟨aim, List.replicate 512 false, 0, k + 1, List.replicate 512 (course f aim (k + 1))⟩,
        .ok (List.replicate 512 (course f aim (k + 1)).dac, false)) := by
    intro k
    set m : Matcher := ⟨aim, List.replicate 512 false, 0, k, List.replicate 512 (course f aim k)⟩ with hm
    have hl : m.sps.length = 512 := by rw [hm]; exact List.length_replicate
    have hml : m.mask.length = 512 := by rw [hm]; exact List.length_replicate
    have hreset : resetIfDue m = m := (resetIfDue_const m).2.2.2.1 (by decide : ((0 : Nat) ≠ 1))
    have hs : (stepped m (frame (fun _ => f) m)).sps = List.replicate 512 (course f aim (k + 1)) := by
      refine List.ext_getElem? fun i => ?_
      rw [stepped_get]
      by_cases hi : i < 512
      · have e1 : m.sps[i]? = some (course f aim k) := by rw [hm]; exact List.getElem?_replicate_of_lt hi
        rw [e1, List.getElem?_replicate_of_lt hi, Option.map_some, hreset]
        have hseen : seen m (course f aim k) = course f aim k := by unfold seen; rw [if_neg (by decide : ¬ ((0 : Nat) = 1))]
        rw [hseen]
        unfold stepAt
        rw [spAverage_frame _ _ _ _ e1]
        have hmask : m.mask.getD i false = false := by
          rw [hm, List.getD_eq_getElem?_getD]
          simp [List.getElem?_replicate_of_lt hi, -List.reduceReplicate]
        rw [hmask]
        rfl
      · rw [List.getElem?_eq_none (by omega), List.getElem?_eq_none (by rw [List.length_replicate]; omega)]
        rfl
    have hnf : (List.replicate 512 (course f aim (k + 1))).all (fun sp => sp.stage == 3) = false := by
      rw [List.all_eq_false]
      exact ⟨course f aim (k + 1), List.mem_replicate.2 ⟨by omega, rfl⟩, by simpa using h (k + 1)⟩
    rw [process_steps m 2048 _ (by simp [frame]) (by norm_num) (by decide : ((0 : Nat) ≠ 3)) (by omega) (by omega), if_pos hl]
    have hst : stepped m (frame (fun _ => f) m) = ⟨aim, List.replicate 512 false, 0, k + 1, List.replicate 512 (course f aim (k + 1))⟩ := by
      have e : stepped m (frame (fun _ => f) m) =
          ⟨aim, List.replicate 512 false, (if (stepped m (frame (fun _ => f) m)).sps.all (fun sp => sp.stage == 3) then 1 else 0), k + 1,
            (stepped m (frame (fun _ => f) m)).sps⟩ := by
        unfold stepped
        simp only [hreset]
        rfl
      rw [e, hs, hnf]
      rfl
    rw [hst]
    simp [-List.reduceReplicate]
  have st : ∀ k, loopState (fun _ => f) (newMatcher 2048 aim none none) k =
      ⟨aim, List.replicate 512 false, 0, k, List.replicate 512 (course f aim k)⟩ := by
    intro k
    induction k with
    | zero =>
      simp only [loopState, newMatcher, matcherMask, Option.getD_none, course, -List.reduceReplicate]
      rw [List.map_replicate]
    | succ k ih => simp only [loopState, ih, hlen, one]
  refine ⟨st k, ?_⟩
  unfold loopResult
  rw [st k, hlen, one]

/-- C49 is false: with a strictly decreasing response of every superpixel the procedure can run forever. At DAC 100 and 110 the amplitude is as
far above the aim as below it, so the DAC alternates between them. -/
theorem C49_false : ∃ f : Int → ℚ, (∀ d d', d < d' → f d' < f d) ∧
    ∀ k, ∃ dacs, loopResult (fun _ => f) (newMatcher 2048 5 none none) k = .ok (dacs, false) := by
  refine ⟨fun d => 5 + (105 - d) / 5, ?_, ?_⟩
  · intro d d' h
    have : (d : ℚ) < d' := by exact_mod_cast h
    simp only
    linarith
  · intro k
    refine ⟨_, (loop_uniform _ 5 ?_ k).2⟩
    have key : ∀ k, (course (fun d => 5 + (105 - d) / 5) 5 k).stage = 0 ∧
        ((course (fun d => 5 + (105 - d) / 5) 5 k).dac = 100 ∨ (course (fun d => 5 + (105 - d) / 5) 5 k).dac = 110) ∧
        (k = 0 ∨ (course (fun d => 5 + (105 - d) / 5) 5 k).prevDist = 1 / 25) := by
      intro k
      induction k with
      | zero => exact ⟨rfl, Or.inl rfl, Or.inl rfl⟩
      | succ k ih =>
        obtain ⟨h1, h2, h3⟩ := ih
        have hd : distanceOf 5 ((5 : ℚ) + (105 - ((course (fun d => 5 + (105 - d) / 5) 5 k).dac : ℚ)) / 5) = 1 / 25 := by
          rcases h2 with h2 | h2 <;> rw [h2] <;> norm_num [distanceOf]
        have hp : (if k = 0 then (1 / 25 : ℚ) else (course (fun d => 5 + (105 - d) / 5) 5 k).prevDist) = 1 / 25 := by
          split
          · rfl
          · rcases h3 with h3 | h3
            · contradiction
            · exact h3
        have hstep : course (fun d => 5 + (105 - d) / 5) 5 (k + 1) =
            ⟨if (course (fun d => 5 + (105 - d) / 5) 5 k).dac = 100 then 110 else 100, (course (fun d => 5 + (105 - d) / 5) 5 k).dac, 1 / 25, 0⟩ := by
          conv_lhs => unfold course
          unfold stepSp nextDac
          simp only [hd, h1, hp, lt_irrefl, if_false]
          rcases h2 with h2 | h2 <;> rw [h2] <;> norm_num [directionOf, npSign]
        rw [hstep]
        refine ⟨rfl, ?_, Or.inr rfl⟩
        simp only
        split <;> simp
    intro k
    rw [(key k).1]
    decide

/-- C49 is false also without oscillation: a superpixel that meets the aim exactly is never finished. -/
theorem C49_exact_false (f : Int → ℚ) (h : f 100 = 5) (k : Nat) :
    loopResult (fun _ => f) (newMatcher 2048 5 none none) k = .ok (List.replicate 512 100, false) := by
  have key : ∀ k, (course f 5 k).stage = 0 ∧ (course f 5 k).dac = 100 ∧ (course f 5 k).prevDist = 0 := by
    intro k
    induction k with
    | zero => exact ⟨rfl, rfl, rfl⟩
    | succ k ih =>
      obtain ⟨h1, h2, h3⟩ := ih
      unfold course
      simp [stepSp, nextDac, h1, h2, h3, h, distanceOf, directionOf, npSign]
  have := (loop_uniform f 5 (fun k => by rw [(key k).1]; decide) k).2
  rw [(key (k + 1)).2.1] at this
  exact this

/-! ### termination for generic responses -/

/-- distance of the response from the aim -/
def distAt (aim : ℚ) (f : Int → ℚ) (d : Int) : ℚ := distanceOf aim (f d)

/-- number of allowed DAC values that come closer to the aim than `x` -/
def rank (aim : ℚ) (f : Int → ℚ) (x : ℚ) : Nat := ((Finset.Icc (10 : Int) 255).filter fun d => distAt aim f d < x).card

theorem rank_le (aim : ℚ) (f : Int → ℚ) (x : ℚ) : rank aim f x ≤ 246 := by
  unfold rank
  refine le_trans (Finset.card_filter_le _ _) ?_
  simp

theorem rank_lt (aim : ℚ) (f : Int → ℚ) (d : Int) (x : ℚ) (hd : Allowed d) (h : distAt aim f d < x) :
    rank aim f (distAt aim f d) < rank aim f x := by
  unfold rank
  refine Finset.card_lt_card ⟨?_, ?_⟩
  · intro e he
    rw [Finset.mem_filter] at he ⊢
    exact ⟨he.1, lt_trans he.2 h⟩
  · intro hsub
    have : d ∈ (Finset.Icc (10 : Int) 255).filter fun e => distAt aim f e < x := by
      rw [Finset.mem_filter, Finset.mem_Icc]; exact ⟨hd, h⟩
    have := hsub this
    rw [Finset.mem_filter] at this
    exact lt_irrefl _ this.2

/-- bound on the remaining calls for a superpixel -/
def togo (aim : ℚ) (f : Int → ℚ) (sp : Sp) : Nat := (3 - sp.stage) * 300 + rank aim f sp.prevDist + 1

/-- a superpixel between two calls of a pass: finished, or just moved away from a DAC value whose distance is remembered -/
def Moving (aim : ℚ) (f : Int → ℚ) (sp : Sp) : Prop :=
  Allowed sp.dac ∧ Allowed sp.prevDac ∧ (sp.stage = 3 ∨ (sp.stage < 3 ∧ sp.prevDist = distAt aim f sp.prevDac ∧ sp.prevDac ≠ sp.dac))

theorem step_moving (aim : ℚ) (f : Int → ℚ) (it : Nat) (masked : Bool) (sp : Sp) (hit : it ≠ 0)
    (hdir : directionOf aim (f sp.dac) = 1 ∨ directionOf aim (f sp.dac) = -1)
    (hdist : ∀ d d', Allowed d → Allowed d' → d ≠ d' → distAt aim f d ≠ distAt aim f d') (h : Moving aim f sp) :
    Moving aim f (stepSp it masked (distanceOf aim (f sp.dac)) (directionOf aim (f sp.dac)) sp) ∧
    ((stepSp it masked (distanceOf aim (f sp.dac)) (directionOf aim (f sp.dac)) sp).stage = 3 ∨
      (sp.stage ≠ 3 ∧ togo aim f (stepSp it masked (distanceOf aim (f sp.dac)) (directionOf aim (f sp.dac)) sp) < togo aim f sp)) := by
  obtain ⟨h1, h2, h3⟩ := h
  have hall := stepSp_allowed it masked (distanceOf aim (f sp.dac)) (directionOf aim (f sp.dac)) sp ⟨h1, h2⟩
  refine ⟨⟨hall.1, hall.2, ?_⟩, ?_⟩
  all_goals
    unfold stepSp nextDac
    simp only [if_neg hit]
    rcases h3 with h3 | ⟨h3, h4, h5⟩
    · rw [if_pos h3]; exact Or.inl h3
    · have hs3 : sp.stage ≠ 3 := by omega
      rw [if_neg hs3]
      cases masked with
      | true => exact Or.inl rfl
      | false =>
        simp only [Bool.false_eq_true, if_false]
        by_cases hlt : sp.prevDist < distanceOf aim (f sp.dac)
        · rw [if_pos hlt]
          simp only
          first
          | (by_cases h2 : sp.stage + 1 = 3
             · exact Or.inl h2
             · refine Or.inr ⟨by omega, rfl, fun he => h5 he.symm⟩)
          | (by_cases h2 : sp.stage + 1 = 3
             · exact Or.inl h2
             · refine Or.inr ⟨hs3, ?_⟩
               have := rank_le aim f (distanceOf aim (f sp.dac))
               unfold togo
               simp only
               have : (3 - sp.stage) * 300 = (3 - (sp.stage + 1)) * 300 + 300 := by omega
               omega)
        · rw [if_neg hlt]
          have hmove : ∀ nx, (nx = if sp.stage = 0 then sp.dac + 10 * directionOf aim (f sp.dac)
              else if sp.stage = 1 then sp.dac + 5 * directionOf aim (f sp.dac)
              else if sp.stage = 2 then sp.dac + 1 * directionOf aim (f sp.dac) else sp.dac) → sp.dac ≠ nx := by
            intro nx hnx
            rw [hnx]
            rcases hdir with hd | hd <;> rw [hd] <;> split_ifs <;> omega
          have hmv := hmove _ rfl
          generalize (if sp.stage = 0 then sp.dac + 10 * directionOf aim (f sp.dac)
              else if sp.stage = 1 then sp.dac + 5 * directionOf aim (f sp.dac)
              else if sp.stage = 2 then sp.dac + 1 * directionOf aim (f sp.dac) else sp.dac) = nx at hmv
          by_cases hhi : nx > 255
          · rw [if_pos hhi]; exact Or.inl rfl
          · rw [if_neg hhi]
            by_cases hlo : nx < 10
            · rw [if_pos hlo]; exact Or.inl rfl
            · rw [if_neg hlo]
              simp only
              first
              | exact Or.inr ⟨h3, rfl, hmv⟩
              | (refine Or.inr ⟨hs3, ?_⟩
                 have hstrict : distAt aim f sp.dac < sp.prevDist := by
                   refine lt_of_le_of_ne (not_lt.1 hlt) ?_
                   rw [h4]
                   exact fun he => hdist sp.dac sp.prevDac h1 h2 (Ne.symm h5) he
                 have := rank_lt aim f sp.dac sp.prevDist h1 hstrict
                 unfold togo
                 simp only
                 unfold distAt at this
                 omega)

theorem first_moving (aim : ℚ) (f : Int → ℚ) (masked : Bool) (sp : Sp) (hdir : directionOf aim (f sp.dac) = 1 ∨ directionOf aim (f sp.dac) = -1)
    (h1 : Allowed sp.dac) (h2 : Allowed sp.prevDac) (h3 : sp.stage < 3) :
    Moving aim f (stepSp 0 masked (distanceOf aim (f sp.dac)) (directionOf aim (f sp.dac)) sp) := by
  have hall := stepSp_allowed 0 masked (distanceOf aim (f sp.dac)) (directionOf aim (f sp.dac)) sp ⟨h1, h2⟩
  refine ⟨hall.1, hall.2, ?_⟩
  unfold stepSp nextDac
  simp only [if_true, lt_irrefl, if_false]
  rw [if_neg (by omega)]
  cases masked with
  | true => exact Or.inl rfl
  | false =>
    simp only [Bool.false_eq_true, if_false]
    have hmove : ∀ nx, (nx = if sp.stage = 0 then sp.dac + 10 * directionOf aim (f sp.dac)
        else if sp.stage = 1 then sp.dac + 5 * directionOf aim (f sp.dac)
        else if sp.stage = 2 then sp.dac + 1 * directionOf aim (f sp.dac) else sp.dac) → sp.dac ≠ nx := by
      intro nx hnx
      rw [hnx]
      rcases hdir with hd | hd <;> rw [hd] <;> split_ifs <;> omega
    have hmv := hmove _ rfl
    generalize (if sp.stage = 0 then sp.dac + 10 * directionOf aim (f sp.dac)
        else if sp.stage = 1 then sp.dac + 5 * directionOf aim (f sp.dac)
        else if sp.stage = 2 then sp.dac + 1 * directionOf aim (f sp.dac) else sp.dac) = nx at hmv
    by_cases hhi : nx > 255
    · rw [if_pos hhi]; exact Or.inl rfl
    · rw [if_neg hhi]
      by_cases hlo : nx < 10
      · rw [if_pos hlo]; exact Or.inl rfl
      · rw [if_neg hlo]
        exact Or.inr ⟨h3, rfl, hmv⟩

theorem stepped_global (m : Matcher) (amp : List (List ℚ)) :
    ((∀ sp ∈ (stepped m amp).sps, sp.stage = 3) → (stepped m amp).globalStage = (resetIfDue m).globalStage + 1) ∧
    ((stepped m amp).globalStage = (resetIfDue m).globalStage ∨ (stepped m amp).globalStage = (resetIfDue m).globalStage + 1) ∧
    (stepped m amp).iteration = (resetIfDue m).iteration + 1 := by
  refine ⟨fun h => ?_, ?_, rfl⟩
  · unfold stepped at h ⊢
    simp only at h ⊢
    rw [if_pos]
    rw [List.all_eq_true]
    intro sp hsp
    simpa using h sp hsp
  · unfold stepped
    simp only
    split
    · exact Or.inr rfl
    · exact Or.inl rfl

/-- a pass ends -/
theorem pass_ends (nPixels : Nat) (aim : ℚ) (amp : Nat → List (List ℚ)) (st : Nat → Matcher) (resp : Nat → Int → ℚ)
    (hst : ∀ k, st (k + 1) = (process (st k) nPixels (amp k)).1) (hne : ∀ k, amp k ≠ []) (hpix : nPixels % 4 = 0)
    (hresp : ∀ k i sp, (st k).sps[i]? = some sp → spAverage (amp k) i = resp i sp.dac)
    (hdir : ∀ i d, Allowed d → directionOf aim (resp i d) = 1 ∨ directionOf aim (resp i d) = -1)
    (hdist : ∀ i d d', Allowed d → Allowed d' → d ≠ d' → distAt aim (resp i) d ≠ distAt aim (resp i) d')
    (k0 : Nat) (haim : ∀ k, (st k).aim = aim) (hlen : ∀ k, (st k).sps.length ≤ nPixels / 4) (hmask : ∀ k, (st k).sps.length ≤ (st k).mask.length)
    (hall : DacsAllowed (st k0)) (hg : (resetIfDue (st k0)).globalStage = 0 ∨ (resetIfDue (st k0)).globalStage = 2)
    (hit : (resetIfDue (st k0)).iteration = 0) (hstage : ∀ sp ∈ (resetIfDue (st k0)).sps, sp.stage < 3) :
    ∃ k, (st k).globalStage = (resetIfDue (st k0)).globalStage + 1 ∧ DacsAllowed (st k) := by
  set g := (resetIfDue (st k0)).globalStage with hgdef
  have hallk : ∀ j, DacsAllowed (st (k0 + j)) := by
    intro j
    induction j with
    | zero => exact hall
    | succ j ih => rw [← Nat.add_assoc, hst]; exact process_allowed _ _ _ ih
  have hne3 : (st k0).globalStage ≠ 3 := by
    intro h
    rw [(resetIfDue_const (st k0)).2.2.2.1 (by omega)] at hgdef
    omega
  by_contra hno
  push Not at hno
  have hno' : ∀ j, (st (k0 + j)).globalStage ≠ g + 1 := fun j h => hno (k0 + j) h (hallk j)
  have key : ∀ j, (st (k0 + 1 + j)).globalStage = g ∧ (st (k0 + 1 + j)).iteration = j + 1 ∧
      ∀ i sp, (st (k0 + 1 + j)).sps[i]? = some sp → Moving aim (resp i) sp ∧ (sp.stage = 3 ∨ togo aim (resp i) sp + j ≤ 1147) := by
    intro j
    induction j with
    | zero =>
      have hp := process_steps (st k0) nPixels (amp k0) (hne _) hpix hne3 (hmask k0) (hlen k0)
      have e : st (k0 + 1) = stepped (st k0) (amp k0) := by rw [hst, hp]
      obtain ⟨-, g2, g3⟩ := stepped_global (st k0) (amp k0)
      refine ⟨?_, ?_, ?_⟩
      · rw [Nat.add_zero]
        rcases g2 with g2 | g2
        · rw [e, g2]
        · exact absurd (by rw [e, g2]) (hno' 1)
      · rw [Nat.add_zero, e, g3, hit]
      · intro i sp hsp
        rw [Nat.add_zero, e, stepped_get] at hsp
        cases hs : (st k0).sps[i]? with
        | none => rw [hs] at hsp; cases hsp
        | some sp0 =>
          rw [hs, Option.map_some, Option.some.injEq] at hsp
          have hseen : seen (st k0) sp0 ∈ (resetIfDue (st k0)).sps := by
            rw [resetIfDue_sps]; exact List.mem_map.2 ⟨sp0, List.mem_of_getElem? hs, rfl⟩
          have hd : (seen (st k0) sp0).dac = sp0.dac ∧ (seen (st k0) sp0).prevDac = sp0.prevDac := by
            unfold seen; split <;> exact ⟨rfl, rfl⟩
          have hal := hall sp0 (List.mem_of_getElem? hs)
          have haim' : (resetIfDue (st k0)).aim = aim := by rw [(resetIfDue_const (st k0)).2.1, haim]
          have hm : Moving aim (resp i) sp := by
            rw [← hsp]
            unfold stepAt
            rw [hit, haim', hresp k0 i sp0 hs, ← hd.1]
            exact first_moving aim (resp i) _ _ (by rw [hd.1]; exact hdir i _ hal.1) (by rw [hd.1]; exact hal.1) (by rw [hd.2]; exact hal.2)
              (hstage _ hseen)
          refine ⟨hm, Or.inr ?_⟩
          unfold togo
          have := rank_le aim (resp i) sp.prevDist
          omega
    | succ j ih =>
      obtain ⟨i1, i2, i3⟩ := ih
      set m := st (k0 + 1 + j) with hm
      have hreset : resetIfDue m = m := (resetIfDue_const m).2.2.2.1 (by omega)
      have hp := process_steps m nPixels (amp (k0 + 1 + j)) (hne _) hpix (by omega) (hmask _) (hlen _)
      have e : st (k0 + 1 + (j + 1)) = stepped m (amp (k0 + 1 + j)) := by
        rw [show k0 + 1 + (j + 1) = k0 + 1 + j + 1 by omega, hst, ← hm, hp]
      obtain ⟨-, g2, g3⟩ := stepped_global m (amp (k0 + 1 + j))
      rw [hreset] at g2 g3
      refine ⟨?_, ?_, ?_⟩
      · rcases g2 with g2 | g2
        · rw [e, g2, i1]
        · exact absurd (show (st (k0 + (1 + (j + 1)))).globalStage = g + 1 by
            rw [show k0 + (1 + (j + 1)) = k0 + 1 + (j + 1) by omega, e, g2, i1]) (hno' _)
      · rw [e, g3, i2]
      · intro i sp hsp
        rw [e, stepped_get] at hsp
        cases hs : m.sps[i]? with
        | none => rw [hs] at hsp; cases hsp
        | some sp0 =>
          rw [hs, Option.map_some, Option.some.injEq, hreset] at hsp
          have hseen : seen m sp0 = sp0 := by unfold seen; rw [if_neg (by omega)]
          obtain ⟨m1, m2⟩ := i3 i sp0 hs
          rw [hseen] at hsp
          unfold stepAt at hsp
          rw [haim (k0 + 1 + j), hresp (k0 + 1 + j) i sp0 hs] at hsp
          obtain ⟨q1, q2⟩ := step_moving aim (resp i) m.iteration (m.mask.getD i false) sp0 (by omega) (hdir i _ m1.1) (hdist i) m1
          rw [hsp] at q1 q2
          refine ⟨q1, ?_⟩
          rcases q2 with q2 | ⟨q2, q3⟩
          · exact Or.inl q2
          · rcases m2 with m2 | m2
            · exact absurd m2 q2
            · exact Or.inr (by omega)
  obtain ⟨a1, a2, a3⟩ := key 1147
  obtain ⟨b1, b2, b3⟩ := key 1148
  set m := st (k0 + 1 + 1147) with hm
  have hreset : resetIfDue m = m := (resetIfDue_const m).2.2.2.1 (by omega)
  have hp := process_steps m nPixels (amp (k0 + 1 + 1147)) (hne _) hpix (by omega) (hmask _) (hlen _)
  have e : st (k0 + 1 + 1148) = stepped m (amp (k0 + 1 + 1147)) := by
    rw [show k0 + 1 + 1148 = k0 + 1 + 1147 + 1 by omega, hst, ← hm, hp]
  have hfin : ∀ sp ∈ (stepped m (amp (k0 + 1 + 1147))).sps, sp.stage = 3 := by
    intro sp hsp
    obtain ⟨i, hi⟩ := List.getElem?_of_mem hsp
    rw [← e] at hi
    rcases (b3 i sp hi).2 with h | h
    · exact h
    · unfold togo at h; omega
  have := (stepped_global m (amp (k0 + 1 + 1147))).1 hfin
  rw [hreset, ← e, b1, a1] at this
  omega

/-- C49, what holds (missing: responses that meet the aim exactly or come equally close to it at two DAC values, and responses that change in
time): if the average amplitude of each superpixel is a function of its DAC value which never equals the aim and never has the same distance
from it at two allowed DAC values, then completion is reported after finitely many calls. -/
theorem C49_partial (nPixels : Nat) (aim : ℚ) (starting : Option (List Int)) (badHv : Option (List Bool)) (amp : Nat → List (List ℚ))
    (st : Nat → Matcher) (resp : Nat → Int → ℚ) (h0 : st 0 = newMatcher nPixels aim starting badHv)
    (hst : ∀ k, st (k + 1) = (process (st k) nPixels (amp k)).1) (hne : ∀ k, amp k ≠ []) (hpix : nPixels % 4 = 0)
    (hstart : ∀ dacs, starting = some dacs → dacs.length = nPixels / 4 ∧ ∀ d ∈ dacs, 10 ≤ d ∧ d ≤ 255)
    (hmask : ∀ bad, badHv = some bad → nPixels / 4 ≤ bad.length)
    (hresp : ∀ k i sp, (st k).sps[i]? = some sp → MeanAmplitude (amp k) i (resp i sp.dac)) (haim : aim ≠ 0)
    (hmiss : ∀ i d, 10 ≤ d → d ≤ 255 → resp i d ≠ aim)
    (hdist : ∀ i d d', 10 ≤ d → d ≤ 255 → 10 ≤ d' → d' ≤ 255 → d ≠ d' → |resp i d - aim| ≠ |resp i d' - aim|) :
    ∃ k dacs, (process (st k) nPixels (amp k)).2 = .ok (dacs, true) := by
  replace hresp := fun k i sp h => (spAverage_mean _ (hne k) _ _).2 (hresp k i sp h)
  have hlen0 : (st 0).sps.length = nPixels / 4 := by
    rw [h0]
    cases starting with
    | none => simp [newMatcher]
    | some dacs => simp [newMatcher, (hstart dacs rfl).1]
  have hmask0 : nPixels / 4 ≤ (st 0).mask.length := by
    rw [h0]
    cases badHv with
    | none => simp [newMatcher, matcherMask]
    | some bad => exact hmask bad rfl
  have hlen : ∀ k, (st k).sps.length = nPixels / 4 := by
    intro k
    induction k with
    | zero => exact hlen0
    | succ k ih => rw [hst, process_length, ih]
  have hconst : ∀ k, (st k).mask = (st 0).mask ∧ (st k).aim = aim := by
    intro k
    induction k with
    | zero => exact ⟨rfl, by rw [h0]; rfl⟩
    | succ k ih =>
      obtain ⟨c1, c2⟩ := process_const (st k) nPixels (amp k)
      rw [hst]
      exact ⟨by rw [c1, ih.1], by rw [c2, ih.2]⟩
  have hall0 : DacsAllowed (st 0) := by
    rw [h0]
    intro sp hsp
    obtain ⟨d, hd, rfl⟩ := List.mem_map.1 hsp
    have : Allowed d := by
      cases starting with
      | none => rw [Option.getD_none, List.mem_replicate] at hd; rw [hd.2]; unfold Allowed; omega
      | some l => exact (hstart l rfl).2 d hd
    exact ⟨this, this⟩
  have hdir : ∀ i d, Allowed d → directionOf aim (resp i d) = 1 ∨ directionOf aim (resp i d) = -1 := by
    intro i d hd
    unfold directionOf npSign
    rcases lt_trichotomy (resp i d - aim) 0 with h | h | h
    · right; rw [if_neg (not_lt.2 h.le), if_pos h]
    · exact absurd (sub_eq_zero.1 h) (hmiss i d hd.1 hd.2)
    · left; rw [if_pos h]
  have hdd : ∀ i d d', Allowed d → Allowed d' → d ≠ d' → distAt aim (resp i) d ≠ distAt aim (resp i) d' := by
    intro i d d' hd hd' hne he
    refine hdist i d d' hd.1 hd.2 hd'.1 hd'.2 hne ?_
    unfold distAt distanceOf at he
    rw [sq_eq_sq_iff_abs_eq_abs, abs_div, abs_div] at he
    exact (div_left_inj' (abs_ne_zero.2 haim)).1 he
  have hends := fun k0 => pass_ends nPixels aim amp st resp hst hne hpix hresp hdir hdd k0 (fun k => (hconst k).2) (fun k => (hlen k).le)
    (fun k => by rw [hlen k, (hconst k).1]; exact hmask0)
  obtain ⟨s0, g0⟩ := new_stage nPixels aim starting badHv
  have hr0 : resetIfDue (st 0) = st 0 := (resetIfDue_const (st 0)).2.2.2.1 (by rw [h0, g0]; omega)
  obtain ⟨k1, e1, a1⟩ := hends 0 hall0 (Or.inl (by rw [hr0, h0, g0])) (by rw [hr0, h0]; rfl)
    (by rw [hr0, h0]; intro sp hsp; rw [s0 sp hsp]; omega)
  rw [hr0, h0, g0] at e1
  obtain ⟨-, -, -, -, c5⟩ := resetIfDue_const (st k1)
  obtain ⟨r1, r2⟩ := c5 e1
  obtain ⟨k2, e2, -⟩ := hends k1 a1 (Or.inr r1) r2 (by
    rw [resetIfDue_sps]
    intro sp hsp
    obtain ⟨x, -, rfl⟩ := List.mem_map.1 hsp
    simp [seen, e1])
  rw [r1] at e2
  refine ⟨k2, (st k2).sps.map Sp.dac, ?_⟩
  unfold process
  rw [if_neg (by omega)]
  have : resetIfDue (st k2) = st k2 := (resetIfDue_const (st k2)).2.2.2.1 (by omega)
  simp only [this, if_pos e2]

/-- a camera in which every superpixel responds linearly; the aim is between two DAC values, closer to one of them -/
def linearResponse : Nat → Int → ℚ := fun _ d => 5 + (105 + 1 / 4 - d) / 5

theorem linear_completes (bad : Option (List Bool)) (hb : ∀ b, bad = some b → 512 ≤ b.length) :
    ∃ k dacs, loopResult linearResponse (newMatcher 2048 5 none bad) k = .ok (dacs, true) := by
  have hlen : (newMatcher 2048 5 none bad).sps.length = 512 := by simp [newMatcher, -List.reduceReplicate]
  suffices hs : ∃ k dacs, (process (loopState linearResponse (newMatcher 2048 5 none bad) k) 2048
      (frame linearResponse (loopState linearResponse (newMatcher 2048 5 none bad) k))).2 = .ok (dacs, true) by
    obtain ⟨k, dacs, h⟩ := hs
    refine ⟨k, dacs, ?_⟩
    unfold loopResult
    rw [hlen]
    exact h
  refine C49_partial 2048 5 none bad (fun k => frame linearResponse (loopState linearResponse (newMatcher 2048 5 none bad) k))
    (loopState linearResponse (newMatcher 2048 5 none bad)) linearResponse rfl
    (fun k => by simp only [loopState, hlen]) (fun k => by simp [frame]) (by norm_num) (fun _ h => by cases h) hb
    (fun k i sp h => mean_frame _ _ _ _ h) (by norm_num) ?_ ?_
  · intro _ d _ _ h
    unfold linearResponse at h
    have h4 : ((421 : ℤ) : ℚ) = ((4 * d : ℤ) : ℚ) := by push_cast; linarith
    have := Int.cast_injective h4
    omega
  · intro _ d d' _ _ _ _ hne h
    unfold linearResponse at h
    rw [abs_eq_abs] at h
    rcases h with h | h
    · refine hne ?_
      have : (d : ℚ) = d' := by linarith
      exact_mod_cast this
    · have h4 : ((421 : ℤ) : ℚ) = ((2 * (d + d') : ℤ) : ℚ) := by push_cast; linarith
      have := Int.cast_injective h4
      omega

/-- the case for `C49_partial` -/
example : ∃ k dacs, loopResult linearResponse (newMatcher 2048 5 none none) k = .ok (dacs, true) := linear_completes none fun _ h => by cases h

/-! ## C50 -/

/-- C50 is false for flags given per pixel: with the four pixels of superpixel 1 flagged (pixels 4 to 7), superpixel 1 is treated as good and
moved to 110, while the unflagged superpixels 4 to 7 are switched to 255. -/
theorem C50_false : ∃ (bad : List Bool) (amp : List (List ℚ)) (dacs : List Int), bad.length = 2048 ∧
    (∀ p, bad[p]? = some true ↔ p / 4 = 1) ∧ (process (newMatcher 2048 5 none (some bad)) 2048 amp).2 = .ok (dacs, false) ∧
    dacs[1]? = some 110 ∧ dacs[4]? = some 255 ∧ dacs[7]? = some 255 := by
  have hlen : (newMatcher 2048 5 none (some ((List.range 2048).map fun p => decide (p / 4 = 1)))).sps.length = 512 := by
    simp [newMatcher, -List.reduceReplicate]
  have hml : (newMatcher 2048 5 none (some ((List.range 2048).map fun p => decide (p / 4 = 1)))).mask.length = 2048 := by
    simp only [newMatcher, matcherMask]
    rw [List.length_map, List.length_range]
  have hp := process_steps (newMatcher 2048 5 none (some ((List.range 2048).map fun p => decide (p / 4 = 1)))) 2048 [List.replicate 2048 6]
    (List.cons_ne_nil _ _) (by norm_num) (by decide : ((0 : Nat) ≠ 3)) (by omega) (by omega)
  rw [if_pos hlen] at hp
  refine ⟨(List.range 2048).map fun p => decide (p / 4 = 1), [List.replicate 2048 6], _, by simp, ?_, by rw [hp], ?_⟩
  · intro p
    by_cases hlt : p < 2048
    · rw [List.getElem?_map, List.getElem?_range hlt, Option.map_some, Option.some.injEq, decide_eq_true_eq]
    · rw [List.getElem?_eq_none (by rw [List.length_map, List.length_range]; omega)]
      constructor
      · intro h; cases h
      · intro h; omega
  · have get : ∀ i < 512, (stepped (newMatcher 2048 5 none (some ((List.range 2048).map fun p => decide (p / 4 = 1)))) [List.replicate 2048 6]).sps[i]? =
        some (stepSp 0 (decide (i / 4 = 1)) (distanceOf 5 6) (directionOf 5 6) ⟨100, 100, 0, 0⟩) := by
      intro i hi
      have e : (newMatcher 2048 5 none (some ((List.range 2048).map fun p => decide (p / 4 = 1)))).sps[i]? = some ⟨100, 100, 0, 0⟩ := by
        simp only [newMatcher, Option.getD_none, List.getElem?_map]
        rw [List.getElem?_replicate_of_lt (by omega)]
        rfl
      rw [stepped_get, e, Option.map_some]
      have hr : resetIfDue (newMatcher 2048 5 none (some ((List.range 2048).map fun p => decide (p / 4 = 1)))) =
          newMatcher 2048 5 none (some ((List.range 2048).map fun p => decide (p / 4 = 1))) :=
        (resetIfDue_const _).2.2.2.1 (by decide : ((0 : Nat) ≠ 1))
      have hseen : seen (newMatcher 2048 5 none (some ((List.range 2048).map fun p => decide (p / 4 = 1)))) ⟨100, 100, 0, 0⟩ = ⟨100, 100, 0, 0⟩ := by
        unfold seen
        exact if_neg (by decide : ¬ ((0 : Nat) = 1))
      have hav : spAverage [List.replicate 2048 (6 : ℚ)] i = 6 := by
        unfold spAverage
        simp only [List.map_cons, List.map_nil, List.sum_cons, List.sum_nil, List.length_singleton, List.getD_eq_getElem?_getD]
        rw [List.getElem?_replicate_of_lt (by omega), List.getElem?_replicate_of_lt (by omega), List.getElem?_replicate_of_lt (by omega),
          List.getElem?_replicate_of_lt (by omega)]
        norm_num
      have hmask : (newMatcher 2048 5 none (some ((List.range 2048).map fun p => decide (p / 4 = 1)))).mask.getD i false = decide (i / 4 = 1) := by
        simp only [newMatcher, matcherMask, List.getD_eq_getElem?_getD, List.getElem?_map]
        rw [List.getElem?_range (by omega)]
        rfl
      rw [hr, hseen]
      unfold stepAt
      rw [hav, hmask]
      rfl
    refine ⟨?_, ?_, ?_⟩
    · rw [List.getElem?_map, get 1 (by omega)]; decide +kernel
    · rw [List.getElem?_map, get 4 (by omega)]; decide +kernel
    · rw [List.getElem?_map, get 7 (by omega)]; decide +kernel

/-- C50, what holds (missing: flags given per pixel): flags given per superpixel put every flagged superpixel to 255 in every table returned,
from the first call on. -/
theorem C50_flagged_partial (nPixels : Nat) (aim : ℚ) (starting : Option (List Int)) (bad : List Bool) (calls : List (Nat × List (List ℚ)))
    (hok : ∀ r ∈ (processAll (newMatcher nPixels aim starting (some bad)) calls).2, ∃ t, r = .ok t)
    (dacs : List Int) (fin : Bool) (hr : .ok (dacs, fin) ∈ (processAll (newMatcher nPixels aim starting (some bad)) calls).2)
    (i : Nat) (e : Int) (hb : bad[i]? = some true) (hd : dacs[i]? = some e) : e = 255 := by
  have key : ∀ (calls : List (Nat × List (List ℚ))) (m : Matcher), m.mask.getD i false = true → (m.globalStage = 3 → AllFinished m) →
      (∀ sp, m.sps[i]? = some sp → sp.stage = 3 → sp.dac = 255) → (∀ r ∈ (processAll m calls).2, ∃ t, r = .ok t) →
      .ok (dacs, fin) ∈ (processAll m calls).2 → e = 255 := by
    intro calls
    induction calls with
    | nil => intro m _ _ _ _ hr; cases hr
    | cons c calls ih =>
      obtain ⟨n, a⟩ := c
      intro m hm hfin hdac hok hr
      obtain ⟨r1, hr1⟩ := hok (process m n a).2 (by simp [processAll])
      have hok' : ∀ r ∈ (processAll (process m n a).1 calls).2, ∃ t, r = .ok t := fun r h => hok r (by simp [processAll, h])
      rcases process_ok_inv m n a _ hr1 with ⟨hg, he, -⟩ | ⟨hg, he, -⟩
      · rcases List.mem_cons.1 hr with hr | hr
        · rw [he] at hr
          injection hr with hr
          injection hr with hr _
          subst hr
          rw [List.getElem?_map, Option.map_eq_some_iff] at hd
          obtain ⟨sp, h1, rfl⟩ := hd
          exact hdac sp h1 (hfin hg sp (List.mem_of_getElem? h1))
        · refine ih _ ?_ ?_ ?_ hok' hr <;> rw [he]
          · exact hm
          · exact hfin
          · exact hdac
      · have hstep : ∀ sp', (stepped m a).sps[i]? = some sp' → sp'.stage = 3 ∧ sp'.dac = 255 := by
          intro sp' hsp'
          rw [stepped_get, Option.map_eq_some_iff] at hsp'
          obtain ⟨sp, h1, rfl⟩ := hsp'
          have hmask : (resetIfDue m).mask.getD i false = true := by rw [(resetIfDue_const m).1]; exact hm
          unfold stepAt stepSp nextDac
          rw [hmask]
          by_cases h3 : (seen m sp).stage = 3
          · rw [if_pos h3]
            refine ⟨h3, ?_⟩
            unfold seen at h3 ⊢
            split at h3
            · cases h3
            · rename_i hne
              rw [if_neg hne]
              exact hdac sp h1 h3
          · rw [if_neg h3]
            exact ⟨rfl, rfl⟩
        rcases List.mem_cons.1 hr with hr | hr
        · rw [he] at hr
          injection hr with hr
          injection hr with hr _
          subst hr
          rw [List.getElem?_map, Option.map_eq_some_iff] at hd
          obtain ⟨sp, h1, rfl⟩ := hd
          exact (hstep sp h1).2
        · refine ih _ ?_ ?_ ?_ hok' hr <;> rw [he]
          · unfold stepped; exact (congrArg (fun l => List.getD l i false) (resetIfDue_const m).1).trans hm
          · intro h3
            have hne3 : (resetIfDue m).globalStage ≠ 3 := by
              by_cases h1 : m.globalStage = 1
              · rw [((resetIfDue_const m).2.2.2.2 h1).1]; omega
              · rw [(resetIfDue_const m).2.2.2.1 h1]; exact hg
            unfold stepped at h3
            simp only at h3
            split at h3
            · rename_i hall
              intro sp hsp
              simpa using List.all_eq_true.1 hall sp hsp
            · exact absurd h3 hne3
          · exact fun sp h _ => (hstep sp h).2
  refine key calls _ ?_ ?_ ?_ hok hr
  · show bad.getD i false = true
    rw [List.getD_eq_getElem?_getD, hb]; rfl
  · intro h; cases h
  · intro sp hsp h3
    rw [(new_stage nPixels aim starting (some bad)).1 sp (List.mem_of_getElem? hsp)] at h3
    cases h3

/-- one pass of one unmasked superpixel -/
def pass (f : Int → ℚ) (aim : ℚ) (d : Int) (stage : Nat) : Nat → Sp
  | 0 => ⟨d, d, 0, stage⟩
  | t + 1 => stepSp t false (distanceOf aim (f (pass f aim d stage t).dac)) (directionOf aim (f (pass f aim d stage t).dac)) (pass f aim d stage t)

theorem pass_finished (f : Int → ℚ) (aim : ℚ) (d : Int) (s t j : Nat) (h : (pass f aim d s t).stage = 3) :
    (pass f aim d s (t + j)).stage = 3 ∧ (pass f aim d s (t + j)).dac = (pass f aim d s t).dac := by
  induction j with
  | zero => exact ⟨h, rfl⟩
  | succ j ih =>
    have e : pass f aim d s (t + (j + 1)) = stepSp (t + j) false (distanceOf aim (f (pass f aim d s (t + j)).dac))
        (directionOf aim (f (pass f aim d s (t + j)).dac)) (pass f aim d s (t + j)) := rfl
    rw [e]
    unfold stepSp nextDac
    rw [if_pos ih.1]
    exact ih

theorem pass_unique (f : Int → ℚ) (aim : ℚ) (d : Int) (s t t' : Nat) (h : (pass f aim d s t).stage = 3) (h' : (pass f aim d s t').stage = 3) :
    (pass f aim d s t).dac = (pass f aim d s t').dac := by
  rcases Nat.le_total t t' with hl | hl
  · have := (pass_finished f aim d s t (t' - t) h).2
    rw [Nat.add_sub_cancel' hl] at this
    exact this.symm
  · have := (pass_finished f aim d s t' (t - t') h').2
    rw [Nat.add_sub_cancel' hl] at this
    exact this

/-- a superpixel is where its pass has it; before the first iteration the previous values do not matter -/
def OnPass (it : Nat) (sp p : Sp) : Prop := sp.dac = p.dac ∧ sp.stage = p.stage ∧ (it ≠ 0 → sp = p)

theorem onPass_step (f : Int → ℚ) (aim : ℚ) (it : Nat) (sp p : Sp) (h : OnPass it sp p) :
    stepSp it false (distanceOf aim (f sp.dac)) (directionOf aim (f sp.dac)) sp =
    stepSp it false (distanceOf aim (f p.dac)) (directionOf aim (f p.dac)) p := by
  by_cases hit : it = 0
  · unfold stepSp nextDac
    simp only [h.1, h.2.1, hit, if_true, lt_irrefl, if_false]
  · rw [h.2.2 hit]

/-- where superpixel `i` can be in a run -/
def Where (f : Int → ℚ) (aim : ℚ) (d : Int) (m : Matcher) (sp : Sp) : Prop :=
  (m.globalStage = 0 ∧ OnPass m.iteration sp (pass f aim d 0 m.iteration)) ∨
  (m.globalStage = 1 ∧ ∃ t, (pass f aim d 0 t).stage = 3 ∧ sp.dac = (pass f aim d 0 t).dac) ∨
  (m.globalStage = 2 ∧ ∃ t, (pass f aim d 0 t).stage = 3 ∧ OnPass m.iteration sp (pass f aim (pass f aim d 0 t).dac 2 m.iteration)) ∨
  (m.globalStage = 3 ∧ ∃ t t', (pass f aim d 0 t).stage = 3 ∧ (pass f aim (pass f aim d 0 t).dac 2 t').stage = 3 ∧
    sp.dac = (pass f aim (pass f aim d 0 t).dac 2 t').dac)

theorem where_step (f : Int → ℚ) (aim : ℚ) (d : Int) (m : Matcher) (haim : m.aim = aim) (n : Nat) (amp : List (List ℚ)) (hne : amp ≠ []) (i : Nat) (sp : Sp) (hn : n % 4 = 0)
    (h1 : m.sps.length ≤ m.mask.length) (h2 : m.sps.length ≤ n / 4) (hmask : m.mask.getD i false = false) (hsp : m.sps[i]? = some sp)
    (hf : spAverage amp i = f sp.dac) (hw : Where f aim d m sp) :
    ∃ sp', (process m n amp).1.sps[i]? = some sp' ∧ Where f aim d (process m n amp).1 sp' := by
  subst haim
  by_cases hg3 : m.globalStage = 3
  · have : resetIfDue m = m := (resetIfDue_const m).2.2.2.1 (by omega)
    have e : process m n amp = (m, .ok (m.sps.map Sp.dac, true)) := by
      unfold process
      rw [if_neg (by omega)]
      simp only [this, if_pos hg3]
    rw [e]
    exact ⟨sp, hsp, hw⟩
  · rw [process_steps m n amp hne hn hg3 h1 h2]
    obtain ⟨c1, c2, c3, c4, c5⟩ := resetIfDue_const m
    obtain ⟨g1, g2, g3⟩ := stepped_global m amp
    have hsp' : (stepped m amp).sps[i]? = some (stepSp (resetIfDue m).iteration false (distanceOf m.aim (f sp.dac)) (directionOf m.aim (f sp.dac)) (seen m sp)) := by
      rw [stepped_get, hsp, Option.map_some]
      unfold stepAt
      rw [c1, c2, hmask, hf]
    have hdac : (seen m sp).dac = sp.dac := by unfold seen; split <;> rfl
    have hfin : (stepped m amp).globalStage ≠ (resetIfDue m).globalStage → ∀ sp ∈ (stepped m amp).sps, sp.stage = 3 := by
      intro hne
      unfold stepped at hne ⊢
      simp only at hne ⊢
      split at hne
      · rename_i hall
        intro sp hsp
        simpa using List.all_eq_true.1 hall sp hsp
      · exact absurd rfl hne
    refine ⟨_, hsp', ?_⟩
    have key : ∀ (d0 : Int) (s : Nat), OnPass (resetIfDue m).iteration (seen m sp) (pass f m.aim d0 s (resetIfDue m).iteration) →
        stepSp (resetIfDue m).iteration false (distanceOf m.aim (f sp.dac)) (directionOf m.aim (f sp.dac)) (seen m sp) =
          pass f m.aim d0 s ((resetIfDue m).iteration + 1) := by
      intro d0 s h
      conv_rhs => unfold pass
      rw [← hdac]
      exact onPass_step f m.aim _ _ _ h
    have step3 : (stepped m amp).globalStage = (resetIfDue m).globalStage + 1 →
        (stepSp (resetIfDue m).iteration false (distanceOf m.aim (f sp.dac)) (directionOf m.aim (f sp.dac)) (seen m sp)).stage = 3 :=
      fun h => hfin (by omega) _ (List.mem_of_getElem? hsp')
    have second : ∀ t, (pass f m.aim d 0 t).stage = 3 → (resetIfDue m).globalStage = 2 →
        OnPass (resetIfDue m).iteration (seen m sp) (pass f m.aim (pass f m.aim d 0 t).dac 2 (resetIfDue m).iteration) →
        Where f m.aim d (stepped m amp) (stepSp (resetIfDue m).iteration false (distanceOf m.aim (f sp.dac)) (directionOf m.aim (f sp.dac)) (seen m sp)) := by
      intro t ht hg hp
      have hk := key _ _ hp
      rcases g2 with g2 | g2
      · right; right; left
        refine ⟨by rw [g2, hg], t, ht, ?_⟩
        rw [g3, hk]
        exact ⟨rfl, rfl, fun _ => rfl⟩
      · right; right; right
        refine ⟨by rw [g2, hg], t, (resetIfDue m).iteration + 1, ht, ?_, by rw [hk]⟩
        rw [← hk]; exact step3 g2
    rcases hw with ⟨hg, hp⟩ | ⟨hg, t, ht, hd⟩ | ⟨hg, t, ht, hp⟩ | ⟨hg, -⟩
    · have hr := c4 (by omega)
      have hseen : seen m sp = sp := by unfold seen; rw [if_neg (by omega)]
      rw [← hseen] at hp
      have hp' : OnPass (resetIfDue m).iteration (seen m sp) (pass f m.aim d 0 (resetIfDue m).iteration) := by rw [hr]; exact hp
      have hk := key _ _ hp'
      rcases g2 with g2 | g2
      · left
        refine ⟨by rw [g2, hr, hg], ?_⟩
        rw [g3, hk]
        exact ⟨rfl, rfl, fun _ => rfl⟩
      · right; left
        refine ⟨by rw [g2, hr, hg], (resetIfDue m).iteration + 1, ?_, by rw [hk]⟩
        rw [← hk]; exact step3 g2
    · obtain ⟨r1, r2⟩ := c5 hg
      refine second t ht r1 ?_
      rw [r2]
      refine ⟨by rw [hdac, hd]; rfl, ?_, fun h => absurd rfl h⟩
      unfold seen
      rw [if_pos hg]
      rfl
    · have hr := c4 (by omega)
      have hseen : seen m sp = sp := by unfold seen; rw [if_neg (by omega)]
      refine second t ht (by rw [hr]; exact hg) ?_
      rw [hr, hseen]; exact hp
    · exact absurd hg hg3

/-- C50, what holds (missing: flags given per pixel): for a camera whose superpixels respond to their own DAC value only, the final DAC value
of an unflagged superpixel does not depend on which other superpixels are flagged. -/
theorem C50_unflagged_partial (nPixels : Nat) (aim : ℚ) (starting : Option (List Int)) (bad bad' : List Bool) (resp : Nat → Int → ℚ)
    (hb : (newMatcher nPixels aim starting (some bad)).sps.length ≤ bad.length)
    (hb' : (newMatcher nPixels aim starting (some bad')).sps.length ≤ bad'.length)
    (i : Nat) (hi : bad[i]? = some false) (hi' : bad'[i]? = some false) (k k' : Nat) (dacs dacs' : List Int)
    (hr : loopResult resp (newMatcher nPixels aim starting (some bad)) k = .ok (dacs, true))
    (hr' : loopResult resp (newMatcher nPixels aim starting (some bad')) k' = .ok (dacs', true)) : dacs[i]? = dacs'[i]? := by
  have run : ∀ (bad : List Bool) (d : Int), (newMatcher nPixels aim starting (some bad)).sps.length ≤ bad.length → bad[i]? = some false →
      (starting.getD (List.replicate (nPixels / 4) 100))[i]? = some d → ∀ k,
      (loopState resp (newMatcher nPixels aim starting (some bad)) k).sps.length = (newMatcher nPixels aim starting (some bad)).sps.length ∧
      (loopState resp (newMatcher nPixels aim starting (some bad)) k).mask = bad ∧
      (loopState resp (newMatcher nPixels aim starting (some bad)) k).aim = aim ∧
      ∃ sp, (loopState resp (newMatcher nPixels aim starting (some bad)) k).sps[i]? = some sp ∧
        Where (resp i) aim d (loopState resp (newMatcher nPixels aim starting (some bad)) k) sp := by
    intro bad d hb hi hd k
    induction k with
    | zero =>
      refine ⟨rfl, rfl, rfl, ⟨d, d, 0, 0⟩, ?_, Or.inl ⟨rfl, rfl, rfl, fun h => absurd rfl h⟩⟩
      simp only [loopState, newMatcher, List.getElem?_map, hd, Option.map_some]
    | succ k ih =>
      obtain ⟨i1, i2, i3, sp, i4, i5⟩ := ih
      simp only [loopState]
      rw [process_length, (process_const _ _ _).1, (process_const _ _ _).2]
      refine ⟨i1, i2, i3, ?_⟩
      exact where_step (resp i) aim d _ i3 (4 * (newMatcher nPixels aim starting (some bad)).sps.length) _ (by simp [frame]) i sp (by omega) (by rw [i1, i2]; exact hb) (by rw [i1]; omega)
        (by rw [i2, List.getD_eq_getElem?_getD, hi]; rfl) i4 (spAverage_frame resp _ _ _ i4) i5
  have fin : ∀ (bad : List Bool) (k : Nat) (dacs : List Int), loopResult resp (newMatcher nPixels aim starting (some bad)) k = .ok (dacs, true) →
      (loopState resp (newMatcher nPixels aim starting (some bad)) k).globalStage = 3 ∧
      dacs = (loopState resp (newMatcher nPixels aim starting (some bad)) k).sps.map Sp.dac := by
    intro bad k dacs h
    rcases process_ok_inv _ _ _ _ h with ⟨hg, -, hr⟩ | ⟨-, -, hr⟩
    · injection hr with hr _; exact ⟨hg, hr⟩
    · injection hr with _ hr; cases hr
  obtain ⟨f1, f2⟩ := fin bad k dacs hr
  obtain ⟨f1', f2'⟩ := fin bad' k' dacs' hr'
  have hlens : ∀ (bad : List Bool) (k : Nat), (loopState resp (newMatcher nPixels aim starting (some bad)) k).sps.length =
      (starting.getD (List.replicate (nPixels / 4) 100)).length := by
    intro bad k
    induction k with
    | zero => simp [loopState, newMatcher]
    | succ k ih => simp only [loopState]; rw [process_length, ih]
  cases hd : (starting.getD (List.replicate (nPixels / 4) 100))[i]? with
  | none =>
    rw [List.getElem?_eq_none_iff] at hd
    rw [f2, f2', List.getElem?_eq_none (by rw [List.length_map, hlens]; exact hd), List.getElem?_eq_none (by rw [List.length_map, hlens]; exact hd)]
  | some d =>
    obtain ⟨-, -, -, sp, a1, a2⟩ := run bad d hb hi hd k
    obtain ⟨-, -, -, sp', a1', a2'⟩ := run bad' d hb' hi' hd k'
    rw [f2, f2', List.getElem?_map, List.getElem?_map, a1, a1', Option.map_some, Option.map_some]
    have last : ∀ (m : Matcher) (sp : Sp), m.globalStage = 3 → Where (resp i) aim d m sp →
        ∃ t t', (pass (resp i) aim d 0 t).stage = 3 ∧ (pass (resp i) aim (pass (resp i) aim d 0 t).dac 2 t').stage = 3 ∧
          sp.dac = (pass (resp i) aim (pass (resp i) aim d 0 t).dac 2 t').dac := by
      intro m sp hg hw
      rcases hw with ⟨h, -⟩ | ⟨h, -⟩ | ⟨h, -⟩ | ⟨-, h⟩
      · omega
      · omega
      · omega
      · exact h
    obtain ⟨t, u, b1, b2, b3⟩ := last _ sp f1 a2
    obtain ⟨t', u', b1', b2', b3'⟩ := last _ sp' f1' a2'
    have e := pass_unique _ _ _ _ t t' b1 b1'
    rw [e] at b2 b3
    rw [b3, b3', pass_unique _ _ _ _ u u' b2 b2']

/-! ## C72 -/

/-- C72 is false: for a camera of 16 superpixels the first call, on well-formed amplitudes, fails -/
theorem C72_false : (process (newMatcher 64 5 none none) 64 [List.replicate 64 6]).2 = .error .valueError := by decide +kernel

/-- C72, what holds (missing: cameras with another number of superpixels): for well-formed arguments an unfinished matcher returns a table exactly
for 512 superpixels; otherwise it raises `ValueError`, although the requested DAC values of its state have already been changed. -/
theorem C72_partial (m : Matcher) (n : Nat) (amp : List (List ℚ)) (hne : amp ≠ []) (hn : n % 4 = 0) (hg : m.globalStage ≠ 3)
    (h1 : m.sps.length ≤ m.mask.length) (h2 : m.sps.length ≤ n / 4) :
    ((∃ t, (process m n amp).2 = .ok t) ↔ m.sps.length = 512) ∧
    (m.sps.length ≠ 512 → (process m n amp).2 = .error .valueError ∧ (process m n amp).1.iteration = (if m.globalStage = 1 then 0 else m.iteration) + 1) := by
  rw [process_steps m n amp hne hn hg h1 h2]
  by_cases h : m.sps.length = 512
  · simp [h]
  · rw [if_neg h]
    exact ⟨⟨fun ⟨t, ht⟩ => (by cases ht), fun h' => absurd h' h⟩, fun _ => ⟨rfl, by rw [← resetIfDue_iteration]; exact (stepped_global m amp).2.2⟩⟩

example : (16 : Nat) ≠ 512 ∧ 64 % 4 = 0 ∧ (newMatcher 64 5 none none).globalStage ≠ 3 ∧ (newMatcher 64 5 none none).sps.length = 16 ∧
    (newMatcher 64 5 none none).mask.length = 16 := by decide +kernel

/-! ## Cases -/

/-- a case for `C50_unflagged_partial`: no superpixel flagged, and all but the first flagged; both runs complete -/
example : ∃ k k' dacs dacs', loopResult linearResponse (newMatcher 2048 5 none (some (List.replicate 512 false))) k = .ok (dacs, true) ∧
    loopResult linearResponse (newMatcher 2048 5 none (some (false :: List.replicate 511 true))) k' = .ok (dacs', true) ∧ dacs[0]? = dacs'[0]? := by
  have hlen : ∀ bad, (newMatcher 2048 5 none bad).sps.length = 512 := fun bad => by simp [newMatcher, -List.reduceReplicate]
  obtain ⟨k, dacs, h⟩ := linear_completes (some (List.replicate 512 false)) fun b hb => by
    injection hb with hb; rw [← hb, List.length_replicate]
  obtain ⟨k', dacs', h'⟩ := linear_completes (some (false :: List.replicate 511 true)) fun b hb => by
    injection hb with hb; rw [← hb, List.length_cons, List.length_replicate]
  exact ⟨k, k', dacs, dacs', h, h', C50_unflagged_partial 2048 5 none _ _ linearResponse (by rw [hlen, List.length_replicate])
    (by rw [hlen, List.length_cons, List.length_replicate]) 0 (List.getElem?_replicate_of_lt (by omega)) rfl k k' dacs dacs' h h'⟩

/-- a call that returns a table in which superpixel 1 has been moved and superpixel 4 is masked: a case for `C47_range`, `C48_within_pass` and
`C50_flagged_partial` -/
example : ∃ (bad : List Bool) (amp : List (List ℚ)) (dacs : List Int),
    (processAll (newMatcher 2048 5 none (some bad)) [(2048, amp)]).2 = [.ok (dacs, false)] ∧ bad[4]? = some true ∧
    dacs[1]? = some 110 ∧ dacs[4]? = some 255 ∧ (processAll (newMatcher 2048 5 none (some bad)) [(2048, amp)]).1.globalStage ≠ 1 := by
  obtain ⟨bad, amp, dacs, h1, h2, h3, h4, h5, -⟩ := C50_false
  have hlen : (newMatcher 2048 5 none (some bad)).sps.length = 512 := by simp [newMatcher, -List.reduceReplicate]
  refine ⟨bad, amp, dacs, by simp only [processAll, h3], (h2 4).2 (by norm_num), h4, h5, ?_⟩
  intro hg
  simp only [processAll] at hg
  rcases process_global (newMatcher 2048 5 none (some bad)) 2048 amp (by decide : (0 : Nat) ≤ 3) with h | ⟨-, h⟩ | ⟨-, h⟩
  · rw [h] at hg; cases hg
  · rw [h] at hg; cases hg
  · rcases process_ok_inv _ _ _ _ h3 with ⟨-, -, hr⟩ | ⟨-, he, hr⟩
    · injection hr with _ hr; cases hr
    · injection hr with hr _
      rw [hr, List.getElem?_map, Option.map_eq_some_iff] at h4
      obtain ⟨sp, e1, e2⟩ := h4
      rw [he] at h
      have h3 := h sp (List.mem_of_getElem? e1)
      rw [stepped_get, Option.map_eq_some_iff] at e1
      obtain ⟨sp0, f1, f2⟩ := e1
      have hs0 : seen (newMatcher 2048 5 none (some bad)) sp0 = sp0 := by unfold seen; exact if_neg (by decide : ¬ ((0 : Nat) = 1))
      have hst0 := (new_stage 2048 5 none (some bad)).1 sp0 (List.mem_of_getElem? f1)
      rw [hs0] at f2
      unfold stepAt stepSp nextDac at f2
      rw [if_neg (by omega)] at f2
      subst f2
      simp only at e2 h3
      split_ifs at e2 h3 <;> simp_all

/-- a case for `C48_two_passes` and `C48_final` -/
example : ∃ (m : Matcher) (n : Nat) (amp : List (List ℚ)) (dacs : List Int), (process m n amp).2 = .ok (dacs, true) := by
  obtain ⟨k, dacs, h⟩ := linear_completes none fun _ h => by cases h
  exact ⟨_, _, _, dacs, h⟩

end Verif.Props
