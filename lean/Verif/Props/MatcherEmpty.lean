import Verif.Props.Matcher

/-!
# Amplitude matching with a run without events (C133)
-/

namespace Verif.Props

open Verif.Py Verif.Model Verif.Spec Verif.Lemmas

/-- the requested DAC values of a matcher -/
def requested (m : Matcher) : List Int := m.sps.map Sp.dac

theorem spoilAll_dacs (m : Matcher) (n : Nat) (amp : List (List ℚ)) (k : Nat) (sps : List Sp) :
    (spoilAll m n amp k sps).map (fun sp => (sp.dac, sp.prevDac)) = sps.map fun sp => (sp.dac, sp.prevDac) := by
  induction sps generalizing k with
  | nil => rfl
  | cons sp sps ih =>
    unfold spoilAll
    split
    · simp only [List.map_cons, ih]
      rfl
    · rfl

theorem stepFails_empty (m : Matcher) (n k : Nat) (sps : List Sp) (h1 : k + sps.length ≤ m.mask.length) (h2 : k + sps.length ≤ n) :
    stepFails m n true k sps = none ∧ (∀ (i : Nat) sp, sps[i]? = some sp → sp.stage = 3 ∨ m.mask.getD (k + i) false = true) ∨
    stepFails m n true k sps = some .valueError ∧ ∃ (i : Nat) (sp : Sp), sps[i]? = some sp ∧ sp.stage ≠ 3 ∧ m.mask.getD (k + i) false = false := by
  induction sps generalizing k with
  | nil => exact Or.inl ⟨rfl, fun i sp h => by simp at h⟩
  | cons sp sps ih =>
    simp only [List.length_cons] at h1 h2
    unfold stepFails
    by_cases hc : canStep m n true k sp = true
    · rw [if_pos hc]
      have hthis : sp.stage = 3 ∨ m.mask.getD k false = true := by
        unfold canStep at hc
        simp only [Bool.or_eq_true, beq_iff_eq, Bool.and_eq_true, Bool.not_true, Bool.and_false, Bool.or_false, decide_eq_true_eq] at hc
        rcases hc with hc | hc
        · exact Or.inl hc
        · exact Or.inr (by simpa using hc.2)
      rcases ih (k + 1) (by omega) (by omega) with ⟨e, ha⟩ | ⟨e, i, sp', ha, hb, hm⟩
      · refine Or.inl ⟨e, fun i sp' h => ?_⟩
        cases i with
        | zero =>
          simp only [List.getElem?_cons_zero, Option.some.injEq] at h
          subst h
          exact hthis
        | succ i =>
          have := ha i sp' (by simpa using h)
          rwa [show k + (i + 1) = k + 1 + i by omega]
      · exact Or.inr ⟨e, i + 1, sp', by simpa using ha, hb, by rwa [show k + (i + 1) = k + 1 + i by omega]⟩
    · rw [if_neg hc, if_pos ⟨by omega, by omega⟩]
      refine Or.inr ⟨rfl, 0, sp, rfl, ?_, ?_⟩
      · intro h
        exact hc (by simp [canStep, h])
      · by_contra hm
        refine hc ?_
        have hm' : m.mask.getD k false = true := by simpa using hm
        have : k < m.mask.length := by omega
        simp only [canStep, hm', this, decide_true, Bool.true_or, Bool.and_self, Bool.or_true]

/-- **C133**: a run without events raises ValueError as long as a superpixel that can be used has not finished; the requested DAC values, those before them and the counter of steps
stay as they were (only a reset for the second pass that was due is done). -/
theorem C133_unfinished (m : Matcher) (n : Nat) (hg : m.globalStage ≠ 3) (h1 : m.sps.length ≤ m.mask.length) (h2 : m.sps.length ≤ n / 4) (i : Nat) (sp : Sp)
    (hi : m.sps[i]? = some sp) (hs : m.globalStage = 1 ∨ sp.stage ≠ 3) (hm : m.mask.getD i false = false) :
    (process m n []).2 = .error .valueError ∧ requested (process m n []).1 = requested m ∧
    (process m n []).1.sps.map Sp.prevDac = m.sps.map Sp.prevDac ∧ (process m n []).1.iteration = (if m.globalStage = 1 then 0 else m.iteration) := by
  have hi' : (resetIfDue m).sps[i]? = some (seen m sp) := by rw [resetIfDue_sps, List.getElem?_map, hi]; rfl
  have hs' : (seen m sp).stage ≠ 3 := by
    unfold seen
    split
    · exact (by decide : (2 : Nat) ≠ 3)
    · rename_i h; exact hs.resolve_left h
  rw [← resetIfDue_iteration]
  obtain ⟨e1, -, -, e2, e3⟩ := resetIfDue_const m
  have hl : (resetIfDue m).sps.length = m.sps.length := by rw [resetIfDue_sps, List.length_map]
  have hg' : (resetIfDue m).globalStage ≠ 3 := by
    by_cases h : m.globalStage = 1
    · rw [(e3 h).1]; omega
    · rw [e2 h]; exact hg
  have hd : (resetIfDue m).sps.map (fun sp => (sp.dac, sp.prevDac)) = m.sps.map fun sp => (sp.dac, sp.prevDac) := by
    rw [resetIfDue_sps, List.map_map]
    apply List.map_congr_left
    intro x _
    simp only [Function.comp, seen]
    split <;> rfl
  have hp : process m n [] = ({ resetIfDue m with sps := spoilAll (resetIfDue m) (n / 4) [] 0 (resetIfDue m).sps }, .error .valueError) := by
    unfold process
    rw [if_neg (by simp)]
    simp only
    rw [if_neg hg']
    rcases stepFails_empty (resetIfDue m) (n / 4) 0 (resetIfDue m).sps (by rw [e1, hl]; omega) (by rw [hl]; omega) with ⟨-, ha⟩ | ⟨e, -⟩
    · rcases ha i _ hi' with h | h
      · exact absurd h hs'
      · rw [Nat.zero_add, e1, hm] at h
        cases h
    · rw [show ([] : List (List ℚ)).isEmpty = true from rfl, e]
  have hboth := (spoilAll_dacs (resetIfDue m) (n / 4) [] 0 (resetIfDue m).sps).trans hd
  rw [hp]
  refine ⟨rfl, ?_, ?_, rfl⟩
  · have := congrArg (List.map Prod.fst) hboth
    simpa only [List.map_map, Function.comp_def, requested] using this
  · have := congrArg (List.map Prod.snd) hboth
    simpa only [List.map_map, Function.comp_def] using this

/-- with all superpixels finished in both passes, the table is returned whatever the run has -/
theorem C133_finished (m : Matcher) (n : Nat) (hg : m.globalStage = 3) : process m n [] = (m, .ok (requested m, true)) := by
  unfold process
  rw [if_neg (by simp)]
  have : resetIfDue m = m := (resetIfDue_const m).2.2.2.1 (by omega)
  simp only [this, if_pos hg]
  rfl

/-- in any history of runs that all had events or not: a run without events never changes the requested DAC values of superpixels that can be used -/
theorem C133_usable (m : Matcher) (n : Nat) (h1 : m.sps.length ≤ m.mask.length) (h2 : m.sps.length ≤ n / 4) (i : Nat) (hm : m.mask.getD i false = false) :
    (requested (process m n []).1)[i]? = (requested m)[i]? := by
  by_cases hg : m.globalStage = 3
  · rw [C133_finished m n hg]
  by_cases hex : ∃ (j : Nat) (sp : Sp), (resetIfDue m).sps[j]? = some sp ∧ sp.stage ≠ 3 ∧ m.mask.getD j false = false
  · obtain ⟨j, sp', a, b, c⟩ := hex
    rw [resetIfDue_sps, List.getElem?_map, Option.map_eq_some_iff] at a
    obtain ⟨sp, a, rfl⟩ := a
    have hs : m.globalStage = 1 ∨ sp.stage ≠ 3 := by
      by_cases h : m.globalStage = 1
      · exact Or.inl h
      · exact Or.inr (by simpa [seen, h] using b)
    rw [(C133_unfinished m n hg h1 h2 j sp a hs c).2.1]
  · obtain ⟨e1, -, -, e2, e3⟩ := resetIfDue_const m
    cases ho : (process m n []).1.sps[i]? with
    | none =>
      have := process_length m n []
      rw [List.getElem?_eq_none_iff] at ho
      unfold requested
      rw [List.getElem?_eq_none (by simpa using ho), List.getElem?_eq_none (by simpa [← this] using ho)]
    | some sp' =>
      obtain ⟨sp, hsp, hc⟩ := process_change m n [] i sp' ho
      unfold requested
      rw [List.getElem?_map, List.getElem?_map, ho, hsp]
      simp only [Option.map_some, Option.some.injEq]
      have hseen : (seen m sp).dac = sp.dac := by unfold seen; split <;> rfl
      cases hc with
      | same => rfl
      | reset => exact hseen
      | spoil => exact hseen
      | step =>
        have hget : (resetIfDue m).sps[i]? = some (seen m sp) := by rw [resetIfDue_sps, List.getElem?_map, hsp]; rfl
        have h3 : (seen m sp).stage = 3 := by
          by_contra hne
          exact hex ⟨i, _, hget, hne, hm⟩
        unfold stepAt stepSp nextDac
        simp only [h3, if_true]
        exact hseen

/-- a new matcher of a camera with two superpixels -/
example : (process (newMatcher 8 5 none none) 8 []).2 = .error .valueError ∧ requested (process (newMatcher 8 5 none none) 8 []).1 = [100, 100] := by
  decide +kernel

end Verif.Props
