import Verif.Model.Matcher
import Verif.Spec.Matcher
import Mathlib.Data.List.Induction

namespace Verif.Lemmas

open Verif.Py Verif.Model Verif.Spec

theorem getElem?_stepAll (m : Matcher) (amp : List (List ℚ)) (k : Nat) (sps : List Sp) (i : Nat) :
    (stepAll m amp k sps)[i]? = (sps[i]?).map (stepAt m amp (k + i)) := by
  induction sps generalizing k i with
  | nil => simp [stepAll]
  | cons sp sps ih =>
    cases i with
    | zero => simp [stepAll]
    | succ i =>
      simp only [stepAll, List.getElem?_cons_succ]
      rw [ih, show k + 1 + i = k + (i + 1) by omega]

theorem length_stepAll (m : Matcher) (amp : List (List ℚ)) (k : Nat) (sps : List Sp) : (stepAll m amp k sps).length = sps.length := by
  induction sps generalizing k with
  | nil => rfl
  | cons sp sps ih => simp [stepAll, ih]

theorem getElem?_spoilAll (m : Matcher) (n : Nat) (amp : List (List ℚ)) (k : Nat) (sps : List Sp) (i : Nat) (sp' : Sp)
    (h : (spoilAll m n amp k sps)[i]? = some sp') :
    ∃ sp, sps[i]? = some sp ∧ (sp' = sp ∨ sp' = spoiled m amp (k + i) sp) := by
  induction sps generalizing k i with
  | nil => simp [spoilAll] at h
  | cons sp sps ih =>
    unfold spoilAll at h
    split at h
    · cases i with
      | zero =>
        simp only [List.getElem?_cons_zero, Option.some.injEq] at h
        exact ⟨sp, by simp, Or.inr h.symm⟩
      | succ i =>
        obtain ⟨s, h1, h2⟩ := ih (k + 1) i (by simpa using h)
        rw [show k + 1 + i = k + (i + 1) by omega] at h2
        exact ⟨s, by simpa using h1, h2⟩
    · exact ⟨sp', h, Or.inl rfl⟩

theorem length_spoilAll (m : Matcher) (n : Nat) (amp : List (List ℚ)) (k : Nat) (sps : List Sp) :
    (spoilAll m n amp k sps).length = sps.length := by
  induction sps generalizing k with
  | nil => rfl
  | cons sp sps ih =>
    unfold spoilAll
    split
    · simp [ih]
    · rfl

/-- the superpixel record as the loop of this call sees it -/
def seen (m : Matcher) (sp : Sp) : Sp := if m.globalStage = 1 then { sp with stage := 2 } else sp

theorem resetIfDue_sps (m : Matcher) : (resetIfDue m).sps = m.sps.map (seen m) := by
  unfold resetIfDue
  split
  · rename_i h
    simp [seen, h]
  · rename_i h
    have : seen m = id := by funext sp; simp [seen, h]
    rw [this, List.map_id]

theorem resetIfDue_const (m : Matcher) : (resetIfDue m).mask = m.mask ∧ (resetIfDue m).aim = m.aim ∧
    (resetIfDue m).globalStage ≠ 1 ∧ (m.globalStage ≠ 1 → resetIfDue m = m) ∧
    (m.globalStage = 1 → (resetIfDue m).globalStage = 2 ∧ (resetIfDue m).iteration = 0) := by
  unfold resetIfDue
  split
  · rename_i h; simp [h]
  · rename_i h; simp [h]

theorem resetIfDue_iteration (m : Matcher) : (resetIfDue m).iteration = if m.globalStage = 1 then 0 else m.iteration := by
  unfold resetIfDue
  split <;> rfl

/-- everything a call can do to one superpixel -/
inductive SpChange (m : Matcher) (amp : List (List ℚ)) (i : Nat) (sp : Sp) : Sp → Prop
  | same : SpChange m amp i sp sp
  | reset : SpChange m amp i sp (seen m sp)
  | step : SpChange m amp i sp (stepAt (resetIfDue m) amp i (seen m sp))
  | spoil : SpChange m amp i sp (spoiled (resetIfDue m) amp i (seen m sp))

theorem process_change (m : Matcher) (n : Nat) (amp : List (List ℚ)) (i : Nat) (sp' : Sp)
    (h : (process m n amp).1.sps[i]? = some sp') : ∃ sp, m.sps[i]? = some sp ∧ SpChange m amp i sp sp' := by
  have hmap : ∀ x, (resetIfDue m).sps[i]? = some x → ∃ sp, m.sps[i]? = some sp ∧ x = seen m sp := by
    intro x hx
    rw [resetIfDue_sps, List.getElem?_map] at hx
    cases hs : m.sps[i]? with
    | none => rw [hs] at hx; cases hx
    | some sp => rw [hs] at hx; simp at hx; exact ⟨sp, rfl, hx.symm⟩
  unfold process at h
  split at h
  · exact ⟨sp', h, .same⟩
  · simp only at h
    split at h
    · obtain ⟨sp, h1, rfl⟩ := hmap sp' h
      exact ⟨sp, h1, .reset⟩
    · split at h
      · obtain ⟨x, hx, hc⟩ := getElem?_spoilAll _ _ _ _ _ _ _ h
        obtain ⟨sp, h1, rfl⟩ := hmap x hx
        rw [Nat.zero_add] at hc
        rcases hc with rfl | rfl
        · exact ⟨sp, h1, .reset⟩
        · exact ⟨sp, h1, .spoil⟩
      · have : (stepAll (resetIfDue m) amp 0 (resetIfDue m).sps)[i]? = some sp' := by
          split at h <;> exact h
        rw [getElem?_stepAll, Nat.zero_add] at this
        cases hx : (resetIfDue m).sps[i]? with
        | none => rw [hx] at this; cases this
        | some x =>
          rw [hx] at this
          simp only [Option.map_some, Option.some.injEq] at this
          obtain ⟨sp, h1, rfl⟩ := hmap x hx
          exact ⟨sp, h1, this ▸ .step⟩

theorem process_length (m : Matcher) (n : Nat) (amp : List (List ℚ)) : (process m n amp).1.sps.length = m.sps.length := by
  have e : (resetIfDue m).sps.length = m.sps.length := by rw [resetIfDue_sps, List.length_map]
  unfold process
  split
  · rfl
  · simp only
    split
    · exact e
    · split
      · simp [length_spoilAll, e]
      · split <;> simp [length_stepAll, e]

theorem process_const (m : Matcher) (n : Nat) (amp : List (List ℚ)) :
    (process m n amp).1.mask = m.mask ∧ (process m n amp).1.aim = m.aim := by
  obtain ⟨h1, h2, -⟩ := resetIfDue_const m
  unfold process
  split
  · exact ⟨rfl, rfl⟩
  · simp only
    split
    · exact ⟨h1, h2⟩
    · split
      · exact ⟨h1, h2⟩
      · split <;> exact ⟨h1, h2⟩

/-- how a call changes the global stage -/
theorem process_global (m : Matcher) (n : Nat) (amp : List (List ℚ)) (h3 : m.globalStage ≤ 3) :
    (process m n amp).1.globalStage = m.globalStage ∨
    (m.globalStage = 1 ∧ (process m n amp).1.globalStage = 2) ∨
    (((m.globalStage = 0 ∧ (process m n amp).1.globalStage = 1) ∨
      ((m.globalStage = 1 ∨ m.globalStage = 2) ∧ (process m n amp).1.globalStage = 3)) ∧ AllFinished (process m n amp).1) := by
  obtain ⟨-, -, h1, h2, h4⟩ := resetIfDue_const m
  unfold process
  split
  · exact Or.inl rfl
  · simp only
    split
    · rename_i hg
      by_cases h : m.globalStage = 1
      · rw [(h4 h).1] at hg; omega
      · rw [h2 h]; exact Or.inl rfl
    · rename_i hg
      split
      · by_cases h : m.globalStage = 1
        · exact Or.inr (Or.inl ⟨h, (h4 h).1⟩)
        · rw [h2 h]; exact Or.inl rfl
      · by_cases hf : ((stepAll (resetIfDue m) amp 0 (resetIfDue m).sps).all fun sp => sp.stage == 3) = true
        · have hfin : ∀ sp ∈ stepAll (resetIfDue m) amp 0 (resetIfDue m).sps, sp.stage = 3 := by
            intro sp hsp
            have := List.all_eq_true.1 hf sp hsp
            simpa using this
          have key : (resetIfDue m).globalStage + 1 = 1 ∧ m.globalStage = 0 ∨
              (resetIfDue m).globalStage + 1 = 3 ∧ (m.globalStage = 1 ∨ m.globalStage = 2) := by
            by_cases h : m.globalStage = 1
            · right; exact ⟨by rw [(h4 h).1], Or.inl h⟩
            · rw [h2 h] at hg ⊢
              omega
          simp only [hf, if_true]
          split <;> (refine Or.inr (Or.inr ⟨?_, hfin⟩); rcases key with ⟨k1, k2⟩ | ⟨k1, k2⟩; exact Or.inl ⟨k2, k1⟩; exact Or.inr ⟨k2, k1⟩)
        · simp only [hf, Bool.false_eq_true, if_false]
          by_cases h : m.globalStage = 1
          · right; left
            split <;> exact ⟨h, (h4 h).1⟩
          · left
            rw [h2 h]
            split <;> rfl

theorem processAll_append (m : Matcher) (xs ys : List (Nat × List (List ℚ))) :
    processAll m (xs ++ ys) = ((processAll (processAll m xs).1 ys).1, (processAll m xs).2 ++ (processAll (processAll m xs).1 ys).2) := by
  induction xs generalizing m with
  | nil => rfl
  | cons x xs ih =>
    obtain ⟨n, a⟩ := x
    simp only [List.cons_append, processAll, ih]

theorem stepFails_false (m : Matcher) (n k : Nat) (sps : List Sp) (h1 : k + sps.length ≤ m.mask.length) (h2 : k + sps.length ≤ n) :
    stepFails m n false k sps = none := by
  induction sps generalizing k with
  | nil => rfl
  | cons sp sps ih =>
    simp only [List.length_cons] at h1 h2
    unfold stepFails
    have : canStep m n false k sp = true := by
      simp [canStep, show k < m.mask.length by omega, show k < n by omega]
    rw [if_pos this]
    exact ih (k + 1) (by omega) (by omega)

/-- the state after a call in which the loop does not fail -/
def stepped (m : Matcher) (amp : List (List ℚ)) : Matcher :=
  let m := resetIfDue m
  let sps := stepAll m amp 0 m.sps
  { m with sps := sps, iteration := m.iteration + 1
           globalStage := if sps.all (fun sp => sp.stage == 3) then m.globalStage + 1 else m.globalStage }

theorem process_steps (m : Matcher) (n : Nat) (amp : List (List ℚ)) (hne : amp ≠ []) (hn : n % 4 = 0) (hg : m.globalStage ≠ 3)
    (h1 : m.sps.length ≤ m.mask.length) (h2 : m.sps.length ≤ n / 4) :
    process m n amp = (stepped m amp, if m.sps.length = 512 then .ok ((stepped m amp).sps.map Sp.dac, false) else .error .valueError) := by
  obtain ⟨e1, -, -, e2, e3⟩ := resetIfDue_const m
  have hl : (resetIfDue m).sps.length = m.sps.length := by rw [resetIfDue_sps, List.length_map]
  have hg' : (resetIfDue m).globalStage ≠ 3 := by
    by_cases h : m.globalStage = 1
    · rw [(e3 h).1]; omega
    · rw [e2 h]; exact hg
  unfold process
  rw [if_neg (by omega)]
  simp only
  rw [if_neg hg', show amp.isEmpty = false by simpa using hne, stepFails_false _ _ _ _ (by rw [e1, hl]; omega) (by rw [hl]; omega)]
  simp only [length_stepAll, hl]
  by_cases h : m.sps.length = 512
  · rw [if_neg (by omega), if_pos h]; rfl
  · rw [if_pos h, if_neg h]; rfl

theorem stepped_get (m : Matcher) (amp : List (List ℚ)) (i : Nat) :
    (stepped m amp).sps[i]? = (m.sps[i]?).map fun sp => stepAt (resetIfDue m) amp i (seen m sp) := by
  unfold stepped
  simp only [getElem?_stepAll, resetIfDue_sps, List.getElem?_map, Option.map_map, Nat.zero_add]
  rfl

/-- a call whose result is a table went through the loop or reports completion -/
theorem process_ok_inv (m : Matcher) (n : Nat) (amp : List (List ℚ)) (r : List Int × Bool) (h : (process m n amp).2 = .ok r) :
    (m.globalStage = 3 ∧ process m n amp = (m, .ok (m.sps.map Sp.dac, true)) ∧ r = (m.sps.map Sp.dac, true)) ∨
    (m.globalStage ≠ 3 ∧ process m n amp = (stepped m amp, .ok ((stepped m amp).sps.map Sp.dac, false)) ∧
      r = ((stepped m amp).sps.map Sp.dac, false)) := by
  obtain ⟨-, -, e1, e2, e3⟩ := resetIfDue_const m
  unfold process at h ⊢
  split at h
  · cases h
  · rename_i hn
    rw [if_neg hn]
    simp only at h ⊢
    split at h
    · rename_i hg
      have hne : m.globalStage ≠ 1 := by intro h1; rw [(e3 h1).1] at hg; omega
      rw [if_pos hg]
      rw [e2 hne] at hg h ⊢
      injection h with h
      exact Or.inl ⟨hg, rfl, h.symm⟩
    · rename_i hg
      rw [if_neg hg]
      split at h
      · cases h
      · rename_i hf
        split at h
        · cases h
        · rename_i hl
          rw [if_neg hl]
          injection h with h
          refine Or.inr ⟨?_, rfl, h.symm⟩
          intro h3
          rw [e2 (by omega)] at hg
          exact hg h3

end Verif.Lemmas
