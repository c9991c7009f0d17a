import Verif.Spec.Reducers
import Mathlib.Tactic.Linarith
import Mathlib.Tactic.Positivity
import Mathlib.Algebra.Order.Field.Basic
import Mathlib.Algebra.Order.BigOperators.Group.List

namespace Verif.Lemmas

open Verif.Py Verif.Model Verif.Spec

theorem take_drop_sum (row : List ℚ) (a k : Nat) (h : a + k ≤ row.length) : ((row.drop a).take k).sum = windowSum row a k := by
  unfold windowSum
  congr 1
  refine List.ext_getElem? fun i => ?_
  rw [List.getElem?_take]
  split
  · rename_i hi
    rw [List.getElem?_drop, List.getElem?_map, List.getElem?_range hi, Option.map_some, List.getD_eq_getElem?_getD]
    rw [List.getElem?_eq_getElem (by omega)]
    rfl
  · rename_i hi
    rw [List.getElem?_eq_none (by simp; omega)]

theorem sliceList_nat {α : Type} (row : List α) (a b : Nat) (ha : a ≤ row.length) (hb : b ≤ row.length) :
    sliceList row (some (a : Int)) (some (b : Int)) = (row.drop a).take (b - a) := by
  have e1 : clampIndex row.length (a : Int) = a := by unfold clampIndex; rw [if_neg (by omega)]; omega
  have e2 : clampIndex row.length (b : Int) = b := by unfold clampIndex; rw [if_neg (by omega)]; omega
  unfold sliceList
  simp only [e1, e2]

theorem sliceList_from {α : Type} (row : List α) (a : Nat) (ha : a ≤ row.length) :
    sliceList row (some (a : Int)) none = row.drop a := by
  have e1 : clampIndex row.length (a : Int) = a := by unfold clampIndex; rw [if_neg (by omega)]; omega
  unfold sliceList
  simp only [e1]
  rw [List.take_of_length_le (by simp)]

theorem sliceList_last {α : Type} (row : List α) (k : Nat) (hk : 0 < k) :
    sliceList row (some (-(k : Int))) none = row.drop (row.length - k) := by
  have e1 : clampIndex row.length (-(k : Int)) = row.length - k := by unfold clampIndex; rw [if_pos (by omega)]; omega
  unfold sliceList
  simp only [e1]
  rw [List.take_of_length_le (by simp)]

theorem drop_sum (row : List ℚ) (a : Nat) (h : a ≤ row.length) : (row.drop a).sum = windowSum row a (row.length - a) := by
  rw [← take_drop_sum row a _ (by omega), List.take_of_length_le (by simp)]

theorem nSamples_event (n : Nat) (ws : List (List ℚ)) (h : Event n ws) : nSamples ws = n := by
  cases ws with
  | nil => exact absurd rfl h.1
  | cons r rs => exact h.2 r (by simp)

/-- the argmax of the averaged waveform is the first maximum of the camera sum -/
theorem argmax_colMeans (n : Nat) (ws : List (List ℚ)) (h : ws ≠ []) (p : Nat) :
    argmax (colMeans n ws) = .ok p ↔ FirstMax n (cameraSum ws) p := by
  have hpos : (0 : ℚ) < ws.length := by exact_mod_cast List.length_pos_iff.2 h
  have get : ∀ j < n, (colMeans n ws)[j]? = some (cameraSum ws j / ws.length) := by
    intro j hj
    unfold colMeans
    rw [List.getElem?_map, List.getElem?_range hj, Option.map_some]
    unfold mean column cameraSum
    rw [List.length_map]
  have some_lt : ∀ (j : Nat) y, (colMeans n ws)[j]? = some y → j < n ∧ y = cameraSum ws j / ws.length := by
    intro j y hj
    have hl := (List.getElem?_eq_some_iff.1 hj).1
    have hl' : j < n := by simpa [colMeans] using hl
    rw [get j hl'] at hj
    exact ⟨hl', (Option.some.inj hj).symm⟩
  constructor
  · intro ha
    obtain ⟨m, h1, h2, h3⟩ := argmax_spec _ _ ha
    obtain ⟨hp, rfl⟩ := some_lt p m h1
    refine ⟨hp, fun j hj => ?_, fun j hj => ?_⟩
    · exact (div_le_div_iff_of_pos_right hpos).1 (h3 j _ (get j hj))
    · exact (div_lt_div_iff_of_pos_right hpos).1 (h2 j hj _ (get j (by omega)))
  · rintro ⟨hp, h1, h2⟩
    refine argmax_unique _ p _ (get p hp) ?_ ?_
    · intro k hk y hy
      obtain ⟨-, rfl⟩ := some_lt k y hy
      exact (div_lt_div_iff_of_pos_right hpos).2 (h2 k hk)
    · intro k y hy
      obtain ⟨hk, rfl⟩ := some_lt k y hy
      exact (div_le_div_iff_of_pos_right hpos).2 (h1 k hk)

theorem defaultTime_ok (n : Nat) (ws : List (List ℚ)) (h : Event n ws) (hn : 0 < n) : ∃ p, FirstMax n (cameraSum ws) p ∧
    defaultTime ws = .ok (if (p : Int) < 10 then 10 else if (p : Int) > (n : Int) - 10 then (n : Int) - 10 else p) := by
  have hns := nSamples_event n ws h
  obtain ⟨p, hp, -⟩ := argmax_ok (colMeans n ws) (by intro he; have := congrArg List.length he; simp [colMeans] at this; omega)
  refine ⟨p, (argmax_colMeans n ws h.1 p).1 hp, ?_⟩
  unfold defaultTime
  rw [hns, hp]

theorem defaultTime_clamped (n : Nat) (ws : List (List ℚ)) (h : Event n ws) (hn : 20 ≤ n) : ∃ p, FirstMax n (cameraSum ws) p ∧
    defaultTime ws = .ok ((clampedTime n p : Nat) : Int) := by
  obtain ⟨p, h1, h2⟩ := defaultTime_ok n ws h (by omega)
  refine ⟨p, h1, ?_⟩
  rw [h2]
  congr 1
  unfold clampedTime
  split
  · omega
  · split <;> omega

theorem perPixel_spec (f : List ℚ → Except Err ℚ) (ws : List (List ℚ)) (xs : List ℚ) :
    perPixel f ws = .ok xs ↔ ws.map f = xs.map .ok := by
  induction ws generalizing xs with
  | nil =>
    constructor
    · intro h; simp only [perPixel, Except.ok.injEq] at h; subst h; rfl
    · intro h
      cases xs with
      | nil => rfl
      | cons _ _ => simp at h
  | cons r rs ih =>
    unfold perPixel
    cases hf : f r with
    | error e =>
      simp only [reduceCtorEq, false_iff]
      intro h
      cases xs with
      | nil => simp at h
      | cons x xs => simp [hf] at h
    | ok x =>
      cases hp : perPixel f rs with
      | error e =>
        simp only [reduceCtorEq, false_iff]
        intro h
        cases xs with
        | nil => simp at h
        | cons y ys =>
          simp only [List.map_cons, List.cons.injEq] at h
          have := (ih ys).2 h.2
          rw [hp] at this
          cases this
      | ok zs =>
        have hz := (ih zs).1 hp
        simp only [Except.ok.injEq]
        constructor
        · intro h; rw [← h, List.map_cons, List.map_cons, hf, hz]
        · intro h
          cases xs with
          | nil => simp at h
          | cons y ys =>
            simp only [List.map_cons, List.cons.injEq, hf, Except.ok.injEq] at h
            have := (ih ys).2 h.2
            rw [hp, Except.ok.injEq] at this
            rw [h.1, this]

theorem perPixel_ok (f : List ℚ → Except Err ℚ) (ws : List (List ℚ)) (h : ∀ r ∈ ws, ∃ x, f r = .ok x) : ∃ xs, perPixel f ws = .ok xs := by
  induction ws with
  | nil => exact ⟨[], rfl⟩
  | cons r rs ih =>
    obtain ⟨x, hx⟩ := h r (by simp)
    obtain ⟨xs, hxs⟩ := ih fun r hr => h r (by simp [hr])
    exact ⟨x :: xs, by unfold perPixel; rw [hx, hxs]⟩

/-- `np.max` returns the largest sample -/
theorem rowMax_spec (r : List ℚ) (x : ℚ) : rowMax r = .ok x ↔ x ∈ r ∧ ∀ y ∈ r, y ≤ x := by
  have key : ∀ (xs : List ℚ) (a : ℚ), xs.foldl max a ∈ a :: xs ∧ ∀ y ∈ a :: xs, y ≤ xs.foldl max a := by
    intro xs
    induction xs with
    | nil => intro a; simp
    | cons b xs ih =>
      intro a
      obtain ⟨h1, h2⟩ := ih (max a b)
      simp only [List.foldl_cons]
      constructor
      · rcases List.mem_cons.1 h1 with h1 | h1
        · rw [h1]
          rcases max_choice a b with h | h <;> rw [h] <;> simp
        · simp [h1]
      · intro y hy
        rcases List.mem_cons.1 hy with rfl | hy
        · exact le_trans (le_max_left _ _) (h2 _ List.mem_cons_self)
        · rcases List.mem_cons.1 hy with rfl | hy
          · exact le_trans (le_max_right _ _) (h2 _ List.mem_cons_self)
          · exact h2 y (by simp [hy])
  cases r with
  | nil => simp [rowMax]
  | cons a xs =>
    obtain ⟨h1, h2⟩ := key xs a
    simp only [rowMax, Except.ok.injEq]
    constructor
    · rintro rfl; exact ⟨h1, h2⟩
    · rintro ⟨h3, h4⟩; exact le_antisymm (h4 _ h1) (h2 _ h3)

theorem rowMax_ok (r : List ℚ) (h : r ≠ []) : ∃ x, rowMax r = .ok x := by
  cases r with
  | nil => exact absurd rfl h
  | cons a xs => exact ⟨_, rfl⟩

end Verif.Lemmas
