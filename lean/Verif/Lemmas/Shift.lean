import Verif.Model.WaveformUtils
import Mathlib.Tactic.Ring
import Mathlib.Tactic.Linarith

namespace Verif.Lemmas

open Verif.Py Verif.Model

variable {α : Type}

theorem broadcastTo_eq (w : Nat) (v : List α) (h : v.length = w) : broadcastTo w v = .ok v := by
  unfold broadcastTo; rw [if_pos h]

theorem shiftRow_pos (result arr : List α) (h : result.length = arr.length) (k : Nat) (hk : 0 < k) (fill : α) :
    shiftRow result arr k fill
      = .ok (List.replicate (min k arr.length) fill ++ arr.take (arr.length - k)) := by
  unfold shiftRow
  rw [if_pos (by omega)]
  have h1 : clampIndex arr.length (k : Int) = min k arr.length := by unfold clampIndex; simp
  have h2 : clampIndex arr.length (-(k : Int)) = arr.length - k := by
    unfold clampIndex; rw [if_pos (by omega)]; omega
  have hf : fillSlice result none (some (k : Int)) fill
      = List.replicate (min k arr.length) fill ++ result.drop (min k arr.length) := by
    unfold fillSlice sliceLo sliceHi; simp [h, h1]
  have hv : sliceList arr none (some (-(k : Int))) = arr.take (arr.length - k) := by
    unfold sliceList; simp [h2]
  rw [hf, hv]
  have hl : (List.replicate (min k arr.length) fill ++ result.drop (min k arr.length)).length = arr.length := by
    simp [h]
  unfold assignSlice
  simp only [sliceLo, sliceHi, hl, h1]
  rw [broadcastTo_eq _ _ (by simp; omega)]
  simp only
  congr 1
  rw [List.take_append_of_le_length (by simp), List.take_of_length_le (by simp)]
  rw [List.drop_of_length_le (by simp [h])]
  simp

theorem shiftRow_neg (result arr : List α) (h : result.length = arr.length) (k : Nat) (hk : 0 < k) (fill : α) :
    shiftRow result arr (-(k : Int)) fill
      = .ok (arr.drop k ++ List.replicate (min k arr.length) fill) := by
  unfold shiftRow
  rw [if_neg (by omega), if_pos (by omega)]
  have h1 : clampIndex arr.length (k : Int) = min k arr.length := by unfold clampIndex; simp
  have h2 : clampIndex arr.length (-(k : Int)) = arr.length - k := by
    unfold clampIndex; rw [if_pos (by omega)]; omega
  have hf : fillSlice result (some (-(k : Int))) none fill
      = result.take (arr.length - k) ++ List.replicate (min k arr.length) fill := by
    unfold fillSlice sliceLo sliceHi
    simp only [h, h2]
    rw [show arr.length - (arr.length - k) = min k arr.length from by omega,
      List.drop_of_length_le (by rw [h]; omega), List.append_nil]
  have hv : sliceList arr (some (- -(k : Int))) none = arr.drop k := by
    unfold sliceList
    rw [Int.neg_neg]
    simp only [h1]
    rw [List.take_of_length_le (by simp)]
    by_cases hkn : k ≤ arr.length
    · rw [Nat.min_eq_left hkn]
    · rw [Nat.min_eq_right (by omega), List.drop_of_length_le (by omega), List.drop_of_length_le (by omega)]
  rw [hf, hv]
  have hl : (result.take (arr.length - k) ++ List.replicate (min k arr.length) fill).length = arr.length := by
    simp [h]; omega
  unfold assignSlice
  simp only [sliceLo, sliceHi, hl, h2]
  rw [broadcastTo_eq _ _ (by simp)]
  simp only [Nat.sub_zero, List.take_zero, List.nil_append, Nat.zero_add]
  congr 2
  rw [List.drop_append_of_le_length (by simp [h]), List.drop_of_length_le (by simp)]
  simp

theorem shiftRow_spec (result arr : List α) (h : result.length = arr.length) (num : Int) (fill : α) :
    ∃ row', shiftRow result arr num fill = .ok row' ∧ row'.length = arr.length ∧
      ∀ j : Nat, j < arr.length → row'[j]? =
        if 0 ≤ (j : Int) - num ∧ (j : Int) - num < arr.length then arr[((j : Int) - num).toNat]? else some fill := by
  rcases Int.lt_trichotomy num 0 with hn | hn | hn
  · obtain ⟨k, rfl⟩ : ∃ k : Nat, num = -(k : Int) := ⟨num.natAbs, by omega⟩
    refine ⟨_, shiftRow_neg result arr h k (by omega) fill, by simp; omega, ?_⟩
    intro j hj
    by_cases hc : j + k < arr.length
    · rw [if_pos (by omega), List.getElem?_append_left (by simp; omega), List.getElem?_drop]
      congr 1; omega
    · rw [if_neg (by omega), List.getElem?_append_right (by simp; omega), List.getElem?_replicate]
      simp; omega
  · subst hn
    refine ⟨arr, rfl, rfl, fun j hj => ?_⟩
    rw [if_pos (by omega)]; simp
  · obtain ⟨k, rfl⟩ : ∃ k : Nat, num = (k : Int) := ⟨num.toNat, by omega⟩
    refine ⟨_, shiftRow_pos result arr h k (by omega) fill, by simp; omega, ?_⟩
    intro j hj
    by_cases hc : k ≤ j
    · rw [if_pos (by omega), List.getElem?_append_right (by simp; omega), List.getElem?_take_of_lt (by simp; omega)]
      congr 1; simp; omega
    · rw [if_neg (by omega), List.getElem?_append_left (by simp; omega), List.getElem?_replicate]
      simp; omega

theorem shiftArray_spec (junk : Nat → Nat → α) (arr : List (List α)) (num : Int) (fill : α) :
    ∃ res, shiftArray junk arr num fill = .ok res ∧ res.length = arr.length ∧
      ∀ (i : Nat) (row : List α), arr[i]? = some row → ∃ row', res[i]? = some row' ∧ row'.length = row.length ∧
        ∀ j : Nat, j < row.length → row'[j]? =
          if 0 ≤ (j : Int) - num ∧ (j : Int) - num < row.length then row[((j : Int) - num).toNat]? else some fill := by
  unfold shiftArray
  generalize 0 = k0
  induction arr generalizing k0 with
  | nil => exact ⟨[], rfl, rfl, by simp⟩
  | cons r arr ih =>
    obtain ⟨res, h1, h2, h3⟩ := ih (k0 + 1)
    obtain ⟨r', g1, g2, g3⟩ := shiftRow_spec (r.mapIdx fun j _ => junk k0 j) r (by simp) num fill
    refine ⟨r' :: res, ?_, by simp [h2], ?_⟩
    · rw [List.zipIdx_cons, List.mapM_cons]
      simp only [g1, h1]
      rfl
    · intro i row hi
      cases i with
      | zero => simp at hi; subst hi; exact ⟨r', rfl, g2, g3⟩
      | succ i => exact h3 i row hi

end Verif.Lemmas
