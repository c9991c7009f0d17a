import Verif.Py.Basic
import Mathlib.Tactic.Ring
import Mathlib.Tactic.Linarith
import Mathlib.Algebra.Order.Ring.Int

/-! Lemmas about `range` and slice clamping. -/

namespace Verif.Py

theorem mem_range_pos {a b c x : Int} (hc : 0 < c) :
    x ∈ range a b c ↔ a ≤ x ∧ x < b ∧ c ∣ x - a := by
  unfold range rangeLen
  simp only [gt_iff_lt, hc, if_true, List.mem_map, List.mem_range]
  constructor
  · rintro ⟨i, hi, rfl⟩
    split at hi
    · rename_i hab
      have h1 : (i : Int) ≤ (b - a - 1) / c := by omega
      have h2 : (b - a - 1) / c * c ≤ b - a - 1 := Int.ediv_mul_le _ (by omega)
      have h3 : (i : Int) * c ≤ (b - a - 1) / c * c := by nlinarith
      have h4 : (0 : Int) ≤ (i : Int) * c := by positivity
      refine ⟨by omega, by omega, ?_⟩
      rw [add_sub_cancel_left]; exact Dvd.intro_left _ rfl
    · omega
  · rintro ⟨h1, h2, k, hk⟩
    have hk0 : 0 ≤ k := by
      by_contra h
      push Not at h
      nlinarith
    refine ⟨k.toNat, ?_, ?_⟩
    · have hab : a < b := by omega
      simp only [hab, if_true]
      have : k ≤ (b - a - 1) / c := by
        rw [Int.le_ediv_iff_mul_le hc]; nlinarith
      omega
    · have : ((k.toNat : Nat) : Int) = k := Int.toNat_of_nonneg hk0
      rw [this]; linarith [mul_comm c k]

theorem mem_range_neg {a b c x : Int} (hc : c < 0) :
    x ∈ range a b c ↔ x ≤ a ∧ b < x ∧ c ∣ x - a := by
  unfold range rangeLen
  have hc' : ¬ (c > 0) := by omega
  simp only [hc', if_false, hc, if_true, List.mem_map, List.mem_range]
  have hm : 0 < -c := by omega
  constructor
  · rintro ⟨i, hi, rfl⟩
    split at hi
    · rename_i hab
      have h1 : (i : Int) ≤ (a - b - 1) / (-c) := by omega
      have h2 : (a - b - 1) / (-c) * (-c) ≤ a - b - 1 := Int.ediv_mul_le _ (by omega)
      have h3 : (i : Int) * (-c) ≤ (a - b - 1) / (-c) * (-c) := by nlinarith
      have h4 : (0 : Int) ≤ (i : Int) * (-c) := by positivity
      have h5 : (i : Int) * (-c) = -((i : Int) * c) := by ring
      refine ⟨by omega, by omega, ?_⟩
      rw [add_sub_cancel_left]; exact Dvd.intro_left _ rfl
    · omega
  · rintro ⟨h1, h2, k, hk⟩
    have hk0 : 0 ≤ k := by
      by_contra h
      push Not at h
      nlinarith
    refine ⟨k.toNat, ?_, ?_⟩
    · have hab : b < a := by
        omega
      simp only [hab, if_true]
      have : k ≤ (a - b - 1) / (-c) := by
        rw [Int.le_ediv_iff_mul_le hm]; nlinarith
      omega
    · have : ((k.toNat : Nat) : Int) = k := Int.toNat_of_nonneg hk0
      rw [this]; linarith [mul_comm c k]

theorem range_pairwise_pos {a b c : Int} (hc : 0 < c) : (range a b c).Pairwise (· < ·) := by
  unfold range
  rw [List.pairwise_map]
  refine List.pairwise_lt_range.imp ?_
  intro i j hij
  have : (i : Int) < j := by exact_mod_cast hij
  nlinarith

theorem range_pairwise_neg {a b c : Int} (hc : c < 0) : (range a b c).Pairwise (· > ·) := by
  unfold range
  rw [List.pairwise_map]
  refine List.pairwise_lt_range.imp ?_
  intro i j hij
  have : (i : Int) < j := by exact_mod_cast hij
  show _ < _
  nlinarith

theorem range_zero_one (n : Nat) : range 0 n 1 = (List.range n).map (fun (i : Nat) => (i : Int)) := by
  unfold range rangeLen
  have : (if (1 : Int) > 0 then if (0 : Int) < n then (((n : Int) - 0 - 1) / 1 + 1).toNat else 0
      else if (1 : Int) < 0 then if (n : Int) < 0 then ((0 - (n : Int) - 1) / (-1) + 1).toNat else 0 else 0) = n := by
    simp only [gt_iff_lt, Int.zero_lt_one, if_true, Int.ediv_one]
    split <;> omega
  rw [this]; simp

end Verif.Py
