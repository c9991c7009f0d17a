import Mathlib.Order.Basic
import Mathlib.Order.Lattice
import Mathlib.Data.List.Basic

/-!
# Sorted distinct values: `np.unique` and the group keys of `DataFrame.groupby`
-/

namespace Verif.Py

variable {κ : Type} [LinearOrder κ]

/-- insertion into a strictly sorted list, keeping it free of duplicates -/
def insertUnique (x : κ) : List κ → List κ
  | [] => [x]
  | y :: ys => if x < y then x :: y :: ys else if x = y then y :: ys else y :: insertUnique x ys

/-- `np.unique(xs)`: the distinct values in ascending order (also the order of the groups of `groupby`) -/
def unique (xs : List κ) : List κ := xs.foldr insertUnique []

theorem mem_insertUnique (x y : κ) (l : List κ) : y ∈ insertUnique x l ↔ y = x ∨ y ∈ l := by
  induction l with
  | nil => simp [insertUnique]
  | cons z zs ih =>
    unfold insertUnique
    split
    · simp
    · split
      · rename_i h; subst h; simp
      · simp [ih]; tauto

theorem mem_unique (y : κ) (l : List κ) : y ∈ unique l ↔ y ∈ l := by
  induction l with
  | nil => simp [unique]
  | cons z zs ih =>
    have : unique (z :: zs) = insertUnique z (unique zs) := rfl
    rw [this, mem_insertUnique, ih]; simp

theorem pairwise_insertUnique (x : κ) (l : List κ) (h : l.Pairwise (· < ·)) : (insertUnique x l).Pairwise (· < ·) := by
  induction l with
  | nil => simp [insertUnique]
  | cons z zs ih =>
    rw [List.pairwise_cons] at h
    unfold insertUnique
    split
    · rename_i hx
      rw [List.pairwise_cons]
      refine ⟨fun y hy => ?_, List.pairwise_cons.2 h⟩
      rcases List.mem_cons.1 hy with rfl | hy
      · exact hx
      · exact lt_trans hx (h.1 y hy)
    · split
      · exact List.pairwise_cons.2 h
      · rename_i h1 h2
        rw [List.pairwise_cons]
        refine ⟨fun y hy => ?_, ih h.2⟩
        rcases (mem_insertUnique x y zs).1 hy with rfl | hy
        · exact lt_of_le_of_ne (not_lt.1 h1) (Ne.symm h2)
        · exact h.1 y hy

theorem pairwise_unique (l : List κ) : (unique l).Pairwise (· < ·) := by
  induction l with
  | nil => simp [unique]
  | cons z zs ih => exact pairwise_insertUnique z _ ih

theorem nodup_unique (l : List κ) : (unique l).Nodup := (pairwise_unique l).imp ne_of_lt

/-- `max` of a column: `none` for an empty one (NaN in pandas) -/
def maximum? : List Int → Option Int
  | [] => none
  | x :: xs => some (xs.foldl max x)

theorem maximum?_spec (l : List Int) (h : l ≠ []) : ∃ m, maximum? l = some m ∧ m ∈ l ∧ ∀ x ∈ l, x ≤ m := by
  cases l with
  | nil => exact absurd rfl h
  | cons x xs =>
    refine ⟨_, rfl, ?_⟩
    clear h
    induction xs generalizing x with
    | nil => simp
    | cons y ys ih =>
      rw [List.foldl_cons]
      obtain ⟨h1, h2⟩ := ih (max x y)
      constructor
      · rcases List.mem_cons.1 h1 with h | h
        · rw [h]
          rcases le_total x y with hxy | hxy
          · rw [max_eq_right hxy]; simp
          · rw [max_eq_left hxy]; simp
        · simp [h]
      · intro z hz
        have hm := h2 (max x y) (by simp)
        rcases List.mem_cons.1 hz with rfl | hz
        · exact le_trans (le_max_left _ _) hm
        · rcases List.mem_cons.1 hz with rfl | hz
          · exact le_trans (le_max_right _ _) hm
          · exact h2 z (by simp [hz])

end Verif.Py
