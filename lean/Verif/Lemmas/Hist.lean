import Verif.Py.Hist
import Mathlib.Data.List.Basic
import Mathlib.Order.Basic

namespace Verif.Lemmas

open Verif.Py

variable {α : Type} [LinearOrder α]

omit [LinearOrder α] in
theorem binsOf_first (a b : α) (rest : List α) : binsOf (a :: b :: rest) = (a, b, rest.isEmpty) :: binsOf (b :: rest) := by
  rw [binsOf]

theorem binsOf_ge (edges : List α) (a : α) (h : (a :: edges).Pairwise (· < ·)) (bin : α × α × Bool) (hb : bin ∈ binsOf (a :: edges)) : a ≤ bin.1 := by
  induction edges generalizing a with
  | nil => simp [binsOf] at hb
  | cons b rest ih =>
    rw [binsOf_first, List.mem_cons] at hb
    rcases hb with rfl | hb
    · exact le_refl _
    · have h2 := List.pairwise_cons.1 h
      exact le_trans (h2.1 b List.mem_cons_self).le (ih b h2.2 hb)

omit [LinearOrder α] in
theorem binsOf_length (edges : List α) : (binsOf edges).length = edges.length - 1 := by
  induction edges with
  | nil => rfl
  | cons a rest ih =>
    cases rest with
    | nil => rfl
    | cons b rest => rw [binsOf_first, List.length_cons, ih]; simp

/-- for increasing edges every value from the first to the last edge is in exactly one bin -/
theorem one_bin (edges : List α) (a : α) (h : (a :: edges).Pairwise (· < ·)) (hne : edges ≠ []) (x : α) (h0 : a ≤ x)
    (h1 : x ≤ (a :: edges).getLast (by simp)) : ((binsOf (a :: edges)).filter fun bin => inBin bin x).length = 1 := by
  induction edges generalizing a with
  | nil => exact absurd rfl hne
  | cons b rest ih =>
    have h2 := List.pairwise_cons.1 h
    rw [binsOf_first, List.filter_cons]
    by_cases hx : x < b
    · have : inBin (a, b, rest.isEmpty) x = true := by simp [inBin, h0, hx]
      rw [if_pos this, List.length_cons]
      have hnil : (binsOf (b :: rest)).filter (fun bin => inBin bin x) = [] := by
        rw [List.filter_eq_nil_iff]
        intro bin hbin
        have := binsOf_ge rest b h2.2 bin hbin
        simp only [inBin, Bool.and_eq_true, decide_eq_true_eq, not_and]
        intro h3
        exact absurd (lt_of_lt_of_le hx this) (not_lt.2 h3)
      rw [hnil]; rfl
    · have hx := not_lt.1 hx
      cases rest with
      | nil =>
        have hxb : x = b := le_antisymm (by simpa using h1) hx
        have : inBin (a, b, ([] : List α).isEmpty) x = true := by rw [← hxb]; simp [inBin, h0]
        rw [if_pos this]
        simp [binsOf]
      | cons c rest =>
        have : ¬ inBin (a, b, (c :: rest).isEmpty) x = true := by
          simp [inBin, hx]
        rw [if_neg this]
        refine ih b h2.2 (by simp) hx ?_
        rw [List.getLast_cons (by simp)] at h1
        exact h1

/-- values outside the edges are in no bin -/
theorem no_bin (edges : List α) (a : α) (h : (a :: edges).Pairwise (· < ·)) (x : α)
    (hx : x < a ∨ (a :: edges).getLast (by simp) < x) : (binsOf (a :: edges)).filter (fun bin => inBin bin x) = [] := by
  induction edges generalizing a with
  | nil => simp [binsOf]
  | cons b rest ih =>
    have h2 := List.pairwise_cons.1 h
    rw [binsOf_first, List.filter_cons]
    have hab := h2.1 b List.mem_cons_self
    rw [List.getLast_cons (by simp)] at hx
    have hle : b ≤ (b :: rest).getLast (by simp) := by
      cases rest with
      | nil => simp
      | cons c rest => exact ((List.pairwise_cons.1 h2.2).1 _ (List.getLast_mem _)).le
    have : ¬ inBin (a, b, rest.isEmpty) x = true := by
      rcases hx with hx | hx
      · simp [inBin, not_le.2 hx]
      · have := lt_of_le_of_lt hle hx
        simp [inBin, not_lt.2 this.le, this.ne']
    rw [if_neg this]
    refine ih b h2.2 ?_
    rcases hx with hx | hx
    · exact Or.inl (lt_trans hx hab)
    · exact Or.inr hx

end Verif.Lemmas
