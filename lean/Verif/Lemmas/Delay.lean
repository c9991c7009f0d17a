import Verif.Spec.Delay
import Verif.Lemmas.CrossCorr
import Verif.Lemmas.Reducers
import Mathlib.Data.List.Forall2
import Mathlib.Data.List.GetD

/-!
# Waveforms that arrive later: what the primitives of the reducers make of them
-/

namespace Verif.Lemmas

open Verif.Py Verif.Model Verif.Spec

variable {d m : Nat}

theorem _root_.Verif.Spec.DelayedBy.early {r r' : List ℚ} (h : DelayedBy d m r r') (i : Nat) (hi : i < m) : r.getD i 0 = 0 := by
  rw [← h.same]
  exact h.before _ (by omega)

theorem _root_.Verif.Spec.DelayedBy.late {r r' : List ℚ} (h : DelayedBy d m r r') (i : Nat) (hi : r.length ≤ i + d + m) : r.getD i 0 = 0 := by
  rw [← h.same]
  exact h.after _ (by rw [h.length]; omega)

theorem _root_.Verif.Spec.DelayedBy.mono {r r' : List ℚ} (h : DelayedBy d m r r') (m' : Nat) (hm : m' ≤ m) : DelayedBy d m' r r' :=
  ⟨h.length, fun i hi => h.before i (by omega), h.same, fun i hi => h.after i (by omega)⟩

theorem _root_.Verif.Spec.DelayedBy.padded {r r' : List ℚ} (h : DelayedBy d m r r') (i : Int) : Model.padded r' (i + d) = Model.padded r i := by
  by_cases h0 : 0 ≤ i
  · obtain ⟨k, rfl⟩ := Int.eq_ofNat_of_zero_le h0
    rw [← Int.natCast_add, padded_nat, padded_nat, h.same]
  · rw [padded_of_neg r i (by omega)]
    by_cases h1 : i + d < 0
    · exact padded_of_neg _ _ h1
    · obtain ⟨k, hk⟩ := Int.eq_ofNat_of_zero_le (show 0 ≤ i + d by omega)
      rw [hk, padded_nat]
      exact h.before k (by omega)

theorem _root_.Verif.Spec.DelayedBy.padded_early {r r' : List ℚ} (h : DelayedBy d m r r') (i : Int) (hi : i < d + m) : Model.padded r' i = 0 := by
  by_cases h1 : i < 0
  · exact padded_of_neg _ _ h1
  · obtain ⟨k, rfl⟩ := Int.eq_ofNat_of_zero_le (show 0 ≤ i by omega)
    rw [padded_nat]
    exact h.before k (by omega)

theorem _root_.Verif.Spec.DelayedBy.padded_late {r r' : List ℚ} (h : DelayedBy d m r r') (i : Int) (hi : (r'.length : Int) ≤ i + m) : Model.padded r' i = 0 := by
  by_cases h1 : i < 0
  · exact padded_of_neg _ _ h1
  · obtain ⟨k, rfl⟩ := Int.eq_ofNat_of_zero_le (show 0 ≤ i by omega)
    rw [padded_nat]
    exact h.after k (by omega)

theorem getD_range_map (n : Nat) (f : Nat → ℚ) (i : Nat) : ((List.range n).map f).getD i 0 = if i < n then f i else 0 := by
  rw [List.getD_eq_getElem?_getD, List.getElem?_map]
  by_cases h : i < n
  · rw [List.getElem?_range h, if_pos h]; rfl
  · rw [List.getElem?_eq_none (by simpa using h), if_neg h]; rfl

/-- the correlation of a delayed waveform is delayed -/
theorem correlate_delayed {r r' : List ℚ} (w : List ℚ) (o : Int) (h : DelayedBy d (m + w.length) r r')
    (ho : ¬ (((w.length / 2 : Nat) : Int) + o < 0 ∨ (w.length : Int) ≤ ((w.length / 2 : Nat) : Int) + o)) :
    DelayedBy d m ((List.range r.length).map (correlateAt r w o)) ((List.range r'.length).map (correlateAt r' w o)) := by
  have early : ∀ i : Nat, i < d + m → correlateAt r' w o i = 0 := by
    intro i hi
    unfold correlateAt
    apply List.sum_eq_zero
    intro x hx
    obtain ⟨k, hk, rfl⟩ := List.mem_map.1 hx
    have hk := List.mem_range.1 hk
    rw [h.padded_early _ (by omega), mul_zero]
  have late : ∀ i : Nat, r'.length ≤ i + m → correlateAt r' w o i = 0 := by
    intro i hi
    unfold correlateAt
    apply List.sum_eq_zero
    intro x hx
    obtain ⟨k, hk, rfl⟩ := List.mem_map.1 hx
    have hk := List.mem_range.1 hk
    rw [h.padded_late _ (by omega), mul_zero]
  have same : ∀ i : Nat, correlateAt r' w o (i + d) = correlateAt r w o i := by
    intro i
    unfold correlateAt
    congr 1
    refine List.map_congr_left fun k _ => ?_
    rw [← h.padded]
    congr 2
    push_cast
    ring
  refine ⟨by simp [h.length], ?_, ?_, ?_⟩
  · intro i hi
    rw [getD_range_map]
    split
    · exact early i hi
    · rfl
  · intro i
    rw [getD_range_map, getD_range_map, h.length]
    by_cases h1 : i + d < r.length
    · rw [if_pos h1, if_pos (by omega), same]
    · rw [if_neg h1]
      split
      · rw [← same, late _ (by rw [h.length]; omega)]
      · rfl
  · intro i hi
    rw [getD_range_map]
    split
    · exact late i (by simpa using hi)
    · rfl

/-- the first maximum of a delayed waveform is delayed, and it lies inside the margins -/
theorem argmax_delayed {r r' : List ℚ} (h : DelayedBy d m r r') (hpos : ∃ i, 0 < r.getD i 0) (p : Nat) (hp : argmax r = .ok p) :
    argmax r' = .ok (p + d) ∧ 0 < r.getD p 0 ∧ m ≤ p ∧ p + d + m < r.length := by
  rw [argmax_firstMax] at hp
  obtain ⟨h1, h2, h3⟩ := hp
  obtain ⟨i, hi⟩ := hpos
  have hil : i < r.length := by
    by_contra hc
    rw [List.getD_eq_default _ _ (by omega)] at hi
    exact lt_irrefl _ hi
  have pos : 0 < r.getD p 0 := lt_of_lt_of_le hi (h2 i hil)
  have hm : m ≤ p := by
    by_contra hc
    rw [DelayedBy.early h p (by omega)] at pos
    exact lt_irrefl _ pos
  have hl : p + d + m < r.length := by
    by_contra hc
    rw [DelayedBy.late h p (by omega)] at pos
    exact lt_irrefl _ pos
  refine ⟨?_, pos, hm, hl⟩
  rw [argmax_firstMax]
  refine ⟨by rw [h.length]; omega, ?_, ?_⟩
  · intro j hj
    simp only
    rw [h.same p]
    by_cases hjd : j < d
    · rw [h.before j (by omega)]; exact pos.le
    · obtain ⟨k, rfl⟩ := Nat.exists_eq_add_of_le (Nat.le_of_not_lt hjd)
      rw [Nat.add_comm d k, h.same k]
      rw [h.length] at hj
      exact h2 k (by omega)
  · intro j hj
    simp only
    rw [h.same p]
    by_cases hjd : j < d
    · rw [h.before j (by omega)]; exact pos
    · obtain ⟨k, rfl⟩ := Nat.exists_eq_add_of_le (Nat.le_of_not_lt hjd)
      rw [Nat.add_comm d k, h.same k]
      exact h3 k (by omega)

theorem rowMax_delayed {r r' : List ℚ} (h : DelayedBy d m r r') : rowMax r' = rowMax r := by
  have mem : ∀ (s : List ℚ) (x : ℚ), x ∈ s ↔ ∃ i < s.length, s.getD i 0 = x := by
    intro s x
    rw [List.mem_iff_getElem]
    constructor
    · rintro ⟨i, hi, rfl⟩
      exact ⟨i, hi, by rw [List.getD_eq_getElem _ _ hi]⟩
    · rintro ⟨i, hi, rfl⟩
      exact ⟨i, hi, by rw [List.getD_eq_getElem _ _ hi]⟩
  have same : ∀ x, x ∈ r ↔ x ∈ r' := by
    intro x
    rw [mem, mem, h.length]
    constructor
    · rintro ⟨i, hi, rfl⟩
      by_cases hd : i + d < r.length
      · exact ⟨i + d, hd, h.same i⟩
      · refine ⟨0, by omega, ?_⟩
        rw [DelayedBy.late h i (by omega)]
        exact h.before _ (by omega)
    · rintro ⟨i, hi, rfl⟩
      by_cases hd : d ≤ i
      · obtain ⟨k, rfl⟩ := Nat.exists_eq_add_of_le hd
        exact ⟨k, by omega, by rw [Nat.add_comm d k, h.same]⟩
      · by_cases hdl : d ≤ r.length
        · refine ⟨r.length - d + i, by omega, ?_⟩
          rw [DelayedBy.late h _ (by omega), h.before i (by omega)]
        · exact ⟨i, hi, by rw [DelayedBy.late h _ (by omega), h.before i (by omega)]⟩
  cases hr : rowMax r with
  | ok x =>
    rw [rowMax_spec] at hr ⊢
    exact ⟨(same x).1 hr.1, fun y hy => hr.2 y ((same y).2 hy)⟩
  | error e =>
    cases r with
    | nil =>
      have : r' = [] := List.length_eq_zero_iff.1 (by rw [h.length]; rfl)
      rw [this, ← hr]
    | cons a l => cases hr

theorem delayed_length {ws ws' : List (List ℚ)} (h : EventDelayedBy d m ws ws') (n : Nat) (he : Event n ws) : Event n ws' := by
  constructor
  · intro hc
    subst hc
    cases h
    exact he.1 rfl
  · have : ∀ {a b : List (List ℚ)}, List.Forall₂ (DelayedBy d m) a b → (∀ r ∈ a, r.length = n) → ∀ r ∈ b, r.length = n := by
      intro a b hab
      induction hab with
      | nil => simp
      | cons hr _ ih =>
        intro ha r hm
        rcases List.mem_cons.1 hm with rfl | hm
        · rw [hr.length]; exact ha _ List.mem_cons_self
        · exact ih (fun r hr => ha r (List.mem_cons_of_mem _ hr)) r hm
    exact this h he.2

/-- values computed from corresponding rows -/
theorem forall₂_map_eq {α β γ : Type} {R : α → β → Prop} {a : List α} {b : List β} (h : List.Forall₂ R a b) (f : α → γ) (g : β → γ)
    (hfg : ∀ x y, x ∈ a → R x y → g y = f x) : b.map g = a.map f := by
  induction h with
  | nil => rfl
  | cons hr _ ih =>
    rw [List.map_cons, List.map_cons, hfg _ _ List.mem_cons_self hr, ih fun x y hx => hfg x y (List.mem_cons_of_mem _ hx)]

/-- a number made of all pixels, sample by sample, is delayed -/
theorem columns_delayed {ws ws' : List (List ℚ)} (h : EventDelayedBy d m ws ws') (n : Nat) (he : ∀ r ∈ ws, r.length = n) (F : List ℚ → ℚ)
    (hF : ∀ xs, (∀ x ∈ xs, x = 0) → F xs = 0) :
    DelayedBy d m ((List.range n).map fun j => F (column ws j)) ((List.range n).map fun j => F (column ws' j)) := by
  have zero : ∀ (vs : List (List ℚ)) (j : Nat), (∀ r ∈ vs, r.getD j 0 = 0) → F (column vs j) = 0 := by
    intro vs j hz
    apply hF
    intro x hx
    obtain ⟨r, hr, rfl⟩ := List.mem_map.1 hx
    exact hz r hr
  have all' : ∀ (P : List ℚ → Prop), (∀ r r', DelayedBy d m r r' → r ∈ ws → P r') → ∀ r' ∈ ws', P r' := by
    intro P hP
    clear he zero
    unfold EventDelayedBy at h
    induction h with
    | nil => simp
    | cons hr _ ih =>
      intro r' hm
      rcases List.mem_cons.1 hm with rfl | hm
      · exact hP _ _ hr List.mem_cons_self
      · exact ih (fun r r' hd hr => hP r r' hd (List.mem_cons_of_mem _ hr)) r' hm
  have same : ∀ i, F (column ws' (i + d)) = F (column ws i) := by
    intro i
    unfold column
    rw [forall₂_map_eq h (fun r => r.getD i 0) (fun r => r.getD (i + d) 0) fun r r' _ hr => hr.same i]
  have early : ∀ i < d + m, F (column ws' i) = 0 := fun i hi => zero _ _ (all' _ fun r r' hr _ => hr.before i hi)
  have late : ∀ i, n ≤ i + m → F (column ws' i) = 0 := fun i hi => zero _ _ (all' _ fun r r' hr hm => hr.after i (by
    rw [hr.length, he r hm]; exact hi))
  refine ⟨by simp, ?_, ?_, ?_⟩
  · intro i hi
    rw [getD_range_map]
    split
    · exact early i hi
    · rfl
  · intro i
    rw [getD_range_map, getD_range_map]
    by_cases h1 : i + d < n
    · rw [if_pos h1, if_pos (by omega), same]
    · rw [if_neg h1]
      split
      · rw [← same, late _ (by omega)]
      · rfl
  · intro i hi
    rw [getD_range_map]
    split
    · exact late i (by simpa using hi)
    · rfl

/-- the average waveform of a delayed event is delayed -/
theorem colMeans_delayed {ws ws' : List (List ℚ)} (h : EventDelayedBy d m ws ws') (n : Nat) (he : ∀ r ∈ ws, r.length = n) :
    DelayedBy d m (colMeans n ws) (colMeans n ws') :=
  columns_delayed h n he mean fun xs hx => by unfold mean; rw [List.sum_eq_zero hx, zero_div]

/-- sums over pixels are delayed -/
theorem sumRows_delayed {ws ws' : List (List ℚ)} (h : EventDelayedBy d m ws ws') (n : Nat) (he : ∀ r ∈ ws, r.length = n) :
    DelayedBy d m (sumRows n ws) (sumRows n ws') :=
  columns_delayed h n he List.sum fun xs hx => List.sum_eq_zero hx

theorem sum_take_drop (r : List ℚ) (a k : Nat) : ((r.drop a).take k).sum = windowSum r a k := by
  unfold windowSum
  induction k generalizing a with
  | zero => simp
  | succ k ih =>
    rw [List.range_succ, List.map_append, List.sum_append, ← ih a, List.take_add_one, List.sum_append, List.getElem?_drop]
    rw [List.map_singleton, List.sum_singleton, List.getD_eq_getElem?_getD]
    cases r[a + k]? <;> simp

theorem windowSum_delayed {r r' : List ℚ} (h : DelayedBy d m r r') (a k : Nat) : windowSum r' (a + d) k = windowSum r a k := by
  unfold windowSum
  congr 1
  refine List.map_congr_left fun i _ => ?_
  rw [show a + d + i = a + i + d by omega, h.same]

/-- the sum over a slice from a sample of the row on -/
theorem sliceList_sum (r : List ℚ) (a b : Nat) : (sliceList r (some (a : Int)) (some (b : Int))).sum = windowSum r a (b - a) := by
  have e : sliceList r (some (a : Int)) (some (b : Int)) = (r.drop (min a r.length)).take (min b r.length - min a r.length) := by
    unfold sliceList clampIndex
    simp only
    rw [if_neg (show ¬ ((a : Int) < 0) by omega), if_neg (show ¬ ((b : Int) < 0) by omega), Int.toNat_natCast, Int.toNat_natCast]
  rw [e, sum_take_drop]
  have zero : ∀ i, r.length ≤ i → r.getD i 0 = 0 := fun i hi => List.getD_eq_default _ _ hi
  unfold windowSum
  by_cases ha : r.length ≤ a
  · rw [show min b r.length - min a r.length = 0 by omega]
    simp only [List.range_zero, List.map_nil, List.sum_nil]
    symm
    apply List.sum_eq_zero
    intro x hx
    obtain ⟨i, -, rfl⟩ := List.mem_map.1 hx
    exact zero _ (by omega)
  · rw [show min a r.length = a by omega]
    by_cases hb : b ≤ r.length
    · rw [show min b r.length = b by omega]
    · rw [show min b r.length = r.length by omega, show b - a = r.length - a + (b - r.length) by omega, List.range_add, List.map_append, List.sum_append]
      symm
      convert add_zero _
      apply List.sum_eq_zero
      intro x hx
      obtain ⟨i, hi, rfl⟩ := List.mem_map.1 hx
      obtain ⟨k, -, rfl⟩ := List.mem_map.1 hi
      exact zero _ (by omega)

theorem sliceList_sum_from (r : List ℚ) (a b : Nat) (hb : r.length ≤ b) : (sliceList r (some (a : Int)) none).sum = windowSum r a (b - a) := by
  rw [← sliceList_sum]
  congr 1
  unfold sliceList clampIndex
  simp only
  rw [if_neg (show ¬ ((b : Int) < 0) by omega), show min (b : Int).toNat r.length = r.length by omega]

/-- a delayed waveform has the same samples in another order -/
theorem delayed_perm {r r' : List ℚ} (h : DelayedBy d m r r') : r'.Perm r := by
  by_cases hd : d ≤ r.length
  · have e1 : r = r.take (r.length - d) ++ List.replicate d 0 := by
      apply List.ext_getElem
      · simp; omega
      · intro i h1 h2
        rw [List.getElem_append]
        split
        · rw [List.getElem_take]
        · rename_i hi
          simp only [List.length_take] at hi
          rw [List.getElem_replicate, ← List.getD_eq_getElem r 0 h1]
          exact h.late i (by omega)
    have e2 : r' = List.replicate d 0 ++ r.take (r.length - d) := by
      apply List.ext_getElem
      · simp [h.length]; omega
      · intro i h1 h2
        rw [List.getElem_append]
        split
        · rename_i hi
          simp only [List.length_replicate] at hi
          rw [List.getElem_replicate, ← List.getD_eq_getElem r' 0 h1]
          exact h.before i (by omega)
        · rename_i hi
          simp only [List.length_replicate] at hi
          rw [List.getElem_take, ← List.getD_eq_getElem r' 0 h1]
          rw [h.length] at h1
          rw [← List.getD_eq_getElem r 0 (by simp only [List.length_replicate]; omega)]
          simp only [List.length_replicate]
          rw [← h.same, show i - d + d = i by omega]
    have hp : (List.replicate d 0 ++ r.take (r.length - d)).Perm (r.take (r.length - d) ++ List.replicate d 0) := List.perm_append_comm
    rwa [← e2, ← e1] at hp
  · have : r' = r := by
      apply List.ext_getElem h.length
      intro i h1 h2
      rw [← List.getD_eq_getElem r' 0 h1, ← List.getD_eq_getElem r 0 h2, h.before i (by omega), h.late i (by omega)]
    rw [this]

end Verif.Lemmas
