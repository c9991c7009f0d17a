import Verif.Spec.CrossCorr
import Verif.Lemmas.Reducers
import Mathlib.Algebra.Order.BigOperators.Group.Finset
import Mathlib.Algebra.BigOperators.Ring.Finset
import Mathlib.Algebra.BigOperators.Field
import Mathlib.Tactic.Ring
import Mathlib.Tactic.Linarith
import Mathlib.Tactic.Positivity
import Mathlib.Tactic.FieldSimp

namespace Verif.Lemmas

open Verif.Py Verif.Model Verif.Spec

theorem sum_list_range (n : Nat) (f : Nat → ℚ) : ((List.range n).map f).sum = ∑ i ∈ Finset.range n, f i := rfl

theorem padded_of_neg (row : List ℚ) (i : Int) (h : i < 0) : padded row i = 0 := by unfold padded; rw [if_neg (by omega)]

theorem padded_of_ge (row : List ℚ) (i : Int) (h : (row.length : Int) ≤ i) : padded row i = 0 := by
  unfold padded
  split_ifs
  · rw [List.getD_eq_getElem?_getD, List.getElem?_eq_none (by omega)]; rfl
  · rfl

theorem padded_nat (row : List ℚ) (i : Nat) : padded row (i : Int) = row.getD i 0 := by
  unfold padded; rw [if_pos (by omega)]; rfl

/-- autocorrelation of a pulse -/
def auto (y : List ℚ) (d : Int) : ℚ := ∑ k ∈ Finset.range y.length, padded y k * padded y ((k : Int) + d)

theorem shift_sum_le (L : Nat) (f : Int → ℚ) (h0 : ∀ i, 0 ≤ f i) (hneg : ∀ i < 0, f i = 0) (hge : ∀ i, (L : Int) ≤ i → f i = 0) (d : Int) :
    ∑ k ∈ Finset.range L, f ((k : Int) + d) ≤ ∑ k ∈ Finset.range L, f (k : Int) := by
  have h1 : ∑ k ∈ (Finset.range L).filter (fun (k : Nat) => 0 ≤ (k : Int) + d ∧ (k : Int) + d < L), f ((k : Int) + d) =
      ∑ k ∈ Finset.range L, f ((k : Int) + d) := by
    refine Finset.sum_filter_of_ne fun k _ hk => ?_
    constructor
    · by_contra h; exact hk (hneg _ (by omega))
    · by_contra h; exact hk (hge _ (by omega))
  have h2 : ∑ j ∈ ((Finset.range L).filter (fun (k : Nat) => 0 ≤ (k : Int) + d ∧ (k : Int) + d < L)).image (fun (k : Nat) => ((k : Int) + d).toNat),
      f (j : Int) = ∑ k ∈ (Finset.range L).filter (fun (k : Nat) => 0 ≤ (k : Int) + d ∧ (k : Int) + d < L), f ((k : Int) + d) := by
    rw [Finset.sum_image]
    · refine Finset.sum_congr rfl fun k hk => ?_
      have := (Finset.mem_filter.1 hk).2
      rw [Int.toNat_of_nonneg this.1]
    · intro a ha b hb hab
      have h1 := (Finset.mem_filter.1 ha).2
      have h2 := (Finset.mem_filter.1 hb).2
      simp only at hab
      omega
  rw [← h1, ← h2]
  refine Finset.sum_le_sum_of_subset_of_nonneg ?_ fun i _ _ => h0 _
  intro j hj
  obtain ⟨k, hk, rfl⟩ := Finset.mem_image.1 hj
  have := (Finset.mem_filter.1 hk).2
  rw [Finset.mem_range]
  omega

theorem auto_sq (y : List ℚ) (d : Int) :
    ∑ k ∈ Finset.range y.length, (padded y k - padded y ((k : Int) + d)) ^ 2 ≤ 2 * (auto y 0 - auto y d) := by
  have hs := shift_sum_le y.length (fun i => padded y i ^ 2) (fun i => by positivity) (fun i hi => by simp only [padded_of_neg y i hi]; norm_num)
    (fun i hi => by simp only [padded_of_ge y i hi]; norm_num) d
  have e : ∑ k ∈ Finset.range y.length, (padded y k - padded y ((k : Int) + d)) ^ 2 =
      ∑ k ∈ Finset.range y.length, padded y k ^ 2 - 2 * auto y d + ∑ k ∈ Finset.range y.length, padded y ((k : Int) + d) ^ 2 := by
    unfold auto
    rw [Finset.mul_sum, ← Finset.sum_sub_distrib, ← Finset.sum_add_distrib]
    exact Finset.sum_congr rfl fun k _ => by ring
  have e0 : auto y 0 = ∑ k ∈ Finset.range y.length, padded y k ^ 2 := by
    unfold auto
    exact Finset.sum_congr rfl fun k _ => by rw [add_zero]; ring
  rw [e, e0]
  linarith

theorem auto_le (y : List ℚ) (d : Int) : auto y d ≤ auto y 0 := by
  have h := auto_sq y d
  have : (0 : ℚ) ≤ ∑ k ∈ Finset.range y.length, (padded y k - padded y ((k : Int) + d)) ^ 2 := Finset.sum_nonneg fun k _ => by positivity
  linarith

/-- the autocorrelation of a pulse that is not zero has a single maximum -/
theorem auto_lt (y : List ℚ) (hy : ∃ k : Nat, padded y k ≠ 0) (d : Int) (hd : d ≠ 0) : auto y d < auto y 0 := by
  refine lt_of_le_of_ne (auto_le y d) fun he => ?_
  have h := auto_sq y d
  have hz : ∑ k ∈ Finset.range y.length, (padded y k - padded y ((k : Int) + d)) ^ 2 = 0 :=
    le_antisymm (by rw [he] at h; linarith) (Finset.sum_nonneg fun k _ => by positivity)
  have hper : ∀ k < y.length, padded y k = padded y ((k : Int) + d) := by
    intro k hk
    have := (Finset.sum_eq_zero_iff_of_nonneg fun k _ => by positivity).1 hz k (Finset.mem_range.2 hk)
    have := pow_eq_zero_iff (two_ne_zero) |>.1 this
    linarith
  have hall : ∀ i : Int, padded y i = 0 := by
    rcases lt_or_gt_of_ne hd with hneg | hpos
    · have : ∀ m : Nat, ∀ i : Int, i < m → padded y i = 0 := by
        intro m
        induction m with
        | zero => intro i hi; exact padded_of_neg y i (by exact_mod_cast hi)
        | succ m ih =>
          intro i hi
          by_cases h0 : i < m
          · exact ih i h0
          · by_cases hl : (y.length : Int) ≤ i
            · exact padded_of_ge y i hl
            · have h1 := hper i.toNat (by omega)
              rw [Int.toNat_of_nonneg (by omega)] at h1
              rw [h1]
              exact ih _ (by push_cast at hi; omega)
      intro i
      exact this (i.toNat + 1) i (by omega)
    · have : ∀ m : Nat, ∀ i : Int, (y.length : Int) - m ≤ i → padded y i = 0 := by
        intro m
        induction m with
        | zero => intro i hi; exact padded_of_ge y i (by simpa using hi)
        | succ m ih =>
          intro i hi
          by_cases h0 : (y.length : Int) - m ≤ i
          · exact ih i h0
          · by_cases hl : i < 0
            · exact padded_of_neg y i hl
            · have h1 := hper i.toNat (by omega)
              rw [Int.toNat_of_nonneg (by omega)] at h1
              rw [h1]
              exact ih _ (by push_cast at hi; omega)
      intro i
      exact this (y.length + i.natAbs) i (by omega)
  obtain ⟨k, hk⟩ := hy
  exact hk (hall k)

theorem auto_pos (y : List ℚ) (hy : ∃ k : Nat, padded y k ≠ 0) : 0 < auto y 0 := by
  obtain ⟨k, hk⟩ := hy
  have hkl : k < y.length := by
    by_contra h
    exact hk (padded_of_ge y k (by omega))
  unfold auto
  refine Finset.sum_pos' (fun i _ => by rw [add_zero]; exact mul_self_nonneg _) ⟨k, Finset.mem_range.2 hkl, ?_⟩
  rw [add_zero]
  exact mul_self_pos.2 hk

theorem trapz_area (y : List ℚ) : trapz y = area y := by
  induction y with
  | nil => rfl
  | cons a l ih =>
    cases l with
    | nil => rfl
    | cons b rest =>
      have e : trapz (a :: b :: rest) = (a + b) / 2 + trapz (b :: rest) := rfl
      rw [e, ih]
      unfold area
      simp only [List.length_cons, Nat.add_sub_cancel]
      rw [List.range_succ_eq_map, List.map_cons, List.sum_cons, List.map_map]
      rfl

theorem padded_map_div (y : List ℚ) (c : ℚ) (i : Int) : padded (y.map (· / c)) i = padded y i / c := by
  unfold padded
  split_ifs
  · rw [List.getD_eq_getElem?_getD, List.getD_eq_getElem?_getD, List.getElem?_map]
    cases y[i.toNat]? <;> simp
  · simp

theorem getD_map_div (y : List ℚ) (c : ℚ) (i : Nat) : (y.map (· / c)).getD i 0 = padded y i / c := by
  rw [← padded_nat, padded_map_div]

theorem exists_of_area (y : List ℚ) (h : area y ≠ 0) : ∃ k : Nat, padded y k ≠ 0 := by
  by_contra hn
  push Not at hn
  refine h ?_
  unfold area
  refine List.sum_eq_zero fun x hx => ?_
  obtain ⟨i, -, rfl⟩ := List.mem_map.1 hx
  rw [← padded_nat, ← padded_nat, hn, hn]
  norm_num

theorem padded_pulseRow (n s : Nat) (y : List ℚ) (q : ℚ) (h : s + y.length ≤ n) (i : Int) :
    padded (pulseRow n s y q) i = q * padded y (i - s) / area y := by
  by_cases h0 : i < 0
  · rw [padded_of_neg _ _ h0, padded_of_neg _ _ (by omega)]; ring
  · by_cases hn : (n : Int) ≤ i
    · rw [padded_of_ge _ _ (by simpa [pulseRow] using hn), padded_of_ge _ _ (by omega)]; ring
    · unfold padded pulseRow
      rw [if_pos (by omega), List.getD_eq_getElem?_getD, List.getElem?_map, List.getElem?_range (by omega)]
      simp only [Option.map_some, Option.getD_some]
      split_ifs with h1 h2 h2
      · rw [show (i - (s : Int)).toNat = i.toNat - s by omega]; ring
      · omega
      · omega
      · ring

/-- correlation with a weight list `c • y` aligned at its sample `am` -/
theorem correlateAt_eq (row y : List ℚ) (c : ℚ) (am i : Nat) :
    correlateAt row (y.map (· / c)) ((am : Int) - (y.length / 2 : Nat)) i =
      (∑ k ∈ Finset.range y.length, padded y k * padded row ((i : Int) + k - am)) / c := by
  unfold correlateAt
  rw [sum_list_range, List.length_map, Finset.sum_div]
  refine Finset.sum_congr rfl fun k _ => ?_
  rw [getD_map_div, show (i : Int) + k - (y.length / 2 : Nat) - ((am : Int) - (y.length / 2 : Nat)) = (i : Int) + k - am by ring]
  ring

theorem correlateAt_pulse (n s : Nat) (y : List ℚ) (q c : ℚ) (am i : Nat) (h : s + y.length ≤ n) :
    correlateAt (pulseRow n s y q) (y.map (· / c)) ((am : Int) - (y.length / 2 : Nat)) i = q * auto y ((i : Int) - am - s) / area y / c := by
  rw [correlateAt_eq]
  congr 1
  unfold auto
  rw [Finset.mul_sum, Finset.sum_div]
  refine Finset.sum_congr rfl fun k _ => ?_
  rw [padded_pulseRow n s y q h, show (i : Int) + k - am - s = (k : Int) + (i - am - s) by ring]
  ring

theorem argmax_map_div (y : List ℚ) (c : ℚ) (hc : 0 < c) (am : Nat) (h : argmax y = .ok am) : argmax (y.map (· / c)) = .ok am := by
  obtain ⟨m, h1, h2, h3⟩ := argmax_spec y am h
  refine argmax_unique _ am (m / c) (by rw [List.getElem?_map, h1]; rfl) ?_ ?_
  · intro k hk x hx
    rw [List.getElem?_map, Option.map_eq_some_iff] at hx
    obtain ⟨z, hz, rfl⟩ := hx
    exact div_lt_div_of_pos_right (h2 k hk z hz) hc
  · intro k x hx
    rw [List.getElem?_map, Option.map_eq_some_iff] at hx
    obtain ⟨z, hz, rfl⟩ := hx
    exact div_le_div_of_nonneg_right (h3 k z hz) hc.le

theorem argmax_firstMax (xs : List ℚ) (p : Nat) : argmax xs = .ok p ↔ FirstMax xs.length (fun i => xs.getD i 0) p := by
  have get : ∀ j < xs.length, xs[j]? = some (xs.getD j 0) := by
    intro j hj
    rw [List.getD_eq_getElem?_getD, List.getElem?_eq_getElem hj]
    rfl
  constructor
  · intro h
    obtain ⟨m, h1, h2, h3⟩ := argmax_spec _ _ h
    have hp : p < xs.length := (List.getElem?_eq_some_iff.1 h1).1
    rw [get p hp, Option.some.injEq] at h1
    subst h1
    exact ⟨hp, fun j hj => h3 j _ (get j hj), fun j hj => h2 j hj _ (get j (by omega))⟩
  · rintro ⟨hp, h1, h2⟩
    refine argmax_unique _ p _ (get p hp) ?_ ?_
    · intro k hk y hy
      rw [get k (by omega), Option.some.injEq] at hy
      rw [← hy]; exact h2 k hk
    · intro k y hy
      have hk : k < xs.length := (List.getElem?_eq_some_iff.1 hy).1
      rw [get k hk, Option.some.injEq] at hy
      rw [← hy]; exact h1 k hk

/-- what the constructor stores for a pulse of positive area: the shape divided by `auto / area`, the unit-area pulse, and the alignment at the
maximum of the shape -/
theorem newCrossCorr_ok (path : String) (hp : path ≠ "") (y : List ℚ) (hA : 0 < area y) :
    ∃ am, FirstMax y.length (fun i => y.getD i 0) am ∧
      newCrossCorr path y = .ok ⟨y.map (· / (auto y 0 / area y)), y.map (· / area y), (am : Int) - (y.length / 2 : Nat)⟩ := by
  have hex := exists_of_area y hA.ne'
  have hne : y ≠ [] := by rintro rfl; simp [area] at hA
  have hlen : 0 < y.length := List.length_pos_iff.2 hne
  obtain ⟨am, ham, hlt⟩ := argmax_ok y hne
  have hc : 0 < auto y 0 / area y := div_pos (auto_pos y hex) hA
  have hcorr : correlate1d (y.map (· / trapz y)) y ((am : Int) - (y.length / 2 : Nat)) =
      .ok ((List.range y.length).map fun (i : Nat) => auto y ((i : Int) - am) / area y) := by
    unfold correlate1d
    rw [if_neg (by omega), if_neg (by omega), List.length_map]
    congr 1
    refine List.map_congr_left fun i _ => ?_
    have e := correlateAt_eq (y.map (· / trapz y)) y 1 am i
    simp only [div_one, List.map_id'] at e
    rw [e, trapz_area]
    unfold auto
    rw [Finset.sum_div]
    refine Finset.sum_congr rfl fun k _ => ?_
    rw [padded_map_div, show (i : Int) + k - am = (k : Int) + (i - am) by ring]
    ring
  have hmax : rowMax ((List.range y.length).map fun (i : Nat) => auto y ((i : Int) - am) / area y) = .ok (auto y 0 / area y) := by
    rw [rowMax_spec]
    constructor
    · refine List.mem_map.2 ⟨am, List.mem_range.2 hlt, ?_⟩
      rw [sub_self]
    · intro x hx
      obtain ⟨i, -, rfl⟩ := List.mem_map.1 hx
      exact div_le_div_of_nonneg_right (auto_le y _) hA.le
  refine ⟨am, (argmax_firstMax y am).1 ham, ?_⟩
  unfold newCrossCorr loadReference
  rw [if_neg hp]
  rw [trapz_area] at hcorr ⊢
  simp only [ham, hcorr, hmax, argmax_map_div y _ hc am ham, List.length_map]

theorem correlateRows_ok (w : List ℚ) (o : Int) (h0 : w.length ≠ 0)
    (h1 : ¬ (((w.length / 2 : Nat) : Int) + o < 0 ∨ (w.length : Int) ≤ ((w.length / 2 : Nat) : Int) + o)) (ws : List (List ℚ)) :
    correlateRows w o ws = .ok (ws.map fun r => (List.range r.length).map (correlateAt r w o)) := by
  induction ws with
  | nil => rfl
  | cons r rs ih =>
    unfold correlateRows correlate1d
    rw [if_neg h0, if_neg h1, ih]
    rfl

end Verif.Lemmas
