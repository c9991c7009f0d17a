import Verif.Model.ModuleTables
import Verif.Props.RunningStats
import Mathlib.Algebra.Order.BigOperators.Group.List
import Mathlib.Tactic.Linarith
import Mathlib.Tactic.FieldSimp
import Mathlib.Tactic.Ring
import Mathlib.Tactic.Positivity

/-!
# C183: statistics per module of a DL1 table
-/

namespace Verif.Props

open Verif.Py Verif.Model

/-- the charges that the rows of the pixels `64 tm, …, 64 tm + 63` have, in the order of the table -/
def chargesOf (table : List PixelCharge) (tm : Int) : List ℚ :=
  (table.filter fun e => decide (64 * tm ≤ e.pixel ∧ e.pixel < 64 * tm + 64)).filterMap PixelCharge.charge

/-- all charges of the table -/
def allCharges (table : List PixelCharge) : List ℚ := table.filterMap PixelCharge.charge

theorem selectModule_eq (table : List PixelCharge) (tm : Int) :
    selectModule table tm = table.filter fun e => decide (64 * tm ≤ e.pixel ∧ e.pixel < 64 * tm + 64) := by
  unfold selectModule
  apply List.filter_congr
  intro e _
  rw [decide_eq_decide]
  omega

theorem tmCharges_eq (table : List PixelCharge) (tm : Int) : tmCharges table tm = chargesOf table tm := by
  unfold chargesOf
  rw [← selectModule_eq]
  rfl

/-- **C183**, the subset of a module: the rows of its 64 pixels, unchanged and in the order of the table; each row of the table is in the subset of
exactly one module. -/
theorem C183_subset (table : List PixelCharge) :
    (∀ tm, (selectModule table tm).Sublist table ∧
      ∀ e, e ∈ selectModule table tm ↔ e ∈ table ∧ 64 * tm ≤ e.pixel ∧ e.pixel < 64 * tm + 64) ∧
    ∀ e ∈ table, ∃ tm, ∀ tm', (selectModule table tm').count e = if tm' = tm then table.count e else 0 := by
  refine ⟨fun tm => ⟨List.filter_sublist, fun e => ?_⟩, fun e _ => ⟨e.pixel / 64, fun tm' => ?_⟩⟩
  · rw [selectModule_eq]; simp
  · unfold selectModule
    split
    · rename_i h
      rw [List.count_filter (by simpa using h.symm)]
    · rename_i h
      rw [List.count_eq_zero]
      intro hm
      rw [List.mem_filter] at hm
      exact h (of_decide_eq_true hm.2).symm

example : ∃ tm, ∀ tm', (selectModule [⟨70, some 3⟩, ⟨3, none⟩, ⟨71, some 4⟩] tm').count ⟨71, some 4⟩ = if tm' = tm then 1 else 0 :=
  (C183_subset [⟨70, some 3⟩, ⟨3, none⟩, ⟨71, some 4⟩]).2 ⟨71, some 4⟩ (by simp)

/-- **C183**, the modules of the tables: each module with a row once, in ascending order; the same in all four tables -/
theorem C183_modules (table : List PixelCharge) :
    ((meanPerTm table).map Prod.fst).Pairwise (· < ·) ∧
    (∀ tm, tm ∈ (meanPerTm table).map Prod.fst ↔ ∃ e ∈ table, 64 * tm ≤ e.pixel ∧ e.pixel < 64 * tm + 64) ∧
    (multipleStatistics table).map Prod.fst = (meanPerTm table).map Prod.fst ∧
    (differentStatistics table).map Prod.fst = (meanPerTm table).map Prod.fst ∧
    (stdComparison table).map Prod.fst = (meanPerTm table).map Prod.fst := by
  have h1 : (meanPerTm table).map Prod.fst = tmKeys table := by simp [meanPerTm, List.map_map, Function.comp_def]
  refine ⟨?_, fun tm => ?_, ?_, ?_, ?_⟩
  · rw [h1]; exact pairwise_unique _
  · rw [h1, tmKeys, mem_unique, List.mem_map]
    constructor
    · rintro ⟨e, he, rfl⟩
      exact ⟨e, he, by omega, by omega⟩
    · rintro ⟨e, he, h, h'⟩
      exact ⟨e, he, by omega⟩
  · rw [h1]; simp [multipleStatistics, List.map_map, Function.comp_def]
  · rw [h1]; simp [differentStatistics, List.map_map, Function.comp_def]
  · rw [h1]; simp [stdComparison, List.map_map, Function.comp_def]

theorem foldl_min_attained (xs : List ℚ) (x : ℚ) : xs.foldl min x ∈ x :: xs ∧ ∀ y ∈ x :: xs, xs.foldl min x ≤ y := by
  induction xs generalizing x with
  | nil => simp
  | cons a xs ih =>
    obtain ⟨h1, h2⟩ := ih (min x a)
    rw [List.foldl_cons]
    constructor
    · rcases List.mem_cons.1 h1 with h | h
      · rw [h]
        rcases min_choice x a with h' | h' <;> rw [h'] <;> simp
      · simp [h]
    · intro y hy
      have hm := h2 (min x a) (by simp)
      simp only [List.mem_cons] at hy
      rcases hy with rfl | rfl | hy
      · exact hm.trans (min_le_left _ _)
      · exact hm.trans (min_le_right _ _)
      · exact h2 y (by simp [hy])

theorem foldl_max_attained (xs : List ℚ) (x : ℚ) : xs.foldl max x ∈ x :: xs ∧ ∀ y ∈ x :: xs, y ≤ xs.foldl max x := by
  induction xs generalizing x with
  | nil => simp
  | cons a xs ih =>
    obtain ⟨h1, h2⟩ := ih (max x a)
    rw [List.foldl_cons]
    constructor
    · rcases List.mem_cons.1 h1 with h | h
      · rw [h]
        rcases max_choice x a with h' | h' <;> rw [h'] <;> simp
      · simp [h]
    · intro y hy
      have hm := h2 (max x a) (by simp)
      simp only [List.mem_cons] at hy
      rcases hy with rfl | rfl | hy
      · exact (le_max_left _ _).trans hm
      · exact (le_max_right _ _).trans hm
      · exact h2 y (by simp [hy])

theorem sum_between (xs : List ℚ) (a b : ℚ) (h : ∀ y ∈ xs, a ≤ y ∧ y ≤ b) : xs.length * a ≤ xs.sum ∧ xs.sum ≤ xs.length * b := by
  induction xs with
  | nil => simp
  | cons x xs ih =>
    obtain ⟨h1, h2⟩ := ih fun y hy => h y (by simp [hy])
    obtain ⟨h3, h4⟩ := h x (by simp)
    simp only [List.length_cons, List.sum_cons]
    push_cast
    constructor <;> nlinarith

/-- **C183**, mean, minimum and maximum of a module: the minimum and the maximum are charges of the module that no other is below or above, and the
mean times the number of charges is their sum, between them. A module whose charges are all missing has NaN three times. -/
theorem C183_extremes (table : List PixelCharge) (tm : Int) (mean lo hi : Option ℚ) (h : (tm, mean, lo, hi) ∈ multipleStatistics table) :
    (chargesOf table tm = [] → mean = none ∧ lo = none ∧ hi = none) ∧
    (chargesOf table tm ≠ [] → ∃ m a b, mean = some m ∧ lo = some a ∧ hi = some b ∧
      a ∈ chargesOf table tm ∧ b ∈ chargesOf table tm ∧ (∀ c ∈ chargesOf table tm, a ≤ c ∧ c ≤ b) ∧
      m * (chargesOf table tm).length = (chargesOf table tm).sum ∧ a ≤ m ∧ m ≤ b) := by
  unfold multipleStatistics at h
  obtain ⟨k, -, hk⟩ := List.mem_map.1 h
  simp only [Prod.mk.injEq] at hk
  obtain ⟨rfl, rfl, rfl, rfl⟩ := hk
  rw [tmCharges_eq]
  cases hc : chargesOf table k with
  | nil => simp [pandasMean, columnMin, columnMax]
  | cons x xs =>
    refine ⟨by simp, fun _ => ?_⟩
    obtain ⟨m1, m2⟩ := foldl_min_attained xs x
    obtain ⟨n1, n2⟩ := foldl_max_attained xs x
    have hpos : (0 : ℚ) < ((x :: xs).length : ℚ) := by
      rw [List.length_cons]
      positivity
    obtain ⟨s1, s2⟩ := sum_between (x :: xs) _ _ fun y hy => ⟨m2 y hy, n2 y hy⟩
    refine ⟨(x :: xs).sum / (x :: xs).length, _, _, by simp [pandasMean], rfl, rfl, m1, n1, fun c hc => ⟨m2 c hc, n2 c hc⟩, ?_, ?_, ?_⟩
    · field_simp
    · rw [le_div_iff₀ hpos]; linarith
    · rw [div_le_iff₀ hpos]; linarith

example : multipleStatistics [⟨70, some 3⟩, ⟨3, none⟩, ⟨71, some 5⟩, ⟨127, some 1⟩] = [(0, none, none, none), (1, some 3, some 1, some 5)] := by
  decide +kernel

theorem sum_sq_nonneg (xs : List ℚ) (m : ℚ) : 0 ≤ (xs.map fun x => (x - m) ^ 2).sum := by
  apply List.sum_nonneg
  intro y hy
  obtain ⟨x, -, rfl⟩ := List.mem_map.1 hy
  positivity

theorem sum_sq_eq_zero (xs : List ℚ) (m : ℚ) : (xs.map fun x => (x - m) ^ 2).sum = 0 ↔ ∀ x ∈ xs, x = m := by
  induction xs with
  | nil => simp
  | cons a xs ih =>
    have h1 := sum_sq_nonneg xs m
    have h2 : 0 ≤ (a - m) ^ 2 := by positivity
    rw [List.map_cons, List.sum_cons]
    constructor
    · intro h
      have h3 : (a - m) ^ 2 = 0 := by linarith
      have h4 : (xs.map fun x => (x - m) ^ 2).sum = 0 := by linarith
      intro x hx
      rcases List.mem_cons.1 hx with rfl | hx
      · have := pow_eq_zero_iff (two_ne_zero) |>.1 h3
        linarith
      · exact ih.1 h4 x hx
    · intro h
      rw [h a (by simp), ih.2 fun x hx => h x (by simp [hx])]
      simp

theorem all_mean_iff (xs : List ℚ) : (∀ x ∈ xs, x = xs.sum / xs.length) ↔ ∀ x ∈ xs, ∀ y ∈ xs, x = y := by
  constructor
  · intro h x hx y hy
    rw [h x hx, h y hy]
  · intro h x hx
    have hlen : (0 : ℚ) < xs.length := by exact_mod_cast List.length_pos_of_mem hx
    have := sum_between xs x x fun y hy => by rw [h y hy x hx]; exact ⟨le_refl _, le_refl _⟩
    have hs : xs.sum = xs.length * x := le_antisymm this.2 this.1
    rw [hs]
    field_simp

/-- **C183**, the two standard deviations: without charges both are NaN, of one charge the one of pandas is NaN and the one of numpy zero. With more,
the square of the one of pandas times one less than the number of charges is the square of the one of numpy times the number; the one of pandas is
larger, unless all charges of the module are the same, when both are zero. -/
theorem C183_deviations (table : List PixelCharge) (tm : Int) (pd np : Option ℚ) (h : (tm, pd, np) ∈ stdComparison table) :
    (chargesOf table tm = [] → pd = none ∧ np = none) ∧
    ((chargesOf table tm).length = 1 → pd = none ∧ np = some 0) ∧
    (2 ≤ (chargesOf table tm).length → ∃ a b, pd = some a ∧ np = some b ∧ np = some (populationVariance (chargesOf table tm)) ∧
      a * ((chargesOf table tm).length - 1) = b * (chargesOf table tm).length ∧ 0 ≤ b ∧ b ≤ a ∧
      (a = b ↔ ∀ c ∈ chargesOf table tm, ∀ d ∈ chargesOf table tm, c = d) ∧ (a = b ↔ a = 0)) := by
  unfold stdComparison at h
  obtain ⟨k, -, hk⟩ := List.mem_map.1 h
  simp only [Prod.mk.injEq] at hk
  obtain ⟨rfl, rfl, rfl⟩ := hk
  rw [tmCharges_eq]
  generalize chargesOf table k = xs
  refine ⟨?_, ?_, ?_⟩
  · rintro rfl
    simp [pandasVariance, numpyVariance]
  · intro h1
    obtain ⟨x, rfl⟩ := List.length_eq_one_iff.1 h1
    simp [pandasVariance, numpyVariance]
  · intro h2
    have hne : xs ≠ [] := by rintro rfl; simp at h2
    have hq : (2 : ℚ) ≤ xs.length := by exact_mod_cast h2
    have h0 := sum_sq_nonneg xs (xs.sum / xs.length)
    have hz := (sum_sq_eq_zero xs (xs.sum / xs.length)).trans (all_mean_iff xs)
    generalize hS : (xs.map fun x => (x - xs.sum / xs.length) ^ 2).sum = T at h0 hz
    have hn : (0 : ℚ) < xs.length := by linarith
    have hn1 : (0 : ℚ) < (xs.length : ℚ) - 1 := by linarith
    have heq : T / ((xs.length : ℚ) - 1) = T / xs.length ↔ T = 0 := by
      rw [div_eq_div_iff hn1.ne' hn.ne']
      constructor
      · intro h; nlinarith
      · rintro rfl; ring
    refine ⟨T / ((xs.length : ℚ) - 1), T / xs.length, ?_, ?_, ?_, ?_, div_nonneg h0 hn.le, ?_, ?_, ?_⟩
    · unfold pandasVariance
      rw [if_neg (by omega), hS]
    · unfold numpyVariance
      rw [if_neg hne, hS]
    · unfold numpyVariance populationVariance meanOf
      rw [if_neg hne]
    · rw [div_mul_cancel₀ _ hn1.ne', div_mul_cancel₀ _ hn.ne']
    · exact div_le_div_of_nonneg_left h0 hn1 (by linarith)
    · rw [heq]; exact hz
    · rw [heq, div_eq_zero_iff]
      constructor
      · exact Or.inl
      · rintro (h | h)
        · exact h
        · exact absurd h hn1.ne'

example : (1, some (4 : ℚ), some (8 / 3)) ∈ stdComparison [⟨70, some 3⟩, ⟨3, some 7⟩, ⟨71, some 5⟩, ⟨127, some 1⟩] := by decide +kernel

/-! ### the table and its modules -/

theorem sum_by_key (keys : List Int) (hk : keys.Nodup) (table : List PixelCharge) (hall : ∀ e ∈ table, e.pixel / 64 ∈ keys) (f : ℚ → ℚ) :
    (keys.map fun k => ((tmCharges table k).map f).sum).sum = ((allCharges table).map f).sum := by
  induction table with
  | nil => simp [tmCharges, allCharges]
  | cons e table ih =>
    have ih' := ih fun e he => hall e (by simp [he])
    have hek := hall e (by simp)
    have hstep : ∀ k, ((tmCharges (e :: table) k).map f).sum
        = (if k = e.pixel / 64 then (e.charge.elim 0 f) else 0) + ((tmCharges table k).map f).sum := by
      intro k
      unfold tmCharges
      rw [List.filter_cons]
      by_cases h : e.pixel / 64 = k
      · rw [if_pos (by simpa using h), if_pos h.symm, List.filterMap_cons]
        cases e.charge <;> simp
      · rw [if_neg (by simpa using h), if_neg (fun h' => h h'.symm), zero_add]
    have hone : ∀ (l : List Int) (c : ℚ) (a : Int), l.Nodup → a ∈ l → (l.map fun k => if k = a then c else 0).sum = c := by
      intro l c a
      induction l with
      | nil => simp
      | cons b l ihl =>
        intro hnd hm
        rw [List.nodup_cons] at hnd
        rw [List.map_cons, List.sum_cons]
        by_cases hb : b = a
        · subst hb
          rw [if_pos rfl]
          have : (l.map fun k => if k = b then c else 0).sum = 0 := by
            rw [List.sum_eq_zero]
            intro y hy
            obtain ⟨k, hk, rfl⟩ := List.mem_map.1 hy
            rw [if_neg]
            rintro rfl
            exact hnd.1 hk
          rw [this, add_zero]
        · rw [if_neg hb, zero_add]
          exact ihl hnd.2 (by simpa [Ne.symm hb] using hm)
    simp only [hstep]
    rw [List.sum_map_add, ih', hone keys _ _ hk hek]
    unfold allCharges
    rw [List.filterMap_cons]
    cases e.charge <;> simp

theorem tmKeys_spec (table : List PixelCharge) : (tmKeys table).Nodup ∧ ∀ e ∈ table, e.pixel / 64 ∈ tmKeys table := by
  refine ⟨(pairwise_unique _).imp fun h => ne_of_lt h, fun e he => ?_⟩
  rw [tmKeys, mem_unique]
  exact List.mem_map.2 ⟨e, he, rfl⟩

/-- **C183**, the mean of the table: the means of the modules, weighted with their numbers of charges, and the numbers add up to those of the whole
table; a module without charges has no mean and no weight. -/
theorem C183_total_mean (table : List PixelCharge) :
    ((meanPerTm table).map fun r => ((chargesOf table r.1).length : ℚ)).sum = (allCharges table).length ∧
    (∀ r ∈ meanPerTm table, r.2.2 = none ↔ chargesOf table r.1 = []) ∧
    ((meanPerTm table).map fun r => ((chargesOf table r.1).length : ℚ) * r.2.2.getD 0).sum = (allCharges table).length * (tableMean table).getD 0 := by
  obtain ⟨h1, h2⟩ := tmKeys_spec table
  have hmean : ∀ xs : List ℚ, (xs.length : ℚ) * (pandasMean xs).getD 0 = xs.sum := by
    intro xs
    unfold pandasMean
    split
    · rename_i h; subst h; simp
    · rename_i h
      have hn : (xs.length : ℚ) ≠ 0 := by
        have := List.length_pos_iff.2 h
        positivity
      simp only [Option.getD_some]
      field_simp
  refine ⟨?_, ?_, ?_⟩
  · have := sum_by_key (tmKeys table) h1 table h2 (fun _ => 1)
    simp only [meanPerTm, List.map_map, Function.comp_def, ← tmCharges_eq]
    simpa using this
  · intro r hr
    obtain ⟨k, -, rfl⟩ := List.mem_map.1 hr
    simp only [← tmCharges_eq, pandasMean]
    split <;> simp_all
  · have := sum_by_key (tmKeys table) h1 table h2 id
    simp only [List.map_id] at this
    simp only [meanPerTm, List.map_map, Function.comp_def, ← tmCharges_eq, hmean]
    rw [this]
    exact (hmean _).symm

/-- **C183**, the spread of the table: what is below the root of numpy's deviation of all charges comes from the spreads within the modules and the
distances of their means from the mean of the table. -/
theorem C183_total_spread (table : List PixelCharge) :
    (allCharges table).length * populationVariance (allCharges table)
      = ((meanPerTm table).map fun r => (chargesOf table r.1).length *
          (populationVariance (chargesOf table r.1) + (r.2.2.getD 0 - (tableMean table).getD 0) ^ 2)).sum := by
  obtain ⟨h1, h2⟩ := tmKeys_spec table
  have hvar : ∀ (xs : List ℚ) (c : ℚ), (xs.length : ℚ) * (populationVariance xs + ((pandasMean xs).getD 0 - c) ^ 2)
      = (xs.map fun x => (x - c) ^ 2).sum := by
    intro xs c
    by_cases h : xs = []
    · subst h; simp
    · have hn : (xs.length : ℚ) ≠ 0 := by
        have := List.length_pos_iff.2 h
        positivity
      unfold populationVariance pandasMean
      rw [if_neg h, sum_sq_shift, sum_sq_shift, meanOf, Option.getD_some]
      field_simp
      ring
  have key := sum_by_key (tmKeys table) h1 table h2 fun x => (x - (tableMean table).getD 0) ^ 2
  rw [← hvar (allCharges table)] at key
  have hz : (pandasMean (allCharges table)).getD 0 - (tableMean table).getD 0 = 0 := by
    unfold tableMean allCharges
    ring
  rw [hz] at key
  simp only [meanPerTm, List.map_map, Function.comp_def, ← tmCharges_eq, hvar]
  rw [key]
  ring

example : tableMean [⟨70, some 3⟩, ⟨3, some 7⟩, ⟨71, some 5⟩, ⟨127, some 1⟩] = some 4 ∧
    meanPerTm [⟨70, some 3⟩, ⟨3, some 7⟩, ⟨71, some 5⟩, ⟨127, some 1⟩] = [(0, some 3, some 7), (1, some (268 / 3), some 3)] := by
  constructor <;> decide +kernel

/-! ### whole events -/

/-- **C183**, tables of whole events: when the table consists of events with the pixels 0, 1, … in order, the first pixel of each module is the first
pixel of the module in the camera. -/
theorem C183_first_pixel (events : List (List PixelCharge)) (n : Nat) (hev : ∀ ev ∈ events, ev.map PixelCharge.pixel = (List.range n).map fun i : Nat => (i : Int))
    (tm : Int) (first : Option Int) (var : Option ℚ) (h : (tm, first, var) ∈ differentStatistics events.flatten) : first = some (64 * tm) := by
  unfold differentStatistics at h
  obtain ⟨k, hk, he⟩ := List.mem_map.1 h
  simp only [Prod.mk.injEq] at he
  obtain ⟨rfl, rfl, -⟩ := he
  rw [tmKeys, mem_unique, List.mem_map] at hk
  obtain ⟨e, he, rfl⟩ := hk
  obtain ⟨ev, hevm, hem⟩ := List.mem_flatten.1 he
  have hpix : e.pixel ∈ (List.range n).map fun i : Nat => (i : Int) := by
    rw [← hev ev hevm]
    exact List.mem_map.2 ⟨e, hem, rfl⟩
  obtain ⟨i, hi, hie⟩ := List.mem_map.1 hpix
  rw [List.mem_range] at hi
  obtain ⟨ev0, rest, rfl⟩ : ∃ a l, events = a :: l := by
    cases events with
    | nil => simp at hevm
    | cons a l => exact ⟨a, l, rfl⟩
  rw [List.flatten_cons, selectModule, List.filter_append]
  have h0 := hev ev0 (by simp)
  have hhead : (ev0.filter fun x => decide (x.pixel / 64 = e.pixel / 64)).head?.map PixelCharge.pixel = some (64 * (e.pixel / 64)) := by
    have : ((ev0.map PixelCharge.pixel).filter fun x => decide (x / 64 = e.pixel / 64)).head? = some (64 * (e.pixel / 64)) := by
      rw [h0]
      have hsplit : List.range n = List.range (64 * (i / 64)) ++ (List.range (n - 64 * (i / 64))).map fun j => 64 * (i / 64) + j := by
        rw [← List.range_add]
        congr 1
        omega
      rw [hsplit, List.map_append, List.filter_append, List.filter_eq_nil_iff.2, List.nil_append]
      · obtain ⟨m, hm⟩ : ∃ m, n - 64 * (i / 64) = m + 1 := ⟨n - 64 * (i / 64) - 1, by omega⟩
        rw [hm, List.range_succ_eq_map, List.map_cons, List.map_cons, List.filter_cons_of_pos]
        · rw [List.head?_cons]
          congr 1
          omega
        · simp only [decide_eq_true_eq]
          omega
      · intro x hx
        obtain ⟨j, hj, rfl⟩ := List.mem_map.1 hx
        rw [List.mem_range] at hj
        simp only [decide_eq_true_eq]
        omega
    rw [← this, List.filter_map, List.head?_map]
    rfl
  cases hf : ev0.filter fun x => decide (x.pixel / 64 = e.pixel / 64) with
  | nil => rw [hf] at hhead; simp at hhead
  | cons a l =>
    rw [hf] at hhead
    simpa using hhead

example : (0, some (64 * 0), none) ∈ differentStatistics [[⟨0, some 3⟩, ⟨1, none⟩]].flatten ∧
    ([⟨0, some 3⟩, ⟨1, none⟩] : List PixelCharge).map PixelCharge.pixel = (List.range 2).map fun i : Nat => (i : Int) := by
  constructor <;> decide +kernel

end Verif.Props
