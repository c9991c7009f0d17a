import Verif.Model.RunningStats
import Verif.Lemmas.Resolutions
import Mathlib.Tactic.Ring
import Mathlib.Tactic.FieldSimp
import Mathlib.Tactic.NormNum
import Mathlib.Tactic.Positivity
import Mathlib.Algebra.Order.BigOperators.Group.List

/-!
# Running statistics (C135)
-/

namespace Verif.Props

open Verif.Py Verif.Model Verif.Lemmas

/-- the sums of the rows of a module -/
def tmSum (rows : List ModuleSums) (k : Int) : ℚ × ℚ × ℕ := ((rows.filter fun r => r.tm = k).map ModuleSums.sums).sum

/-- two collections of rows agree: the same modules with the same sums -/
def TmAgree (A B : List ModuleSums) : Prop := (∀ k, k ∈ A.map ModuleSums.tm ↔ k ∈ B.map ModuleSums.tm) ∧ ∀ k, tmSum A k = tmSum B k

theorem TmAgree.trans {A B C : List ModuleSums} (h : TmAgree A B) (h' : TmAgree B C) : TmAgree A C :=
  ⟨fun k => (h.1 k).trans (h'.1 k), fun k => (h.2 k).trans (h'.2 k)⟩

theorem tmSum_append (A B : List ModuleSums) (k : Int) : tmSum (A ++ B) k = tmSum A k + tmSum B k := by simp [tmSum]

theorem TmAgree.append {A B : List ModuleSums} (h : TmAgree A B) (C : List ModuleSums) : TmAgree (A ++ C) (B ++ C) := by
  refine ⟨fun k => ?_, fun k => by rw [tmSum_append, tmSum_append, h.2]⟩
  rw [List.map_append, List.map_append, List.mem_append, List.mem_append, h.1]

theorem groupByTm_tms (A : List ModuleSums) : (groupByTm A).map ModuleSums.tm = unique (A.map ModuleSums.tm) := by
  unfold groupByTm
  rw [List.map_map]
  conv_rhs => rw [← List.map_id (unique (A.map ModuleSums.tm))]
  exact List.map_congr_left fun k _ => rfl

theorem filter_map_key (f : Int → ModuleSums) (hf : ∀ k, (f k).tm = k) (ks : List Int) (hn : ks.Nodup) (k : Int) :
    (ks.map f).filter (fun r => r.tm = k) = if k ∈ ks then [f k] else [] := by
  induction ks with
  | nil => simp
  | cons a ks ih =>
    rw [List.nodup_cons] at hn
    rw [List.map_cons, List.filter_cons, ih hn.2, hf]
    by_cases h : a = k
    · subst h; simp [hn.1]
    · have : k ≠ a := fun h' => h h'.symm
      simp [h, this]

theorem TmAgree.group (A : List ModuleSums) : TmAgree (groupByTm A) A := by
  refine ⟨fun k => by rw [groupByTm_tms, mem_unique], fun k => ?_⟩
  unfold tmSum groupByTm
  rw [filter_map_key (fun k => ⟨k, ((A.filter fun r => r.tm = k).map ModuleSums.sums).sum⟩) (fun _ => rfl) _ (nodup_unique _)]
  by_cases h : k ∈ unique (A.map ModuleSums.tm)
  · rw [if_pos h]; simp
  · rw [if_neg h]
    have : A.filter (fun r => r.tm = k) = [] := by
      rw [List.filter_eq_nil_iff]
      intro r hr hk
      exact h ((mem_unique _ _).2 (List.mem_map.2 ⟨r, hr, by simpa using hk⟩))
    rw [this]

theorem TmAgree.group_eq {A B : List ModuleSums} (h : TmAgree A B) : groupByTm A = groupByTm B := by
  have e : unique (A.map ModuleSums.tm) = unique (B.map ModuleSums.tm) := by
    refine List.Pairwise.eq_of_mem_iff (r := (· < ·)) (pairwise_unique _) (pairwise_unique _) fun k => ?_
    rw [mem_unique, mem_unique, h.1]
  unfold groupByTm
  rw [e]
  refine List.map_congr_left fun k _ => ?_
  have := h.2 k
  unfold tmSum at this
  rw [this]

/-- everything an object holds -/
def tmContents (s : RunningStats) : List ModuleSums := s.df.getD [] ++ s.dfList.flatten

theorem amalgamateTm_ok (s : RunningStats) (h : s.df ≠ none ∨ s.dfList ≠ []) : amalgamateTm s = .ok ⟨[], some (groupByTm (tmContents s)), 0⟩ := by
  unfold amalgamateTm tmContents
  rcases s with ⟨l, df, nb⟩
  cases df with
  | some d => cases l <;> rfl
  | none =>
    cases l with
    | nil => rcases h with h | h <;> exact absurd rfl h
    | cons a l => rfl

theorem addEvent_ok (mem : List ModuleSums → Nat) (s : RunningStats) (e : List PixelCharge) :
    ∃ s', addEvent mem s e = .ok s' ∧ (s'.df ≠ none ∨ s'.dfList ≠ []) ∧ TmAgree (tmContents s') (tmContents s ++ e.map tmRow) := by
  unfold addEvent
  simp only
  have hc : tmContents ⟨s.dfList ++ [e.map tmRow], s.df, s.nBytes + mem (e.map tmRow)⟩ = tmContents s ++ e.map tmRow := by simp [tmContents]
  split
  · rw [amalgamateTm_ok _ (Or.inr (by simp))]
    refine ⟨_, rfl, Or.inl (by simp), ?_⟩
    rw [hc]
    have : tmContents ⟨[], some (groupByTm (tmContents s ++ e.map tmRow)), 0⟩ = groupByTm (tmContents s ++ e.map tmRow) := by simp [tmContents]
    rw [this]
    exact TmAgree.group _
  · exact ⟨_, rfl, Or.inr (by simp), by rw [hc]; exact ⟨fun _ => Iff.rfl, fun _ => rfl⟩⟩

theorem runEvents_ok (mem : List ModuleSums → Nat) (events : List (List PixelCharge)) (s : RunningStats) :
    ∃ s', runEvents mem s events = .ok s' ∧ (events ≠ [] → s'.df ≠ none ∨ s'.dfList ≠ []) ∧ (events = [] → s' = s) ∧
      TmAgree (tmContents s') (tmContents s ++ events.flatten.map tmRow) := by
  induction events generalizing s with
  | nil => exact ⟨s, rfl, fun h => absurd rfl h, fun _ => rfl, by simp only [List.flatten_nil, List.map_nil, List.append_nil]; exact ⟨fun _ => Iff.rfl, fun _ => rfl⟩⟩
  | cons e es ih =>
    obtain ⟨s1, h1, hst, ha⟩ := addEvent_ok mem s e
    obtain ⟨s2, h2, hst2, hnil, ha2⟩ := ih s1
    refine ⟨s2, ?_, fun _ => ?_, fun h => absurd h (List.cons_ne_nil _ _), ?_⟩
    · unfold runEvents; rw [h1]; exact h2
    · by_cases h : es = []
      · rw [hnil h]; exact hst
      · exact hst2 h
    · rw [List.flatten_cons, List.map_append, ← List.append_assoc]
      exact ha2.trans (ha.append _)

theorem runningTable_eq (mem : List ModuleSums → Nat) (events : List (List PixelCharge)) (h : events ≠ []) :
    runningTable mem events = .ok ((groupByTm (events.flatten.map tmRow)).map runningRow) := by
  obtain ⟨s, h1, h2, -, h3⟩ := runEvents_ok mem events .init
  unfold runningTable
  rw [h1]
  simp only [finishRunning]
  rw [amalgamateTm_ok s (h2 h)]
  have : tmContents .init = [] := rfl
  rw [this, List.nil_append] at h3
  simp only [Option.getD_some]
  rw [h3.group_eq]

/-- C135: without events KeyError is raised. -/
theorem C135_no_events (mem : List ModuleSums → Nat) : runningTable mem [] = .error .keyError := rfl

/-- C135: the table depends neither on the memory limit nor on the division into events nor on their order. -/
theorem C135_independent (mem mem' : List ModuleSums → Nat) (a b : List (List PixelCharge)) (ha : a ≠ []) (hb : b ≠ []) (h : a.flatten.Perm b.flatten) :
    runningTable mem a = runningTable mem' b := by
  rw [runningTable_eq mem a ha, runningTable_eq mem' b hb]
  congr 2
  refine TmAgree.group_eq ⟨fun k => ((h.map tmRow).map ModuleSums.tm).mem_iff, fun k => ?_⟩
  exact (((h.map tmRow).filter _).map ModuleSums.sums).sum_eq

/-- the rows of a module in the data -/
def ofModule (events : List (List PixelCharge)) (tm : Int) : List PixelCharge := events.flatten.filter fun e => decide (64 * tm ≤ e.pixel ∧ e.pixel < 64 * (tm + 1))

theorem tmSum_entries (es : List PixelCharge) (k : Int) :
    tmSum (es.map tmRow) k = (((es.filter fun e => e.pixel / 64 = k).map fun e => e.charge.getD 0).sum,
      ((es.filter fun e => e.pixel / 64 = k).map fun e => e.charge.getD 0 ^ 2).sum, (es.filter fun e => e.pixel / 64 = k).length) := by
  unfold tmSum
  rw [List.filter_map, List.map_map]
  have hf : es.filter ((fun r : ModuleSums => decide (r.tm = k)) ∘ tmRow) = es.filter fun e => e.pixel / 64 = k := List.filter_congr fun e _ => rfl
  rw [hf]
  generalize es.filter (fun e => e.pixel / 64 = k) = G
  induction G with
  | nil => rfl
  | cons e G ih =>
    rw [List.map_cons, List.sum_cons, ih]
    simp only [Function.comp, tmRow, List.map_cons, List.sum_cons, List.length_cons, Prod.mk_add_mk]
    rw [Nat.add_comm 1]

theorem ofModule_eq (events : List (List PixelCharge)) (k : Int) : (events.flatten.filter fun e => e.pixel / 64 = k) = ofModule events k := by
  unfold ofModule
  refine List.filter_congr fun e _ => ?_
  rw [decide_eq_decide]
  omega

/-- C135: one row for each module with data, in ascending order, with the sums, the sums of squares and the number of its charges. -/
theorem C135_table (mem : List ModuleSums → Nat) (events : List (List PixelCharge)) (h : events ≠ []) :
    ∃ rows, runningTable mem events = .ok rows ∧ (rows.map RunningRow.tm).Pairwise (· < ·) ∧
      (∀ k, k ∈ rows.map RunningRow.tm ↔ ofModule events k ≠ []) ∧
      ∀ r ∈ rows, r.sum = ((ofModule events r.tm).map fun e => e.charge.getD 0).sum ∧ r.sum2 = ((ofModule events r.tm).map fun e => e.charge.getD 0 ^ 2).sum ∧
        r.n = (ofModule events r.tm).length ∧ r.mean = r.sum / r.n ∧ r.variance = r.sum2 / r.n - r.mean ^ 2 := by
  refine ⟨_, runningTable_eq mem events h, ?_, fun k => ?_, fun r hr => ?_⟩
  · rw [List.map_map, show RunningRow.tm ∘ runningRow = ModuleSums.tm from rfl, groupByTm_tms]
    exact pairwise_unique _
  · rw [List.map_map, show RunningRow.tm ∘ runningRow = ModuleSums.tm from rfl, groupByTm_tms, mem_unique, ← ofModule_eq, List.map_map]
    rw [Ne, List.filter_eq_nil_iff]
    push Not
    simp only [List.mem_map, Function.comp, tmRow, decide_eq_true_eq]
  · obtain ⟨t, ht, rfl⟩ := List.mem_map.1 hr
    unfold groupByTm at ht
    obtain ⟨k, -, rfl⟩ := List.mem_map.1 ht
    have hs := tmSum_entries events.flatten k
    rw [ofModule_eq] at hs
    unfold tmSum at hs
    simp only [runningRow, hs, and_self]

/-- arithmetic mean and population variance -/
def meanOf (xs : List ℚ) : ℚ := xs.sum / xs.length
def populationVariance (xs : List ℚ) : ℚ := (xs.map fun x => (x - meanOf xs) ^ 2).sum / xs.length

theorem sum_sq_shift (xs : List ℚ) (μ : ℚ) : (xs.map fun x => (x - μ) ^ 2).sum = (xs.map fun x => x ^ 2).sum - 2 * μ * xs.sum + xs.length * μ ^ 2 := by
  induction xs with
  | nil => simp
  | cons a xs ih =>
    simp only [List.map_cons, List.sum_cons, List.length_cons, ih]
    push_cast
    ring

theorem populationVariance_eq (xs : List ℚ) (h : xs ≠ []) : (xs.map fun x => x ^ 2).sum / xs.length - meanOf xs ^ 2 = populationVariance xs := by
  have hn : (xs.length : ℚ) ≠ 0 := by
    have := List.length_pos_iff.2 h
    exact_mod_cast Nat.pos_iff_ne_zero.1 this
  unfold populationVariance
  rw [sum_sq_shift]
  unfold meanOf
  field_simp
  ring

/-- no charge of the data is missing -/
def NoGaps (events : List (List PixelCharge)) : Prop := ∀ e ∈ events.flatten, e.charge ≠ none

theorem charges_of (events : List (List PixelCharge)) (h : NoGaps events) (k : Int) :
    (ofModule events k).map (fun e => e.charge.getD 0) = tmCharges events.flatten k := by
  unfold tmCharges
  rw [ofModule_eq]
  have : ∀ l : List PixelCharge, (∀ e ∈ l, e.charge ≠ none) → l.map (fun e => e.charge.getD 0) = l.filterMap PixelCharge.charge := by
    intro l hl
    induction l with
    | nil => rfl
    | cons e l ih =>
      rw [List.map_cons, List.filterMap_cons, ih fun x hx => hl x (by simp [hx])]
      cases he : e.charge with
      | none => exact absurd he (hl e (by simp))
      | some c => rfl
  exact this _ fun e he => h e (List.mem_of_mem_filter he)

/-- C135: without missing charges, `mean` and the square of `std` are the arithmetic mean and the population variance of the charges of the module; the variance is not negative. -/
theorem C135_statistics (mem : List ModuleSums → Nat) (events : List (List PixelCharge)) (h : events ≠ []) (hg : NoGaps events) (rows : List RunningRow)
    (hr : runningTable mem events = .ok rows) (r : RunningRow) (hm : r ∈ rows) :
    r.mean = meanOf (tmCharges events.flatten r.tm) ∧ r.variance = populationVariance (tmCharges events.flatten r.tm) ∧ 0 ≤ r.variance := by
  obtain ⟨rows', hr', -, hk, hrow⟩ := C135_table mem events h
  rw [hr] at hr'
  cases hr'
  obtain ⟨h1, h2, h3, h4, h5⟩ := hrow r hm
  have hne : ofModule events r.tm ≠ [] := (hk r.tm).1 (List.mem_map.2 ⟨r, hm, rfl⟩)
  have hc := charges_of events hg r.tm
  have hl : r.n = (tmCharges events.flatten r.tm).length := by rw [h3, ← hc, List.length_map]
  have hne' : tmCharges events.flatten r.tm ≠ [] := by rw [← hc]; simpa using hne
  have hsq : (ofModule events r.tm).map (fun e => e.charge.getD 0 ^ 2) = (tmCharges events.flatten r.tm).map fun x => x ^ 2 := by
    rw [← hc, List.map_map]; rfl
  have hmean : r.mean = meanOf (tmCharges events.flatten r.tm) := by
    unfold meanOf; rw [h4, h1, hc, hl]
  have hvar : r.variance = populationVariance (tmCharges events.flatten r.tm) := by
    rw [← populationVariance_eq _ hne', h5, hmean, h2, hsq, hl]
  refine ⟨hmean, hvar, ?_⟩
  rw [hvar]
  unfold populationVariance
  refine div_nonneg (List.sum_nonneg ?_) (by positivity)
  intro x hx
  obtain ⟨y, -, rfl⟩ := List.mem_map.1 hx
  positivity

/-- the claim in full: the table beside pandas' results has the same means in each row -/
def SameMeans : Prop :=
  ∀ (mem : List ModuleSums → Nat) (events : List (List PixelCharge)) (rows : List RunningRow), runningTable mem events = .ok rows →
    ∀ c ∈ comparison events.flatten rows, c.2.1 = some c.1.mean

/-- C135: the means are not beside each other when the first module has no data: the row of module 1 has no mean of pandas. -/
theorem C135_false : ¬ SameMeans := by
  intro h
  have := h (fun _ => 0) [[⟨70, some 3⟩]] [⟨1, 3, 9, 1, 3, 0⟩] (by decide +kernel) (⟨1, 3, 9, 1, 3, 0⟩, none, none) (by decide +kernel)
  exact absurd this (by decide)

/-- C135: also with all modules, a missing charge is counted: the mean of 4 and NaN is 2 -/
theorem C135_gaps : ∃ events rows, runningTable (fun _ => 0) events = .ok rows ∧ comparison events.flatten rows = [(⟨0, 4, 16, 2, 2, 4⟩, some 4, none)] :=
  ⟨[[⟨0, some 4⟩], [⟨1, none⟩]], [⟨0, 4, 16, 2, 2, 4⟩], by decide +kernel, by decide +kernel⟩

/-- C135: with data of all modules 0 to some module and without missing charges, the means are the same, and the variance of pandas is the larger one: divided by one less than
the number of charges. Missing from the full claim: data of some modules only, missing charges. -/
theorem C135_partial (mem : List ModuleSums → Nat) (events : List (List PixelCharge)) (hg : NoGaps events) (N : Nat)
    (hall : ∀ k, ofModule events k ≠ [] ↔ 0 ≤ k ∧ k < N) (rows : List RunningRow) (hr : runningTable mem events = .ok rows) :
    rows.length = N ∧ (comparison events.flatten rows).map Prod.fst = rows ∧ ∀ c ∈ comparison events.flatten rows, c.2.1 = some c.1.mean ∧
      (c.1.n = 1 → c.2.2 = none) ∧ (2 ≤ c.1.n → ∃ v, c.2.2 = some v ∧ v * (c.1.n - 1) = c.1.variance * c.1.n) := by
  by_cases h : events = []
  · subst h; cases hr
  obtain ⟨rows', hr', hp, hk, hrow⟩ := C135_table mem events h
  rw [hr] at hr'
  cases hr'
  have htms : rows.map RunningRow.tm = (List.range N).map (fun i : Nat => (i : Int)) := by
    refine List.Pairwise.eq_of_mem_iff (r := (· < ·)) hp ?_ fun k => ?_
    · rw [List.pairwise_map]
      exact List.pairwise_lt_range.imp fun h => by exact_mod_cast h
    · rw [hk, hall]
      simp only [List.mem_map, List.mem_range]
      constructor
      · rintro ⟨h0, h1⟩; exact ⟨k.toNat, by omega, by omega⟩
      · rintro ⟨i, hi, rfl⟩; omega
  refine ⟨by simpa using congrArg List.length htms, ?_, fun c hc => ?_⟩
  · unfold comparison
    rw [List.map_map]
    exact List.zipIdx_map_fst 0 rows
  · unfold comparison at hc
    obtain ⟨⟨r, i⟩, hri, rfl⟩ := List.mem_map.1 hc
    rw [List.mem_zipIdx_iff_getElem?] at hri
    have htm : r.tm = i := by
      have := congrArg (fun l => l[i]?) htms
      simp only [List.getElem?_map, hri, Option.map_some] at this
      by_cases hi : i < N
      · rw [List.getElem?_range hi] at this; simpa using this
      · rw [List.getElem?_eq_none (by simpa using hi)] at this; cases this
    have hmem := List.mem_of_getElem? hri
    obtain ⟨e1, e2, -⟩ := C135_statistics mem events h hg rows hr r hmem
    obtain ⟨-, -, h3, -, -⟩ := hrow r hmem
    have hlen : r.n = (tmCharges events.flatten i).length := by rw [h3, ← htm, ← charges_of events hg, List.length_map]
    have hne : tmCharges events.flatten i ≠ [] := by
      rw [← htm, ← charges_of events hg]
      simpa using (hk r.tm).1 (List.mem_map.2 ⟨r, hmem, rfl⟩)
    rw [htm] at e1 e2
    simp only
    refine ⟨?_, fun h1 => ?_, fun h2 => ?_⟩
    · unfold pandasMean; rw [if_neg hne, e1]; rfl
    · unfold pandasVariance; rw [if_pos (by omega)]
    · unfold pandasVariance
      rw [if_neg (by omega)]
      refine ⟨_, rfl, ?_⟩
      rw [e2, hlen]
      have hn1 : ((tmCharges events.flatten i).length : ℚ) - 1 ≠ 0 := by
        have : (2 : ℚ) ≤ (tmCharges events.flatten i).length := by exact_mod_cast hlen ▸ h2
        intro hz; linarith
      have hn0 : ((tmCharges events.flatten i).length : ℚ) ≠ 0 := by
        have := List.length_pos_iff.2 hne
        exact_mod_cast Nat.pos_iff_ne_zero.1 this
      unfold populationVariance meanOf
      rw [div_mul_cancel₀ _ hn1, div_mul_cancel₀ _ hn0]

/-- **C135, exactly** (comparison): without missing charges, for pixels with numbers from 0 on, the means of pandas stand beside those of the table if and
only if the modules with data are the modules 0 to some module. -/
theorem C135_exactly_partial (mem : List ModuleSums → Nat) (events : List (List PixelCharge)) (hg : NoGaps events) (hpos : ∀ k < 0, ofModule events k = [])
    (rows : List RunningRow) (hr : runningTable mem events = .ok rows) :
    (∀ c ∈ comparison events.flatten rows, c.2.1 = some c.1.mean) ↔ ∃ N : Nat, ∀ k, ofModule events k ≠ [] ↔ 0 ≤ k ∧ k < N := by
  constructor
  swap
  · rintro ⟨N, hall⟩ c hc
    exact ((C135_partial mem events hg N hall rows hr).2.2 c hc).1
  intro hsame
  by_cases h : events = []
  · subst h; cases hr
  obtain ⟨rows', hr', hp, hk, hrow⟩ := C135_table mem events h
  rw [hr] at hr'
  cases hr'
  have hdata : ∀ k, tmCharges events.flatten k ≠ [] ↔ ofModule events k ≠ [] := by
    intro k
    rw [← charges_of events hg]
    simp
  -- row `i` belongs to module `i`
  have htm : ∀ (i : Nat) (r : RunningRow), rows[i]? = some r → r.tm = i := by
    intro i
    induction i using Nat.strong_induction_on with
    | _ i ih =>
      intro r hri
      have hc : (r, pandasMean (tmCharges events.flatten i), pandasVariance (tmCharges events.flatten i)) ∈ comparison events.flatten rows := by
        unfold comparison
        exact List.mem_map.2 ⟨(r, i), List.mem_zipIdx_iff_getElem?.2 hri, rfl⟩
      have hm := hsame _ hc
      have hne : tmCharges events.flatten i ≠ [] := by
        intro h0
        rw [h0] at hm
        simp [pandasMean] at hm
      obtain ⟨q, hq, hqi⟩ := List.mem_map.1 ((hk i).2 ((hdata i).1 hne))
      obtain ⟨j, hj⟩ := List.getElem?_of_mem hq
      have hlen : i < rows.length := (List.getElem?_eq_some_iff.1 hri).1
      have hjl : j < rows.length := (List.getElem?_eq_some_iff.1 hj).1
      have hrow0 : (0 : Int) ≤ r.tm := by
        by_contra hneg
        push Not at hneg
        exact (hk r.tm).1 (List.mem_map.2 ⟨r, List.mem_of_getElem? hri, rfl⟩) (hpos _ hneg)
      rcases lt_trichotomy j i with hlt | rfl | hgt
      · have := ih j hlt q hj; omega
      · rw [hri] at hj; cases hj; exact hqi
      · have hlt : r.tm < q.tm := by
          have := List.pairwise_iff_getElem.1 hp i j (by simpa using hlen) (by simpa using hjl) hgt
          simpa [(List.getElem?_eq_some_iff.1 hri).2, (List.getElem?_eq_some_iff.1 hj).2] using this
        have hsmall : r.tm.toNat < i := by omega
        have hex : r.tm.toNat < rows.length := by omega
        have h1 := ih r.tm.toNat hsmall rows[r.tm.toNat] (List.getElem?_eq_getElem hex)
        have h2 : rows[r.tm.toNat].tm < r.tm := by
          have := List.pairwise_iff_getElem.1 hp r.tm.toNat i (by simpa using hex) (by simpa using hlen) hsmall
          simpa [(List.getElem?_eq_some_iff.1 hri).2] using this
        omega
  refine ⟨rows.length, fun k => ?_⟩
  rw [← hk k]
  constructor
  · intro hmem
    obtain ⟨r, hr1, rfl⟩ := List.mem_map.1 hmem
    obtain ⟨i, hi⟩ := List.getElem?_of_mem hr1
    have := htm i r hi
    have := (List.getElem?_eq_some_iff.1 hi).1
    omega
  · rintro ⟨h0, h1⟩
    have hlt : k.toNat < rows.length := by omega
    have := htm k.toNat rows[k.toNat] (List.getElem?_eq_getElem hlt)
    exact List.mem_map.2 ⟨rows[k.toNat], List.getElem_mem hlt, by omega⟩

/-- data of the modules 0 and 2: the row of module 2 stands beside module 1, which has none -/
example : runningTable (fun _ => 0) [[⟨0, some 1⟩, ⟨130, some 5⟩]] = .ok [⟨0, 1, 1, 1, 1, 0⟩, ⟨2, 5, 25, 1, 5, 0⟩] ∧
    comparison [⟨0, some 1⟩, ⟨130, some 5⟩] [⟨0, 1, 1, 1, 1, 0⟩, ⟨2, 5, 25, 1, 5, 0⟩] =
      [(⟨0, 1, 1, 1, 1, 0⟩, some 1, none), (⟨2, 5, 25, 1, 5, 0⟩, none, none)] := by
  decide +kernel

/-- two events of two modules, the frames being merged after each of them -/
example : runningTable (fun _ => 600000000) [[⟨0, some 1⟩, ⟨64, some 5⟩], [⟨3, some 4⟩, ⟨100, some 5⟩]] =
      .ok [⟨0, 5, 17, 2, 5 / 2, 9 / 4⟩, ⟨1, 10, 50, 2, 5, 0⟩] ∧
    comparison [⟨0, some 1⟩, ⟨64, some 5⟩, ⟨3, some 4⟩, ⟨100, some 5⟩] [⟨0, 5, 17, 2, 5 / 2, 9 / 4⟩, ⟨1, 10, 50, 2, 5, 0⟩] =
      [(⟨0, 5, 17, 2, 5 / 2, 9 / 4⟩, some (5 / 2), some (9 / 2)), (⟨1, 10, 50, 2, 5, 0⟩, some 5, some 0)] := by
  refine ⟨by decide +kernel, by decide +kernel⟩

end Verif.Props
