import Verif.Lemmas.RowColumn
import Mathlib.Tactic.NormNum
import Mathlib.Tactic.IntervalCases

/-!
# C89: row and column numbers from pixel positions

The pixels stand on a grid of lines: the pixel of column `c.1` and row `c.2` is at `(x0 + sx c.1, y0 + sy c.2)`, and the lines are at least `d` apart.
-/

namespace Verif.Props

open Verif.Py Verif.Model Verif.Lemmas

/-- column numbers of the pixels -/
def columnsOf (cells : List (Nat × Nat)) : List Int := cells.map fun (c : Nat × Nat) => (c.1 : Int)
/-- row numbers of the pixels -/
def rowsOf (cells : List (Nat × Nat)) : List Int := cells.map fun (c : Nat × Nat) => (c.2 : Int)

theorem distance2_neighbour {sx sy : Nat → ℝ} {d x0 y0 : ℝ} (c e : Nat × Nat)
    (h : (c.1 = e.1 ∧ |sy c.2 - sy e.2| = d) ∨ (c.2 = e.2 ∧ |sx c.1 - sx e.1| = d)) :
    distance2 (cellPos x0 y0 sx sy c) (cellPos x0 y0 sx sy e) = d := by
  unfold distance2 cellPos
  simp only [add_sub_add_left_eq_sub]
  rcases h with ⟨h1, h2⟩ | ⟨h1, h2⟩
  · rw [h1, sub_self, zero_pow (by norm_num), zero_add, Real.sqrt_sq_eq_abs, h2]
  · rw [h1, sub_self, zero_pow (by norm_num), add_zero, Real.sqrt_sq_eq_abs, h2]

theorem range_filter_all (n : Nat) (p : Nat → Prop) [DecidablePred p] (h : ∀ k, k < n → p k) : (List.range n).filter (fun k => p k) = List.range n := by
  rw [List.filter_eq_self]
  intro k hk
  simpa using h k (List.mem_range.1 hk)

/-- For a camera whose lines have the same spacings in both directions, which has a pixel in every row of some column, in which row `k` is full whenever
column `k` is full, which has no line through the origin of the coordinates, and whose first pixel has a neighbour at the smallest spacing (the spacing of
the first two lines being less than √2 times that), the numbers are right for every pixel. -/
theorem C89_partial (n : Nat) (s : Nat → ℝ) (d x0 y0 : ℝ) (first : Nat × Nat) (rest : List (Nat × Nat)) (hn : 2 ≤ n) (h0 : s 0 = 0) (hd : 0 < d)
    (hgap : ∀ k, k + 1 < n → d ≤ s (k + 1) - s k) (h1 : s 1 < Real.sqrt 2 * d) (hin : ∀ c ∈ first :: rest, c.1 < n ∧ c.2 < n)
    (hnd : (first :: rest).Nodup)
    (hnear : ∃ c ∈ rest, (c.1 = first.1 ∧ |s c.2 - s first.2| = d) ∨ (c.2 = first.2 ∧ |s c.1 - s first.1| = d))
    (hcol : ∃ k, k < n ∧ ∀ r, r < n → (k, r) ∈ first :: rest)
    (hrow : ∀ k, k < n → (∀ r, r < n → (k, r) ∈ first :: rest) → ∀ c, c < n → (c, k) ∈ first :: rest)
    (hx : ∀ k, k < n → x0 + s k ≠ 0) (hy : ∀ k, k < n → y0 + s k ≠ 0) :
    getRowColumn ((first :: rest).map fun c => (x0 + s c.1, y0 + s c.2)) = .ok (rowsOf (first :: rest), columnsOf (first :: rest)) := by
  classical
  have hA : Axis n s d := ⟨hn, h0, hd, hgap⟩
  have hex : ∃ k, k < n ∧ ∀ r, r < n → (k, r) ∈ first :: rest := hcol
  obtain ⟨hk, hfull⟩ := Nat.find_spec hex
  set k := Nat.find hex with hkdef
  have hfirst : ∀ k', k' < k → ∃ r, r < n ∧ (k', r) ∉ first :: rest := by
    intro k' hlt
    have := Nat.find_min hex hlt
    push Not at this
    exact this (by omega)
  have hrowk := hrow k hk hfull
  have hL : Largest n n (first :: rest) k := Largest.of_full (by omega) k hk hfull hfirst
  have fx : ((first :: rest).filter fun c => decide (x0 + s c.1 ≠ 0)) = first :: rest :=
    List.filter_eq_self.2 fun c hc => by simpa using hx c.1 (hin c hc).1
  have fy : ((first :: rest).filter fun c => decide (y0 + s c.2 ≠ 0)) = first :: rest :=
    List.filter_eq_self.2 fun c hc => by simpa using hy c.2 (hin c hc).2
  obtain ⟨c, hc, hcn⟩ := hnear
  have := getRowColumn_lines (x0 := x0) (y0 := y0) hA hA first rest hin hnd ⟨c, hc, distance2_neighbour c first hcn⟩
    ⟨(0, k), hrowk 0 (by omega), rfl⟩ ⟨(n - 1, k), hrowk (n - 1) (by omega), rfl⟩ ⟨(k, 0), hfull 0 (by omega), rfl⟩
    ⟨(k, n - 1), hfull (n - 1) (by omega), rfl⟩ k k (by rw [fx]; exact hL) (by rw [fy]; exact hL) k hk rfl
  rw [range_filter_all n _ hrowk, range_filter_all n _ hfull, placePixels_line hA h1 hin] at this
  exact this

/-- a camera of 4×4 pixels without its corners meets the hypotheses -/
example : getRowColumn (([(1, 0), (2, 0), (0, 1), (1, 1), (2, 1), (3, 1), (0, 2), (1, 2), (2, 2), (3, 2), (1, 3), (2, 3)] : List (Nat × Nat)).map
      fun c => ((-3 / 2 : ℝ) + (c.1 : ℝ), (-3 / 2 : ℝ) + (c.2 : ℝ))) =
    .ok ([0, 0, 1, 1, 1, 1, 2, 2, 2, 2, 3, 3], [1, 2, 0, 1, 2, 3, 0, 1, 2, 3, 1, 2]) := by
  have h := C89_partial 4 (fun k => (k : ℝ)) 1 (-3 / 2) (-3 / 2) (1, 0) [(2, 0), (0, 1), (1, 1), (2, 1), (3, 1), (0, 2), (1, 2), (2, 2), (3, 2), (1, 3), (2, 3)]
    (by norm_num) (by norm_num) (by norm_num) (fun k _ => by push_cast; linarith)
    (by have := Real.one_lt_sqrt_two; push_cast; linarith) (by decide) (by decide) ⟨(2, 0), by decide, Or.inr ⟨rfl, by norm_num⟩⟩
    ⟨1, by norm_num, by decide⟩
    (fun k hk h => by have h0 := h 0 (by norm_num); clear h; interval_cases k <;> revert h0 <;> decide) (fun k hk => by interval_cases k <;> norm_num) (fun k hk => by interval_cases k <;> norm_num)
  exact h

/-- In a complete square camera with the same spacings in both directions the numbers are right wherever the origin of the coordinates is, and whatever
the order of the pixels. -/
theorem C89_complete (n : Nat) (s : Nat → ℝ) (d x0 y0 : ℝ) (first : Nat × Nat) (rest : List (Nat × Nat)) (hn : 2 ≤ n) (h0 : s 0 = 0) (hd : 0 < d)
    (hgap : ∀ k, k + 1 < n → d ≤ s (k + 1) - s k) (h1 : s 1 < Real.sqrt 2 * d) (hcells : ∀ c, c ∈ first :: rest ↔ c.1 < n ∧ c.2 < n)
    (hnd : (first :: rest).Nodup)
    (hnear : ∃ c ∈ rest, (c.1 = first.1 ∧ |s c.2 - s first.2| = d) ∨ (c.2 = first.2 ∧ |s c.1 - s first.1| = d)) :
    getRowColumn ((first :: rest).map fun c => (x0 + s c.1, y0 + s c.2)) = .ok (rowsOf (first :: rest), columnsOf (first :: rest)) := by
  classical
  have hA : Axis n s d := ⟨hn, h0, hd, hgap⟩
  have hmem : ∀ c r, c < n → r < n → (c, r) ∈ first :: rest := fun c r hc hr => (hcells (c, r)).2 ⟨hc, hr⟩
  have hX : ∃ k, Largest n n ((first :: rest).filter fun c => decide (x0 + s c.1 ≠ 0)) k := by
    by_cases hz : x0 = 0
    · refine ⟨1, Largest.of_full (by omega) 1 (by omega) (fun r hr => ?_) (fun k' hk' => ?_)⟩
      · rw [List.mem_filter]
        refine ⟨hmem 1 r (by omega) hr, ?_⟩
        have := hA.gap_lt 0 1 (by omega) (by omega)
        rw [h0] at this
        simp only [ne_eq, decide_not, Bool.not_eq_eq_eq_not, Bool.not_true, decide_eq_false_iff_not]
        intro he
        linarith
      · obtain rfl : k' = 0 := by omega
        refine ⟨0, by omega, ?_⟩
        rw [List.mem_filter]
        simp [hz, h0]
    · refine ⟨0, Largest.of_full (by omega) 0 (by omega) (fun r hr => ?_) (fun k' hk' => by omega)⟩
      rw [List.mem_filter]
      exact ⟨hmem 0 r (by omega) hr, by simpa [h0] using hz⟩
  have hY : Largest n n ((first :: rest).filter fun c => decide (y0 + s c.2 ≠ 0)) 0 := by
    have hsize : ∀ c, c < n → columnSize n ((first :: rest).filter fun c => decide (y0 + s c.2 ≠ 0)) c =
        ((Finset.range n).filter fun r => y0 + s r ≠ 0).card := by
      intro c hc
      unfold columnSize
      congr 1
      apply Finset.filter_congr
      intro r hr
      rw [List.mem_filter]
      simp [hmem c r hc (Finset.mem_range.1 hr)]
    refine ⟨by omega, ?_, fun c hc => by rw [hsize c hc, hsize 0 (by omega)], fun c hc => by omega⟩
    rw [hsize 0 (by omega), Finset.card_pos]
    by_cases hz : y0 + s 0 = 0
    · refine ⟨1, Finset.mem_filter.2 ⟨Finset.mem_range.2 (by omega), ?_⟩⟩
      have := hA.gap_lt 0 1 (by omega) (by omega)
      intro he
      linarith
    · exact ⟨0, Finset.mem_filter.2 ⟨Finset.mem_range.2 (by omega), hz⟩⟩
  obtain ⟨k, hk⟩ := hX
  obtain ⟨c, hc, hcn⟩ := hnear
  have := getRowColumn_lines (x0 := x0) (y0 := y0) hA hA first rest (fun c hc => (hcells c).1 hc) hnd ⟨c, hc, distance2_neighbour c first hcn⟩
    ⟨(0, 0), hmem 0 0 (by omega) (by omega), rfl⟩ ⟨(n - 1, 0), hmem _ _ (by omega) (by omega), rfl⟩ ⟨(0, 0), hmem 0 0 (by omega) (by omega), rfl⟩
    ⟨(0, n - 1), hmem _ _ (by omega) (by omega), rfl⟩ k 0 hk hY k hk.lt rfl
  rw [range_filter_all n _ (fun c hc => hmem c k hc hk.lt), range_filter_all n _ (fun r hr => hmem 0 r (by omega) hr),
    placePixels_line hA h1 (fun c hc => (hcells c).1 hc)] at this
  exact this

/-- 2×2 pixels around the origin, in another order, with the origin on a pixel -/
example : getRowColumn (([(1, 1), (0, 1), (1, 0), (0, 0)] : List (Nat × Nat)).map fun c => ((0 : ℝ) + (c.1 : ℝ), (-1 : ℝ) + (c.2 : ℝ))) =
    .ok ([1, 1, 0, 0], [1, 0, 1, 0]) :=
  C89_complete 2 (fun k => (k : ℝ)) 1 0 (-1) (1, 1) [(0, 1), (1, 0), (0, 0)]
    (by norm_num) (by norm_num) (by norm_num) (fun k _ => by push_cast; linarith)
    (by have := Real.one_lt_sqrt_two; push_cast; linarith)
    (by
      rintro ⟨a, b⟩
      simp only [List.mem_cons, Prod.mk.injEq, List.not_mem_nil, or_false]
      omega) (by decide) ⟨(0, 1), by decide, Or.inr ⟨rfl, by norm_num⟩⟩

theorem lineBin_zero {n : Nat} {s : Nat → ℝ} {d : ℝ} (h : Axis n s d) : lineBin n s d 0 = 0 := by
  unfold lineBin
  rw [if_neg (by have := h.two; omega), h.zero]
  simp

/-- A complete rectangular camera with a different number of columns and rows always raises `ValueError`. -/
theorem C89_false (nx ny : Nat) (sx sy : Nat → ℝ) (d x0 y0 : ℝ) (first : Nat × Nat) (rest : List (Nat × Nat)) (hnx : 2 ≤ nx) (hny : 2 ≤ ny) (hne : nx ≠ ny)
    (hx0 : sx 0 = 0) (hy0 : sy 0 = 0) (hd : 0 < d) (hgx : ∀ k, k + 1 < nx → d ≤ sx (k + 1) - sx k) (hgy : ∀ k, k + 1 < ny → d ≤ sy (k + 1) - sy k)
    (hcells : ∀ c, c ∈ first :: rest ↔ c.1 < nx ∧ c.2 < ny) (hnd : (first :: rest).Nodup)
    (hnear : ∃ c ∈ rest, (c.1 = first.1 ∧ |sy c.2 - sy first.2| = d) ∨ (c.2 = first.2 ∧ |sx c.1 - sx first.1| = d))
    (hx : x0 ≠ 0) (hy : ∀ k, k < ny → y0 + sy k ≠ 0) :
    getRowColumn ((first :: rest).map fun c => (x0 + sx c.1, y0 + sy c.2)) = .error .valueError := by
  classical
  have hA : Axis nx sx d := ⟨hnx, hx0, hd, hgx⟩
  have hB : Axis ny sy d := ⟨hny, hy0, hd, hgy⟩
  have hmem : ∀ c r, c < nx → r < ny → (c, r) ∈ first :: rest := fun c r hc hr => (hcells (c, r)).2 ⟨hc, hr⟩
  have hX : Largest nx ny ((first :: rest).filter fun c => decide (x0 + sx c.1 ≠ 0)) 0 := by
    refine Largest.of_full (by omega) 0 (by omega) (fun r hr => ?_) (fun k' hk' => by omega)
    rw [List.mem_filter]
    exact ⟨hmem 0 r (by omega) hr, by simpa [hx0] using hx⟩
  have hY : Largest nx ny ((first :: rest).filter fun c => decide (y0 + sy c.2 ≠ 0)) 0 := by
    refine Largest.of_full (by omega) 0 (by omega) (fun r hr => ?_) (fun k' hk' => by omega)
    rw [List.mem_filter]
    exact ⟨hmem 0 r (by omega) hr, by simpa using hy r hr⟩
  obtain ⟨c, hc, hcn⟩ := hnear
  have := getRowColumn_lines (x0 := x0) (y0 := y0) hA hB first rest (fun c hc => (hcells c).1 hc) hnd ⟨c, hc, distance2_neighbour c first hcn⟩
    ⟨(0, 0), hmem 0 0 (by omega) (by omega), rfl⟩ ⟨(nx - 1, 0), hmem _ _ (by omega) (by omega), rfl⟩ ⟨(0, 0), hmem 0 0 (by omega) (by omega), rfl⟩
    ⟨(0, ny - 1), hmem _ _ (by omega) (by omega), rfl⟩ 0 0 hX hY 0 (by omega) (by rw [lineBin_zero hA, lineBin_zero hB])
  rw [range_filter_all nx _ (fun c hc => hmem c 0 hc (by omega)), range_filter_all ny _ (fun r hr => hmem 0 r (by omega) hr)] at this
  refine this.trans ?_
  obtain ⟨a, rfl⟩ : ∃ a, nx = a + 2 := ⟨nx - 2, by omega⟩
  obtain ⟨b, rfl⟩ : ∃ b, ny = b + 2 := ⟨ny - 2, by omega⟩
  unfold placePixels
  rw [List.range_succ_eq_map, List.range_succ_eq_map (n := b + 1)]
  simp only [List.map_cons, lineDistances, List.length_map, List.length_range, List.map_map]
  rw [if_neg (by omega), if_neg (by simp), if_neg (by simp)]

/-- three columns of two pixels -/
example : getRowColumn (([(0, 0), (1, 0), (2, 0), (0, 1), (1, 1), (2, 1)] : List (Nat × Nat)).map fun c => ((-1 : ℝ) + (c.1 : ℝ), (-1 / 2 : ℝ) + (c.2 : ℝ))) =
    .error .valueError :=
  C89_false 3 2 (fun k => (k : ℝ)) (fun k => (k : ℝ)) 1 (-1) (-1 / 2) (0, 0) [(1, 0), (2, 0), (0, 1), (1, 1), (2, 1)] (by norm_num) (by norm_num) (by norm_num)
    (by norm_num) (by norm_num) (by norm_num) (fun k _ => by push_cast; linarith) (fun k _ => by push_cast; linarith)
    (by
      rintro ⟨a, b⟩
      simp only [List.mem_cons, Prod.mk.injEq, List.not_mem_nil, or_false]
      omega) (by decide) ⟨(1, 0), by decide, Or.inr ⟨rfl, by norm_num⟩⟩ (by norm_num) (fun k hk => by interval_cases k <;> norm_num)

theorem digitizeAll_two (x m : ℝ) (hm0 : 0 < m) (s : Nat → ℝ) (cs : List Nat) (h0 : s 0 = 0) (h : ∀ c ∈ cs, c ≠ 0 → m ≤ s c) :
    digitizeAll (lineEdges [x] m) (cs.map fun k => x + s k) = .ok (cs.map fun (c : Nat) => if c = 0 then 0 else 1) := by
  have he : lineEdges [x] m = [x - m, x + m] := by simp [lineEdges]
  have hp : List.Pairwise (· ≤ ·) [x - m, x + m] := by simp; linarith
  rw [he]
  unfold digitizeAll
  induction cs with
  | nil => rfl
  | cons c cs ih =>
    rw [List.map_cons, List.mapM_cons, ih fun u hu => h u (by simp [hu])]
    have : digitize [x - m, x + m] (x + s c) = .ok (if c = 0 then 1 else 2) := by
      unfold digitize
      rw [if_pos hp]
      by_cases hc : c = 0
      · subst hc
        have e1 : x - m ≤ x + s 0 := by rw [h0]; linarith
        have e2 : ¬ x + m ≤ x + s 0 := by rw [h0]; linarith
        simp only [List.filter_cons, e1, e2, decide_true, decide_false, List.filter_nil, if_true]
        rfl
      · have := h c (by simp) hc
        have e1 : x - m ≤ x + s c := by linarith
        have e2 : x + m ≤ x + s c := by linarith
        simp only [List.filter_cons, e1, e2, decide_true, List.filter_nil, if_true, if_neg hc]
        rfl
    rw [this]
    by_cases hc : c = 0
    · simp [bind, Except.bind, pure, Except.pure, hc]
    · simp [bind, Except.bind, pure, Except.pure, hc]

/-- If the first column is full and the first row has only one pixel, all columns but the first get the number one, without an error. -/
theorem C89_silent (nx ny : Nat) (sx sy : Nat → ℝ) (d x0 y0 : ℝ) (first : Nat × Nat) (rest : List (Nat × Nat)) (hnx : 2 ≤ nx) (hny : 3 ≤ ny)
    (hx0 : sx 0 = 0) (hy0 : sy 0 = 0) (hd : 0 < d) (hgx : ∀ k, k + 1 < nx → d ≤ sx (k + 1) - sx k) (hgy : ∀ k, k + 1 < ny → d ≤ sy (k + 1) - sy k)
    (h1 : sy 1 < 2 * d) (hin : ∀ c ∈ first :: rest, c.1 < nx ∧ c.2 < ny) (hnd : (first :: rest).Nodup)
    (hnear : ∃ c ∈ rest, (c.1 = first.1 ∧ |sy c.2 - sy first.2| = d) ∨ (c.2 = first.2 ∧ |sx c.1 - sx first.1| = d))
    (hcol : ∀ r, r < ny → (0, r) ∈ first :: rest) (hrow : ∀ c, c ≠ 0 → (c, 0) ∉ first :: rest) (hlast : ∃ r, (nx - 1, r) ∈ first :: rest)
    (hx : x0 ≠ 0) (hy : ∀ k, k < ny → y0 + sy k ≠ 0) :
    getRowColumn ((first :: rest).map fun c => (x0 + sx c.1, y0 + sy c.2)) =
      .ok (rowsOf (first :: rest), (first :: rest).map fun c => if c.1 = 0 then 0 else 1) := by
  classical
  have hA : Axis nx sx d := ⟨hnx, hx0, hd, hgx⟩
  have hB : Axis ny sy d := ⟨by omega, hy0, hd, hgy⟩
  have hX : Largest nx ny ((first :: rest).filter fun c => decide (x0 + sx c.1 ≠ 0)) 0 := by
    refine Largest.of_full (by omega) 0 (by omega) (fun r hr => ?_) (fun k' hk' => by omega)
    rw [List.mem_filter]
    exact ⟨hcol r hr, by simpa [hx0] using hx⟩
  have hY : Largest nx ny ((first :: rest).filter fun c => decide (y0 + sy c.2 ≠ 0)) 0 := by
    refine Largest.of_full (by omega) 0 (by omega) (fun r hr => ?_) (fun k' hk' => by omega)
    rw [List.mem_filter]
    exact ⟨hcol r hr, by simpa using hy r hr⟩
  obtain ⟨c, hc, hcn⟩ := hnear
  obtain ⟨rl, hrl⟩ := hlast
  have := getRowColumn_lines (x0 := x0) (y0 := y0) hA hB first rest hin hnd ⟨c, hc, distance2_neighbour c first hcn⟩
    ⟨(0, 0), hcol 0 (by omega), rfl⟩ ⟨(nx - 1, rl), hrl, rfl⟩ ⟨(0, 0), hcol 0 (by omega), rfl⟩
    ⟨(0, ny - 1), hcol _ (by omega), rfl⟩ 0 0 hX hY 0 (by omega) (by rw [lineBin_zero hA, lineBin_zero hB])
  refine this.trans ?_
  have hone : (List.range nx).filter (fun c => decide ((c, 0) ∈ first :: rest)) = [0] := by
    obtain ⟨a, rfl⟩ : ∃ a, nx = a + 1 := ⟨nx - 1, by omega⟩
    rw [List.range_succ_eq_map, List.filter_cons, if_pos (by simpa using hcol 0 (by omega)), List.filter_eq_nil_iff.2]
    intro k hk
    obtain ⟨j, _, rfl⟩ := List.mem_map.1 hk
    simpa using hrow (j + 1) (by omega)
  rw [hone, range_filter_all ny _ hcol]
  have hs1 : d ≤ sy 1 := by have := hgy 0 (by omega); rw [hy0, sub_zero] at this; exact this
  have hdist : lineDistances ([0].map fun c => x0 + sx c) ((List.range ny).map fun r => y0 + sy r) =
      .ok ((List.range ny).map fun r => distance2 (x0, y0 + sy r) (x0, y0)) := by
    obtain ⟨b, rfl⟩ : ∃ b, ny = b + 2 := ⟨ny - 2, by omega⟩
    rw [List.range_succ_eq_map]
    simp only [List.map_cons, List.map_nil, lineDistances, List.length_map, List.length_range, List.map_map, List.length_nil, hx0, hy0, add_zero]
    rw [if_neg (by omega)]
    rfl
  have hmin : minR ((List.range ny).map fun r => distance2 (x0, y0 + sy r) (x0, y0)).tail = .ok (sy 1) := by
    obtain ⟨m, rfl⟩ : ∃ m, ny = m + 1 := ⟨ny - 1, by omega⟩
    rw [List.range_succ_eq_map, List.map_cons, List.tail_cons, List.map_map]
    have hval : ∀ k, k < m → distance2 (x0, y0 + sy (k + 1)) (x0, y0) = sy (k + 1) := by
      intro k hk
      apply distance2_vertical
      have := hB.mono 0 (k + 1) (by omega) (by omega)
      rwa [hy0] at this
    apply minR_eq
    · exact List.mem_map.2 ⟨0, List.mem_range.2 (by omega), hval 0 (by omega)⟩
    · intro v hv
      obtain ⟨k, hk, rfl⟩ := List.mem_map.1 hv
      have hk := List.mem_range.1 hk
      simp only [Function.comp_apply, Nat.succ_eq_add_one]
      rw [hval k hk]
      exact hB.mono 1 (k + 1) (by omega) (by omega)
  unfold placePixels
  rw [hdist]
  simp only
  rw [hmin]
  simp only
  have hm0 : 0 < sy 1 / 2 := by linarith
  have rowsOk := digitizeAll_lines hB y0 (sy 1 / 2) hm0 (by linarith) ((first :: rest).map Prod.snd) (fun c hc => by
    obtain ⟨e, he, rfl⟩ := List.mem_map.1 hc; exact (hin e he).2)
  have colsOk := digitizeAll_two x0 (sy 1 / 2) hm0 sx ((first :: rest).map Prod.fst) hx0 (fun c hc hc0 => by
    obtain ⟨e, he, rfl⟩ := List.mem_map.1 hc
    have := hA.gap_lt 0 e.1 (by omega) (hin e he).1
    rw [hx0] at this
    linarith)
  rw [List.map_map, List.map_map] at rowsOk colsOk
  have ef : [0].map (fun c => x0 + sx c) = [x0] := by simp [hx0]
  have ec : (((first :: rest).map (cellPos x0 y0 sx sy)).map Prod.fst) = (first :: rest).map ((fun k => x0 + sx k) ∘ Prod.fst) := by rw [List.map_map]; rfl
  have er : (((first :: rest).map (cellPos x0 y0 sx sy)).map Prod.snd) = (first :: rest).map ((fun k => y0 + sy k) ∘ Prod.snd) := by rw [List.map_map]; rfl
  rw [ef, ec, er, colsOk, rowsOk]
  rfl

/-- The shape `⊢` of 3×3 pixels: the third column gets the number of the second one. -/
example : getRowColumn (([(0, 0), (0, 1), (0, 2), (1, 1), (2, 1)] : List (Nat × Nat)).map fun c => ((1 : ℝ) + (c.1 : ℝ), (1 : ℝ) + (c.2 : ℝ))) =
    .ok ([0, 1, 2, 1, 1], [0, 0, 0, 1, 1]) :=
  C89_silent 3 3 (fun k => (k : ℝ)) (fun k => (k : ℝ)) 1 1 1 (0, 0) [(0, 1), (0, 2), (1, 1), (2, 1)] (by norm_num) (by norm_num)
    (by norm_num) (by norm_num) (by norm_num) (fun k _ => by push_cast; linarith) (fun k _ => by push_cast; linarith) (by norm_num) (by decide) (by decide)
    ⟨(0, 1), by decide, Or.inl ⟨rfl, by norm_num⟩⟩ (by decide) (by intro c hc; simpa using hc) ⟨1, by decide⟩ (by norm_num)
    (fun k hk => by interval_cases k <;> norm_num)

end Verif.Props
