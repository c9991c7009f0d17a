import Verif.Model.RowColumn
import Verif.Lemmas.Dl1
import Mathlib.Tactic.Linarith
import Mathlib.Tactic.FieldSimp
import Mathlib.Tactic.Ring
import Mathlib.Tactic.Positivity
import Mathlib.Algebra.Order.Floor.Ring
import Mathlib.Data.List.Sort
import Mathlib.Data.Finset.Card

namespace Verif.Lemmas

open Verif.Py Verif.Model

/-- lines of pixels along an axis: `n` lines at the offsets `s`, at least `d` apart -/
structure Axis (n : Nat) (s : Nat → ℝ) (d : ℝ) : Prop where
  two : 2 ≤ n
  zero : s 0 = 0
  pos : 0 < d
  gap : ∀ k, k + 1 < n → d ≤ s (k + 1) - s k

namespace Axis

variable {n : Nat} {s : Nat → ℝ} {d : ℝ}

theorem gap_lt (h : Axis n s d) (i j : Nat) (hij : i < j) (hj : j < n) : d ≤ s j - s i := by
  induction j, hij using Nat.le_induction with
  | base => exact h.gap i hj
  | succ j hij ih =>
    have h1 := ih (by omega)
    have h2 := h.gap j hj
    have := h.pos
    linarith

theorem mono (h : Axis n s d) (i j : Nat) (hij : i ≤ j) (hj : j < n) : s i ≤ s j := by
  rcases Nat.eq_or_lt_of_le hij with rfl | hlt
  · exact le_refl _
  · have := h.gap_lt i j hlt hj
    have := h.pos
    linarith

theorem inj (h : Axis n s d) (i j : Nat) (hi : i < n) (hj : j < n) (he : s i = s j) : i = j := by
  rcases Nat.lt_trichotomy i j with hlt | heq | hgt
  · have := h.gap_lt i j hlt hj; have := h.pos; linarith
  · exact heq
  · have := h.gap_lt j i hgt hi; have := h.pos; linarith

theorem extent (h : Axis n s d) : d ≤ s (n - 1) := by
  have h2 := h.two
  have := h.gap_lt 0 (n - 1) (by omega) (by omega)
  rw [h.zero] at this
  linarith

end Axis

/-- the number of bins along the axis -/
noncomputable def nBinsOf (n : Nat) (s : Nat → ℝ) (d : ℝ) : Nat := ⌈s (n - 1) / d⌉₊ + 1

/-- the bin of line `k` -/
noncomputable def lineBin (n : Nat) (s : Nat → ℝ) (d : ℝ) (k : Nat) : Nat :=
  if k = n - 1 then nBinsOf n s d - 1 else ⌊s k * nBinsOf n s d / s (n - 1)⌋₊

theorem nBinsOf_gt {n : Nat} {s : Nat → ℝ} {d : ℝ} : s (n - 1) / d < nBinsOf n s d := by
  unfold nBinsOf
  have := Nat.le_ceil (s (n - 1) / d)
  push_cast
  linarith

theorem axisBins_line {n : Nat} {s : Nat → ℝ} {d : ℝ} (h : Axis n s d) (x0 : ℝ) :
    axisBins x0 (x0 + s (n - 1)) d = .ok (nBinsOf n s d) := by
  unfold axisBins nBinsOf
  rw [if_neg h.pos.ne']
  simp

theorem axisBin_line {n : Nat} {s : Nat → ℝ} {d : ℝ} (h : Axis n s d) (x0 : ℝ) (k : Nat) (hk : k < n) :
    axisBin x0 (x0 + s (n - 1)) (nBinsOf n s d) (x0 + s k) = lineBin n s d k := by
  have hext := h.extent
  have hpos := h.pos
  unfold axisBin lineBin
  rw [if_neg (by intro he; linarith)]
  by_cases hk1 : k = n - 1
  · rw [if_pos (by rw [hk1]), if_pos hk1]
  · rw [if_neg, if_neg hk1]
    · rw [add_sub_cancel_left, add_sub_cancel_left]
    · intro he
      exact hk1 (h.inj k (n - 1) hk (by omega) (by linarith))

theorem lineBin_lt {n : Nat} {s : Nat → ℝ} {d : ℝ} (h : Axis n s d) (k : Nat) (hk : k < n) : lineBin n s d k < nBinsOf n s d := by
  have hext := h.extent
  have hpos := h.pos
  have hL : 0 < s (n - 1) := lt_of_lt_of_le hpos hext
  have hN : 1 ≤ nBinsOf n s d := by unfold nBinsOf; omega
  unfold lineBin
  split
  · omega
  · rename_i hk1
    have hNpos : (0 : ℝ) < nBinsOf n s d := by exact_mod_cast hN
    rw [Nat.floor_lt' (by omega), div_lt_iff₀ hL]
    have : s k < s (n - 1) := by
      have := h.gap_lt k (n - 1) (by omega) (by omega)
      linarith
    nlinarith

theorem lineBin_strict {n : Nat} {s : Nat → ℝ} {d : ℝ} (h : Axis n s d) (i j : Nat) (hij : i < j) (hj : j < n) :
    lineBin n s d i < lineBin n s d j := by
  have hext := h.extent
  have hpos := h.pos
  have hL : 0 < s (n - 1) := lt_of_lt_of_le hpos hext
  have hN : 1 ≤ nBinsOf n s d := by unfold nBinsOf; omega
  have hNpos : (0 : ℝ) < nBinsOf n s d := by exact_mod_cast hN
  have hgt := nBinsOf_gt (n := n) (s := s) (d := d)
  have hstep : s (n - 1) < d * nBinsOf n s d := by
    rw [div_lt_iff₀ hpos] at hgt; linarith
  have hgap := h.gap_lt i j hij hj
  have hi0 : 0 ≤ s i := by
    have := h.mono 0 i (by omega) (by omega)
    rw [h.zero] at this; exact this
  have key : s i * nBinsOf n s d / s (n - 1) + 1 < s j * nBinsOf n s d / s (n - 1) := by
    rw [div_add_one hL.ne', div_lt_div_iff_of_pos_right hL]
    nlinarith
  have hnn : 0 ≤ s i * nBinsOf n s d / s (n - 1) := by positivity
  unfold lineBin
  rw [if_neg (by omega : ¬ i = n - 1)]
  by_cases hj1 : j = n - 1
  · rw [if_pos hj1]
    rw [Nat.floor_lt hnn]
    rw [hj1, mul_div_cancel_left₀ _ hL.ne'] at key
    rw [Nat.cast_sub hN]
    push_cast
    linarith
  · rw [if_neg hj1, Nat.lt_iff_add_one_le, ← Nat.floor_add_one hnn]
    exact Nat.floor_le_floor key.le

theorem lineBin_inj {n : Nat} {s : Nat → ℝ} {d : ℝ} (h : Axis n s d) (i j : Nat) (hi : i < n) (hj : j < n)
    (he : lineBin n s d i = lineBin n s d j) : i = j := by
  rcases Nat.lt_trichotomy i j with hlt | heq | hgt
  · have := lineBin_strict h i j hlt hj; omega
  · exact heq
  · have := lineBin_strict h j i hgt hi; omega

/-- the bins of some of the lines, in ascending order -/
theorem filter_lineBin {n : Nat} {s : Nat → ℝ} {d : ℝ} (h : Axis n s d) (p q : Nat → Bool)
    (hp : ∀ i, p i = true ↔ ∃ k, k < n ∧ q k = true ∧ lineBin n s d k = i) :
    (List.range (nBinsOf n s d)).filter p = ((List.range n).filter q).map (lineBin n s d) := by
  have s1 : ((List.range (nBinsOf n s d)).filter p).Pairwise (· < ·) := List.Pairwise.filter _ List.pairwise_lt_range
  have s2 : (((List.range n).filter q).map (lineBin n s d)).Pairwise (· < ·) := by
    rw [List.pairwise_map]
    refine List.Pairwise.imp_of_mem ?_ (List.Pairwise.filter _ List.pairwise_lt_range)
    intro a b _ hb hab
    exact lineBin_strict h a b hab (List.mem_range.1 (List.mem_filter.1 hb).1)
  have hperm : ((List.range (nBinsOf n s d)).filter p).Perm (((List.range n).filter q).map (lineBin n s d)) := by
    rw [List.perm_ext_iff_of_nodup (s1.imp fun h => h.ne) (s2.imp fun h => h.ne)]
    intro i
    simp only [List.mem_filter, List.mem_range, hp, List.mem_map]
    constructor
    · rintro ⟨_, k, hk, hq, rfl⟩; exact ⟨k, ⟨hk, hq⟩, rfl⟩
    · rintro ⟨k, ⟨hk, hq⟩, rfl⟩; exact ⟨lineBin_lt h k hk, k, hk, hq, rfl⟩
  exact hperm.eq_of_pairwise (fun a b _ _ h1 h2 => absurd h1 (by omega)) s1 s2

/-! ### minimum and first maximum -/

theorem foldl_min_spec (xs : List ℝ) (x : ℝ) : (xs.foldl min x ∈ x :: xs) ∧ ∀ y ∈ x :: xs, xs.foldl min x ≤ y := by
  induction xs generalizing x with
  | nil => simp
  | cons a xs ih =>
    rw [List.foldl_cons]
    obtain ⟨h1, h2⟩ := ih (min x a)
    have hm := h2 (min x a) List.mem_cons_self
    constructor
    · rcases List.mem_cons.1 h1 with h | h
      · rcases min_choice x a with hc | hc <;> rw [h, hc] <;> simp
      · simp [h]
    · intro y hy
      rcases List.mem_cons.1 hy with rfl | hy
      · exact le_trans hm (min_le_left _ _)
      · rcases List.mem_cons.1 hy with rfl | hy
        · exact le_trans hm (min_le_right _ _)
        · exact h2 y (by simp [hy])

theorem foldl_max_spec (xs : List ℝ) (x : ℝ) : (xs.foldl max x ∈ x :: xs) ∧ ∀ y ∈ x :: xs, y ≤ xs.foldl max x := by
  induction xs generalizing x with
  | nil => simp
  | cons a xs ih =>
    rw [List.foldl_cons]
    obtain ⟨h1, h2⟩ := ih (max x a)
    have hm := h2 (max x a) List.mem_cons_self
    constructor
    · rcases List.mem_cons.1 h1 with h | h
      · rcases max_choice x a with hc | hc <;> rw [h, hc] <;> simp
      · simp [h]
    · intro y hy
      rcases List.mem_cons.1 hy with rfl | hy
      · exact le_trans (le_max_left _ _) hm
      · rcases List.mem_cons.1 hy with rfl | hy
        · exact le_trans (le_max_right _ _) hm
        · exact h2 y (by simp [hy])

theorem foldl_min_eq (xs : List ℝ) (x m : ℝ) (h1 : m ∈ x :: xs) (h2 : ∀ y ∈ x :: xs, m ≤ y) : xs.foldl min x = m := by
  obtain ⟨a, b⟩ := foldl_min_spec xs x
  exact le_antisymm (b m h1) (h2 _ a)

theorem foldl_max_eq (xs : List ℝ) (x m : ℝ) (h1 : m ∈ x :: xs) (h2 : ∀ y ∈ x :: xs, y ≤ m) : xs.foldl max x = m := by
  obtain ⟨a, b⟩ := foldl_max_spec xs x
  exact le_antisymm (h2 _ a) (b m h1)

theorem minR_eq (l : List ℝ) (m : ℝ) (h1 : m ∈ l) (h2 : ∀ y ∈ l, m ≤ y) : minR l = .ok m := by
  cases l with
  | nil => simp at h1
  | cons x xs => exact congrArg Except.ok (foldl_min_eq xs x m h1 h2)

theorem argmaxNat_spec (f : Nat → Nat) (n : Nat) (hn : 0 < n) :
    argmaxNat f n < n ∧ (∀ k, k < n → f k ≤ f (argmaxNat f n)) ∧ ∀ k, k < argmaxNat f n → f k < f (argmaxNat f n) := by
  induction n with
  | zero => omega
  | succ n ih =>
    unfold argmaxNat
    by_cases h0 : n = 0
    · subst h0
      simp
    · obtain ⟨a, b, c⟩ := ih (by omega)
      by_cases hle : f n ≤ f (argmaxNat f n)
      · rw [if_pos ⟨h0, hle⟩]
        refine ⟨by omega, fun k hk => ?_, c⟩
        rcases Nat.lt_succ_iff_lt_or_eq.1 hk with hk | rfl
        · exact b k hk
        · exact hle
      · rw [if_neg (by tauto)]
        refine ⟨by omega, fun k hk => ?_, fun k hk => ?_⟩
        · rcases Nat.lt_succ_iff_lt_or_eq.1 hk with hk | rfl
          · have := b k hk; omega
          · exact le_refl _
        · have := b k hk; omega

/-! ### the histograms of a camera -/

/-- the position of the pixel in column `c.1` and row `c.2` -/
def cellPos (x0 y0 : ℝ) (sx sy : Nat → ℝ) (c : Nat × Nat) : ℝ × ℝ := (x0 + sx c.1, y0 + sy c.2)

section Camera

variable {nx ny : Nat} {sx sy : Nat → ℝ} {d : ℝ} {x0 y0 : ℝ} {cells : List (Nat × Nat)} {bin : ℝ × ℝ → Nat × Nat}

theorem filter_cells (hx : Axis nx sx d) (hy : Axis ny sy d) (hin : ∀ c ∈ cells, c.1 < nx ∧ c.2 < ny) (hnd : cells.Nodup)
    (hbin : ∀ c ∈ cells, bin (cellPos x0 y0 sx sy c) = (lineBin nx sx d c.1, lineBin ny sy d c.2)) (c : Nat × Nat) (hc : c ∈ cells) :
    (cells.map (cellPos x0 y0 sx sy)).filter (fun p => decide (bin p = (lineBin nx sx d c.1, lineBin ny sy d c.2))) = [cellPos x0 y0 sx sy c] := by
  rw [List.filter_map]
  have : cells.filter ((fun p => decide (bin p = (lineBin nx sx d c.1, lineBin ny sy d c.2))) ∘ cellPos x0 y0 sx sy) = cells.filter (fun e => decide (e = c)) := by
    apply List.filter_congr
    intro e he
    simp only [Function.comp_apply, decide_eq_decide]
    rw [hbin e he]
    constructor
    · intro h
      rw [Prod.mk.injEq] at h
      exact Prod.ext (lineBin_inj hx _ _ (hin e he).1 (hin c hc).1 h.1) (lineBin_inj hy _ _ (hin e he).2 (hin c hc).2 h.2)
    · rintro rfl; rfl
  rw [this]
  have h2 : cells.filter (fun e => decide (e = c)) = [c] := by
    rw [List.filter_eq, List.count_eq_one_of_mem hnd hc]
    rfl
  rw [h2]
  rfl

theorem filter_empty (hbin : ∀ c ∈ cells, bin (cellPos x0 y0 sx sy c) = (lineBin nx sx d c.1, lineBin ny sy d c.2)) (i j : Nat)
    (hno : ∀ c ∈ cells, ¬ (lineBin nx sx d c.1 = i ∧ lineBin ny sy d c.2 = j)) :
    (cells.map (cellPos x0 y0 sx sy)).filter (fun p => decide (bin p = (i, j))) = [] := by
  rw [List.filter_eq_nil_iff]
  intro p hp
  obtain ⟨c, hc, rfl⟩ := List.mem_map.1 hp
  rw [hbin c hc]
  simp only [decide_eq_true_eq, Prod.mk.injEq]
  exact hno c hc

open Classical in
theorem histCell_ne_zero (hx : Axis nx sx d) (hy : Axis ny sy d) (hin : ∀ c ∈ cells, c.1 < nx ∧ c.2 < ny) (hnd : cells.Nodup)
    (hbin : ∀ c ∈ cells, bin (cellPos x0 y0 sx sy c) = (lineBin nx sx d c.1, lineBin ny sy d c.2)) (w : ℝ × ℝ → ℝ) (i j : Nat) :
    histCell bin w (cells.map (cellPos x0 y0 sx sy)) i j ≠ 0 ↔
      ∃ c ∈ cells.filter (fun c => w (cellPos x0 y0 sx sy c) ≠ 0), lineBin nx sx d c.1 = i ∧ lineBin ny sy d c.2 = j := by
  unfold histCell
  constructor
  · intro h
    by_cases hno : ∃ c ∈ cells, lineBin nx sx d c.1 = i ∧ lineBin ny sy d c.2 = j
    · obtain ⟨c, hc, rfl, rfl⟩ := hno
      rw [filter_cells hx hy hin hnd hbin c hc] at h
      exact ⟨c, List.mem_filter.2 ⟨hc, by simpa using h⟩, rfl, rfl⟩
    · push Not at hno
      rw [filter_empty hbin i j (fun c hc h' => hno c hc h'.1 h'.2)] at h
      exact absurd rfl h
  · rintro ⟨c, hc, rfl, rfl⟩
    rw [filter_cells hx hy hin hnd hbin c (List.mem_filter.1 hc).1]
    simpa using (List.mem_filter.1 hc).2

theorem histCell_cell (hx : Axis nx sx d) (hy : Axis ny sy d) (hin : ∀ c ∈ cells, c.1 < nx ∧ c.2 < ny) (hnd : cells.Nodup)
    (hbin : ∀ c ∈ cells, bin (cellPos x0 y0 sx sy c) = (lineBin nx sx d c.1, lineBin ny sy d c.2)) (w : ℝ × ℝ → ℝ) (c : Nat × Nat) (hc : c ∈ cells) :
    histCell bin w (cells.map (cellPos x0 y0 sx sy)) (lineBin nx sx d c.1) (lineBin ny sy d c.2) = w (cellPos x0 y0 sx sy c) := by
  unfold histCell
  rw [filter_cells hx hy hin hnd hbin c hc]
  simp

theorem histCount_ne_zero (hx : Axis nx sx d) (hy : Axis ny sy d) (hin : ∀ c ∈ cells, c.1 < nx ∧ c.2 < ny) (hnd : cells.Nodup)
    (hbin : ∀ c ∈ cells, bin (cellPos x0 y0 sx sy c) = (lineBin nx sx d c.1, lineBin ny sy d c.2)) (i j : Nat) :
    histCount bin (cells.map (cellPos x0 y0 sx sy)) i j ≠ 0 ↔ ∃ c ∈ cells, lineBin nx sx d c.1 = i ∧ lineBin ny sy d c.2 = j := by
  unfold histCount
  constructor
  · intro h
    by_contra hno
    push Not at hno
    rw [filter_empty hbin i j (fun c hc h' => hno c hc h'.1 h'.2)] at h
    exact h rfl
  · rintro ⟨c, hc, rfl, rfl⟩
    rw [filter_cells hx hy hin hnd hbin c hc]
    simp

theorem filter_length_card (n : Nat) (p : Nat → Prop) [DecidablePred p] :
    ((List.range n).filter fun j => p j).length = ((Finset.range n).filter p).card := by
  rfl

open Classical in
/-- number of cells that are not zero in column `c` -/
theorem count_line (hx : Axis nx sx d) (hy : Axis ny sy d) (hin : ∀ c ∈ cells, c.1 < nx ∧ c.2 < ny) (hist : Nat → Nat → ℝ)
    (hh : ∀ i j, hist i j ≠ 0 ↔ ∃ c ∈ cells, lineBin nx sx d c.1 = i ∧ lineBin ny sy d c.2 = j) (c : Nat) (hc : c < nx) :
    ((List.range (nBinsOf ny sy d)).filter fun j => hist (lineBin nx sx d c) j ≠ 0).length = ((Finset.range ny).filter fun r => (c, r) ∈ cells).card := by
  rw [filter_length_card]
  have : ((Finset.range (nBinsOf ny sy d)).filter fun j => hist (lineBin nx sx d c) j ≠ 0)
      = ((Finset.range ny).filter fun r => (c, r) ∈ cells).image (lineBin ny sy d) := by
    ext j
    simp only [Finset.mem_filter, Finset.mem_range, Finset.mem_image, hh]
    constructor
    · rintro ⟨_, e, he, h1, h2⟩
      have : e.1 = c := lineBin_inj hx _ _ (hin e he).1 hc h1
      exact ⟨e.2, ⟨(hin e he).2, by rw [← this]; exact he⟩, h2⟩
    · rintro ⟨r, ⟨hr, hcr⟩, rfl⟩
      exact ⟨lineBin_lt hy r hr, (c, r), hcr, rfl, rfl⟩
  rw [this, Finset.card_image_of_injOn]
  intro a ha b hb hab
  simp only [Finset.coe_filter, Finset.mem_range, Set.mem_ofPred_eq] at ha hb
  exact lineBin_inj hy a b ha.1 hb.1 hab

/-- number of pixels of a camera in column `c` -/
def columnSize (ny : Nat) (cells : List (Nat × Nat)) (c : Nat) : Nat := ((Finset.range ny).filter fun r => (c, r) ∈ cells).card

theorem columnSize_le (ny : Nat) (cells : List (Nat × Nat)) (c : Nat) : columnSize ny cells c ≤ ny :=
  le_trans (Finset.card_filter_le _ _) (by simp)

theorem columnSize_full (ny : Nat) (cells : List (Nat × Nat)) (c : Nat) : columnSize ny cells c = ny ↔ ∀ r, r < ny → (c, r) ∈ cells := by
  unfold columnSize
  constructor
  · intro h r hr
    have := (Finset.card_filter_eq_iff (s := Finset.range ny) (p := fun r => (c, r) ∈ cells)).1 (by rw [h]; simp)
    exact this r (Finset.mem_range.2 hr)
  · intro h
    have := (Finset.card_filter_eq_iff (s := Finset.range ny) (p := fun r => (c, r) ∈ cells)).2 (fun r hr => h r (Finset.mem_range.1 hr))
    rw [this]; simp

theorem columnSize_zero_of_empty (ny : Nat) (cells : List (Nat × Nat)) (c : Nat) (h : ∀ r, r < ny → (c, r) ∉ cells) : columnSize ny cells c = 0 := by
  unfold columnSize
  rw [Finset.card_eq_zero, Finset.filter_eq_empty_iff]
  intro r hr
  exact h r (Finset.mem_range.1 hr)

/-- `k` is the first of the largest columns, and not empty -/
structure Largest (nx ny : Nat) (cells : List (Nat × Nat)) (k : Nat) : Prop where
  lt : k < nx
  pos : 0 < columnSize ny cells k
  le : ∀ c, c < nx → columnSize ny cells c ≤ columnSize ny cells k
  first : ∀ c, c < k → columnSize ny cells c < columnSize ny cells k

/-- the first column with a pixel in every row -/
theorem Largest.of_full (hny : 0 < ny) (k : Nat) (hk : k < nx) (hfull : ∀ r, r < ny → (k, r) ∈ cells)
    (hfirst : ∀ k', k' < k → ∃ r, r < ny ∧ (k', r) ∉ cells) : Largest nx ny cells k := by
  have h := (columnSize_full ny cells k).2 hfull
  refine ⟨hk, by omega, fun c _ => by rw [h]; exact columnSize_le ny cells c, fun c hc => ?_⟩
  rw [h]
  refine lt_of_le_of_ne (columnSize_le ny cells c) fun he => ?_
  obtain ⟨r, hr, hno⟩ := hfirst c hc
  exact hno ((columnSize_full ny cells c).1 he r hr)

theorem fullest_line (hx : Axis nx sx d) (hy : Axis ny sy d) (hin : ∀ c ∈ cells, c.1 < nx ∧ c.2 < ny) (hist : Nat → Nat → ℝ)
    (hh : ∀ i j, hist i j ≠ 0 ↔ ∃ c ∈ cells, lineBin nx sx d c.1 = i ∧ lineBin ny sy d c.2 = j) (k : Nat) (hk : Largest nx ny cells k) :
    fullest hist (nBinsOf nx sx d) (nBinsOf ny sy d) = .ok (lineBin nx sx d k) := by
  classical
  set count : Nat → Nat := fun i => ((List.range (nBinsOf ny sy d)).filter fun j => hist i j ≠ 0).length with hcount
  have hline : ∀ c, c < nx → count (lineBin nx sx d c) = columnSize ny cells c :=
    fun c hc => by rw [hcount]; exact count_line hx hy hin hist hh c hc
  have hle : ∀ i, count i ≠ 0 → ∃ c, c < nx ∧ lineBin nx sx d c = i := by
    intro i hi
    rw [hcount] at hi
    have : ((List.range (nBinsOf ny sy d)).filter fun j => hist i j ≠ 0) ≠ [] := fun h => hi (by simp only [h, List.length_nil])
    obtain ⟨j, hj⟩ := List.exists_mem_of_ne_nil _ this
    simp only [ne_eq, decide_not, List.mem_filter, Bool.not_eq_eq_eq_not, Bool.not_true, decide_eq_false_iff_not] at hj
    obtain ⟨c, hc, h1, _⟩ := (hh i j).1 hj.2
    exact ⟨c.1, (hin c hc).1, h1⟩
  have hk' := hline k hk.lt
  have hpos := hk.pos
  have hklt := lineBin_lt hx k hk.lt
  obtain ⟨a, b, c⟩ := argmaxNat_spec count (nBinsOf nx sx d) (by omega)
  have hmax : argmaxNat count (nBinsOf nx sx d) = lineBin nx sx d k := by
    have h1 := b _ hklt
    obtain ⟨m, hm, hme⟩ := hle (argmaxNat count (nBinsOf nx sx d)) (by omega)
    have h2 := hk.le m hm
    rw [← hline m hm, hme] at h2
    rcases Nat.lt_trichotomy m k with hlt | heq | hgt
    · have := hk.first m hlt
      rw [← hline m hm, hme] at this
      omega
    · rw [← hme, heq]
    · have h3 := c (lineBin nx sx d k) (by rw [← hme]; exact lineBin_strict hx k m hgt hm)
      omega
  unfold fullest
  have hnot : ¬ (List.range (nBinsOf nx sx d)).all (fun i => decide (count i = 0)) = true := by
    intro h
    rw [List.all_eq_true] at h
    have := h _ (List.mem_range.2 hklt)
    simp only [decide_eq_true_eq] at this
    omega
  simp only
  rw [if_neg hnot, hmax]

open Classical in
/-- the lines that are found, if the column that is found for the horizontal coordinate has the number of a row -/
theorem fullLines_line (hx : Axis nx sx d) (hy : Axis ny sy d) (hin : ∀ c ∈ cells, c.1 < nx ∧ c.2 < ny) (hnd : cells.Nodup)
    (hbin : ∀ c ∈ cells, bin (cellPos x0 y0 sx sy c) = (lineBin nx sx d c.1, lineBin ny sy d c.2)) (k l : Nat)
    (hk : Largest nx ny (cells.filter fun c => x0 + sx c.1 ≠ 0) k) (hl : Largest nx ny (cells.filter fun c => y0 + sy c.2 ≠ 0) l) (q : Nat) (hq : q < ny)
    (hkq : lineBin nx sx d k = lineBin ny sy d q) :
    fullLines bin (nBinsOf nx sx d) (nBinsOf ny sy d) (cells.map (cellPos x0 y0 sx sy)) =
      .ok (((List.range nx).filter fun c => (c, q) ∈ cells).map (fun c => x0 + sx c),
        ((List.range ny).filter fun r => (l, r) ∈ cells).map fun r => y0 + sy r) := by
  unfold fullLines
  have hin' : ∀ p : Nat × Nat → Bool, ∀ c ∈ cells.filter p, c.1 < nx ∧ c.2 < ny := fun p c hc => hin c (List.mem_filter.1 hc).1
  rw [fullest_line hx hy (hin' _) _ (histCell_ne_zero hx hy hin hnd hbin Prod.fst) k hk,
    fullest_line hx hy (hin' _) _ (histCell_ne_zero hx hy hin hnd hbin Prod.snd) l hl]
  simp only
  rw [if_neg (by rw [hkq]; have := lineBin_lt hy q hq; omega)]
  have e1 : (List.range (nBinsOf nx sx d)).filter (fun i => decide (histCount bin (cells.map (cellPos x0 y0 sx sy)) i (lineBin nx sx d k) ≠ 0))
      = ((List.range nx).filter fun c => (c, q) ∈ cells).map (lineBin nx sx d) := by
    refine filter_lineBin hx _ _ fun i => ?_
    rw [hkq]
    simp only [decide_eq_true_eq]
    rw [histCount_ne_zero hx hy hin hnd hbin]
    constructor
    · rintro ⟨c, hc, h1, h2⟩
      have : c.2 = q := lineBin_inj hy _ _ (hin c hc).2 hq h2
      refine ⟨c.1, (hin c hc).1, ?_, h1⟩
      rw [← this]; exact hc
    · rintro ⟨k, hk, h2, h1⟩
      exact ⟨(k, q), h2, h1, rfl⟩
  have e2 : (List.range (nBinsOf ny sy d)).filter (fun j => decide (histCount bin (cells.map (cellPos x0 y0 sx sy)) (lineBin nx sx d l) j ≠ 0))
      = ((List.range ny).filter fun r => (l, r) ∈ cells).map (lineBin ny sy d) := by
    refine filter_lineBin hy _ _ fun j => ?_
    simp only [decide_eq_true_eq]
    rw [histCount_ne_zero hx hy hin hnd hbin]
    constructor
    · rintro ⟨c, hc, h1, h2⟩
      have : c.1 = l := lineBin_inj hx _ _ (hin c hc).1 hl.lt h1
      refine ⟨c.2, (hin c hc).2, ?_, h2⟩
      rw [← this]; exact hc
    · rintro ⟨r, hr, h1, h2⟩
      exact ⟨(l, r), h1, rfl, h2⟩
  rw [e1, e2, List.map_map, List.map_map]
  refine congrArg Except.ok (Prod.ext ?_ ?_)
  · refine List.map_congr_left fun c hc => ?_
    have hc' : (c, q) ∈ cells := by simpa using (List.mem_filter.1 hc).2
    simp only [Function.comp_apply]
    rw [hkq]
    exact histCell_cell hx hy hin hnd hbin Prod.fst (c, q) hc'
  · refine List.map_congr_left fun r hr => ?_
    have hr' : (l, r) ∈ cells := by simpa using (List.mem_filter.1 hr).2
    simp only [Function.comp_apply]
    exact histCell_cell hx hy hin hnd hbin Prod.snd (l, r) hr'

theorem distance2_ge (hx : Axis nx sx d) (hy : Axis ny sy d) (c e : Nat × Nat) (hc : c.1 < nx ∧ c.2 < ny) (he : e.1 < nx ∧ e.2 < ny) (hne : c ≠ e) :
    d ≤ distance2 (cellPos x0 y0 sx sy c) (cellPos x0 y0 sx sy e) := by
  have hd := hx.pos
  unfold distance2 cellPos
  apply Real.le_sqrt_of_sq_le
  simp only [add_sub_add_left_eq_sub]
  have hgap : ∀ {n : Nat} {s : Nat → ℝ}, Axis n s d → ∀ i j, i < n → j < n → i ≠ j → d ^ 2 ≤ (s i - s j) ^ 2 := by
    intro n s h i j hi hj hij
    rcases Nat.lt_or_gt_of_ne hij with hlt | hgt
    · have := h.gap_lt i j hlt hj
      nlinarith
    · have := h.gap_lt j i hgt hi
      nlinarith
  by_cases h1 : c.1 = e.1
  · have h2 : c.2 ≠ e.2 := fun h => hne (Prod.ext h1 h)
    have := hgap hy _ _ hc.2 he.2 h2
    nlinarith [sq_nonneg (sx c.1 - sx e.1)]
  · have := hgap hx _ _ hc.1 he.1 h1
    nlinarith [sq_nonneg (sy c.2 - sy e.2)]

open Classical in
theorem getRowColumn_lines (hx : Axis nx sx d) (hy : Axis ny sy d) (first : Nat × Nat) (rest : List (Nat × Nat))
    (hin : ∀ c ∈ first :: rest, c.1 < nx ∧ c.2 < ny) (hnd : (first :: rest).Nodup)
    (hnear : ∃ c ∈ rest, distance2 (cellPos x0 y0 sx sy c) (cellPos x0 y0 sx sy first) = d)
    (hl0 : ∃ c ∈ first :: rest, c.1 = 0) (hl1 : ∃ c ∈ first :: rest, c.1 = nx - 1)
    (hb0 : ∃ c ∈ first :: rest, c.2 = 0) (hb1 : ∃ c ∈ first :: rest, c.2 = ny - 1) (k l : Nat)
    (hk : Largest nx ny ((first :: rest).filter fun c => x0 + sx c.1 ≠ 0) k)
    (hl : Largest nx ny ((first :: rest).filter fun c => y0 + sy c.2 ≠ 0) l) (q : Nat) (hq : q < ny)
    (hkq : lineBin nx sx d k = lineBin ny sy d q) :
    getRowColumn ((first :: rest).map (cellPos x0 y0 sx sy)) =
      placePixels (((List.range nx).filter fun c => (c, q) ∈ first :: rest).map (fun c => x0 + sx c))
        (((List.range ny).filter fun r => (l, r) ∈ first :: rest).map fun r => y0 + sy r) ((first :: rest).map (cellPos x0 y0 sx sy)) := by
  have hmin : minR ((rest.map (cellPos x0 y0 sx sy)).map fun p => distance2 p (cellPos x0 y0 sx sy first)) = .ok d := by
    apply minR_eq
    · obtain ⟨c, hc, h⟩ := hnear
      simp only [List.mem_map, exists_exists_and_eq_and]
      exact ⟨c, hc, h⟩
    · intro v hv
      simp only [List.mem_map, exists_exists_and_eq_and] at hv
      obtain ⟨c, hc, rfl⟩ := hv
      exact distance2_ge hx hy c first (hin c (by simp [hc])) (hin first (by simp)) (fun h => (List.nodup_cons.1 hnd).1 (h ▸ hc))
  have hlow : ∀ {n : Nat} {s : Nat → ℝ}, Axis n s d → ∀ k, k < n → 0 ≤ s k ∧ s k ≤ s (n - 1) := by
    intro n s h k hk
    have a := h.mono 0 k (by omega) hk
    have b := h.mono k (n - 1) (by omega) (by omega)
    rw [h.zero] at a
    exact ⟨a, b⟩
  have ex : ∀ k : Nat, (∃ c ∈ first :: rest, c.1 = k) → x0 + sx k ∈ (cellPos x0 y0 sx sy first).1 :: (rest.map (cellPos x0 y0 sx sy)).map Prod.fst := by
    rintro k ⟨c, hc, rfl⟩
    rw [← List.map_cons (f := Prod.fst), ← List.map_cons (f := cellPos x0 y0 sx sy), List.map_map]
    exact List.mem_map.2 ⟨c, hc, rfl⟩
  have ey : ∀ k : Nat, (∃ c ∈ first :: rest, c.2 = k) → y0 + sy k ∈ (cellPos x0 y0 sx sy first).2 :: (rest.map (cellPos x0 y0 sx sy)).map Prod.snd := by
    rintro k ⟨c, hc, rfl⟩
    rw [← List.map_cons (f := Prod.snd), ← List.map_cons (f := cellPos x0 y0 sx sy), List.map_map]
    exact List.mem_map.2 ⟨c, hc, rfl⟩
  have ax : ∀ v ∈ (cellPos x0 y0 sx sy first).1 :: (rest.map (cellPos x0 y0 sx sy)).map Prod.fst, x0 ≤ v ∧ v ≤ x0 + sx (nx - 1) := by
    intro v hv
    rw [← List.map_cons (f := Prod.fst), ← List.map_cons (f := cellPos x0 y0 sx sy), List.map_map] at hv
    obtain ⟨c, hc, rfl⟩ := List.mem_map.1 hv
    have := hlow hx c.1 (hin c hc).1
    simp only [Function.comp_apply, cellPos]
    constructor <;> linarith
  have ay : ∀ v ∈ (cellPos x0 y0 sx sy first).2 :: (rest.map (cellPos x0 y0 sx sy)).map Prod.snd, y0 ≤ v ∧ v ≤ y0 + sy (ny - 1) := by
    intro v hv
    rw [← List.map_cons (f := Prod.snd), ← List.map_cons (f := cellPos x0 y0 sx sy), List.map_map] at hv
    obtain ⟨c, hc, rfl⟩ := List.mem_map.1 hv
    have := hlow hy c.2 (hin c hc).2
    simp only [Function.comp_apply, cellPos]
    constructor <;> linarith
  have mx0 := foldl_min_eq _ _ x0 (by have := ex 0 hl0; rwa [hx.zero, add_zero] at this) (fun v hv => (ax v hv).1)
  have mx1 := foldl_max_eq _ _ _ (ex _ hl1) (fun v hv => (ax v hv).2)
  have my0 := foldl_min_eq _ _ y0 (by have := ey 0 hb0; rwa [hy.zero, add_zero] at this) (fun v hv => (ay v hv).1)
  have my1 := foldl_max_eq _ _ _ (ey _ hb1) (fun v hv => (ay v hv).2)
  unfold getRowColumn
  rw [List.map_cons]
  simp only
  rw [hmin]
  simp only
  rw [mx0, mx1, my0, my1, axisBins_line hx, axisBins_line hy]
  simp only
  rw [← List.map_cons (f := cellPos x0 y0 sx sy), fullLines_line hx hy hin hnd ?_ k l hk hl q hq hkq]
  intro c hc
  unfold cellPos
  simp only
  rw [axisBin_line hx x0 c.1 (hin c hc).1, axisBin_line hy y0 c.2 (hin c hc).2]

/-- the last part: lines and half distance -/
theorem digitize_line {n : Nat} {s : Nat → ℝ} (h : Axis n s d) (x m : ℝ) (hm0 : 0 < m) (hm : m < d) (c : Nat) (hc : c < n) :
    digitize (lineEdges ((List.range n).map fun k => x + s k) m) (x + s c) = .ok (c + 1) := by
  have h2 := h.two
  have hlast : ((List.range n).map fun k => x + s k).getLast?.getD 0 = x + s (n - 1) := by
    rw [List.getLast?_eq_getElem?]
    simp only [List.length_map, List.length_range, List.getElem?_map]
    rw [List.getElem?_range (by omega)]
    rfl
  have hedge : lineEdges ((List.range n).map fun k => x + s k) m = (List.range n).map (fun k => x + s k - m) ++ [x + s (n - 1) + m] := by
    unfold lineEdges
    rw [hlast, List.map_map]
    rfl
  unfold digitize
  rw [if_pos]
  · rw [hedge, List.filter_append, List.length_append]
    have hl : ([x + s (n - 1) + m].filter fun e => decide (e ≤ x + s c)) = [] := by
      rw [List.filter_eq_nil_iff]
      intro e he
      rw [List.mem_singleton] at he
      subst he
      simp only [decide_eq_true_eq, not_le]
      have := h.mono c (n - 1) (by omega) (by omega)
      linarith
    rw [hl, List.filter_map, List.length_map, List.length_nil, add_zero]
    have : (List.range n).filter ((fun e => decide (e ≤ x + s c)) ∘ fun k => x + s k - m) = (List.range n).filter fun k => decide (k < c + 1) := by
      apply List.filter_congr
      intro k hk
      simp only [Function.comp_apply, decide_eq_decide]
      constructor
      · intro hle
        by_contra hlt
        have := h.gap_lt c k (by omega) (List.mem_range.1 hk)
        linarith
      · intro hlt
        have := h.mono k c (by omega) hc
        linarith
    rw [this]
    have : (List.range n).filter (fun k => decide (k < c + 1)) = List.range (c + 1) := by
      have e : n = (c + 1) + (n - (c + 1)) := by omega
      rw [e, List.range_add, List.filter_append, List.filter_eq_self.2, List.filter_eq_nil_iff.2, List.append_nil]
      · intro a ha
        obtain ⟨b, _, rfl⟩ := List.mem_map.1 ha
        simp only [decide_eq_true_eq, not_lt]
        omega
      · intro a ha
        simpa using List.mem_range.1 ha
    rw [this, List.length_range]
  · rw [hedge, List.pairwise_append]
    refine ⟨?_, by simp, ?_⟩
    · rw [List.pairwise_map]
      refine List.Pairwise.imp_of_mem ?_ List.pairwise_lt_range
      intro a b _ hb hab
      have := h.mono a b hab.le (List.mem_range.1 hb)
      linarith
    · intro a ha b hb
      obtain ⟨k, hk, rfl⟩ := List.mem_map.1 ha
      rw [List.mem_singleton] at hb
      subst hb
      have := h.mono k (n - 1) (by have := List.mem_range.1 hk; omega) (by omega)
      linarith

theorem digitizeAll_lines {n : Nat} {s : Nat → ℝ} (h : Axis n s d) (x m : ℝ) (hm0 : 0 < m) (hm : m < d) (cs : List Nat) (hc : ∀ c ∈ cs, c < n) :
    digitizeAll (lineEdges ((List.range n).map fun k => x + s k) m) (cs.map fun k => x + s k) = .ok (cs.map fun (c : Nat) => (c : Int)) := by
  unfold digitizeAll
  induction cs with
  | nil => rfl
  | cons v vs ih =>
    rw [List.map_cons, List.mapM_cons, ih fun u hu => hc u (by simp [hu]), digitize_line h x m hm0 hm v (hc v (by simp))]
    simp only [bind, Except.bind, pure, Except.pure, List.map_cons]
    congr 2
    push_cast
    ring

theorem lineDistances_same (n : Nat) (hn : 0 < n) (f g : Nat → ℝ) :
    lineDistances ((List.range n).map f) ((List.range n).map g) = .ok ((List.range n).map fun k => distance2 (f k, g k) (f 0, g 0)) := by
  obtain ⟨m, rfl⟩ : ∃ m, n = m + 1 := ⟨n - 1, by omega⟩
  rw [List.range_succ_eq_map]
  simp only [List.map_cons, lineDistances, List.length_map, if_true, List.zipWith_cons_cons, List.map_map, List.zipWith_map, List.zipWith_self]
  rfl

theorem distance2_diagonal (x y a : ℝ) (ha : 0 ≤ a) : distance2 (x + a, y + a) (x, y) = Real.sqrt 2 * a := by
  unfold distance2
  simp only [add_sub_cancel_left]
  rw [← two_mul, Real.sqrt_mul (by norm_num), Real.sqrt_sq ha]

theorem distance2_vertical (x y a : ℝ) (ha : 0 ≤ a) : distance2 (x, y + a) (x, y) = a := by
  unfold distance2
  simp only [add_sub_cancel_left, sub_self]
  rw [zero_pow (by norm_num), zero_add, Real.sqrt_sq ha]

/-- columns and rows of all pixels from the coordinates of all lines -/
theorem placePixels_line {n : Nat} {s : Nat → ℝ} (h : Axis n s d) (h1 : s 1 < Real.sqrt 2 * d) (hin : ∀ c ∈ cells, c.1 < n ∧ c.2 < n) :
    placePixels ((List.range n).map fun k => x0 + s k) ((List.range n).map fun k => y0 + s k) (cells.map (cellPos x0 y0 s s)) =
      .ok (cells.map fun c => (c.2 : Int), cells.map fun c => (c.1 : Int)) := by
  have hn := h.two
  have hd := h.pos
  have hs1 : d ≤ s 1 := by have := h.gap 0 (by omega); rw [h.zero, sub_zero] at this; exact this
  have h2 : (0 : ℝ) < Real.sqrt 2 := by positivity
  have hsq : Real.sqrt 2 * Real.sqrt 2 = 2 := Real.mul_self_sqrt (by norm_num)
  unfold placePixels
  rw [lineDistances_same n (by omega)]
  simp only
  have hmin : minR ((List.range n).map fun k => distance2 (x0 + s k, y0 + s k) (x0 + s 0, y0 + s 0)).tail = .ok (Real.sqrt 2 * s 1) := by
    obtain ⟨m, rfl⟩ : ∃ m, n = m + 1 := ⟨n - 1, by omega⟩
    rw [List.range_succ_eq_map, List.map_cons, List.tail_cons, List.map_map]
    have hval : ∀ k, k < m → distance2 (x0 + s (k + 1), y0 + s (k + 1)) (x0 + s 0, y0 + s 0) = Real.sqrt 2 * s (k + 1) := by
      intro k hk
      rw [h.zero, add_zero, add_zero]
      apply distance2_diagonal
      have := h.mono 0 (k + 1) (by omega) (by omega)
      rwa [h.zero] at this
    apply minR_eq
    · exact List.mem_map.2 ⟨0, List.mem_range.2 (by omega), hval 0 (by omega)⟩
    · intro v hv
      obtain ⟨k, hk, rfl⟩ := List.mem_map.1 hv
      have hk := List.mem_range.1 hk
      simp only [Function.comp_apply, Nat.succ_eq_add_one]
      rw [hval k hk]
      have := h.mono 1 (k + 1) (by omega) (by omega)
      exact mul_le_mul_of_nonneg_left this h2.le
  rw [hmin]
  simp only
  have hm0 : 0 < Real.sqrt 2 * s 1 / 2 := by
    have : 0 < s 1 := by linarith
    positivity
  have hm1 : Real.sqrt 2 * s 1 / 2 < d := by nlinarith
  have colsOk := digitizeAll_lines h x0 _ hm0 hm1 (cells.map Prod.fst) (fun c hc => by
    obtain ⟨e, he, rfl⟩ := List.mem_map.1 hc; exact (hin e he).1)
  have rowsOk := digitizeAll_lines h y0 _ hm0 hm1 (cells.map Prod.snd) (fun c hc => by
    obtain ⟨e, he, rfl⟩ := List.mem_map.1 hc; exact (hin e he).2)
  simp only [List.map_map] at colsOk rowsOk ⊢
  have ec : (cells.map (Prod.fst ∘ cellPos x0 y0 s s)) = cells.map ((fun k => x0 + s k) ∘ Prod.fst) := rfl
  have er : (cells.map (Prod.snd ∘ cellPos x0 y0 s s)) = cells.map ((fun k => y0 + s k) ∘ Prod.snd) := rfl
  rw [ec, er, colsOk, rowsOk]
  rfl

end Camera

end Verif.Lemmas
