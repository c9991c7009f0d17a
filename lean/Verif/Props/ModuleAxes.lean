import Verif.Model.ModuleAxes
import Verif.Py.DictLemmas
import Mathlib.Algebra.Order.Ring.Rat
import Mathlib.Data.List.Nodup
import Mathlib.Tactic.NormNum

/-! # C125: axes of the module plots -/

namespace Verif.Props

open Verif.Py Verif.Model

theorem foldl_min_nat (xs : List Nat) (x : Nat) : xs.foldl min x ∈ x :: xs ∧ ∀ y ∈ x :: xs, xs.foldl min x ≤ y := by
  induction xs generalizing x with
  | nil => simp
  | cons a xs ih =>
    obtain ⟨h1, h2⟩ := ih (min x a)
    rw [List.foldl_cons]
    constructor
    · rcases List.mem_cons.1 h1 with h | h
      · rw [h]
        rcases le_total x a with hx | hx
        · rw [min_eq_left hx]; exact List.mem_cons_self
        · rw [min_eq_right hx]; exact List.mem_cons_of_mem _ List.mem_cons_self
      · exact List.mem_cons_of_mem _ (List.mem_cons_of_mem _ h)
    · intro y hy
      have h3 := h2 _ List.mem_cons_self
      rcases List.mem_cons.1 hy with rfl | hy
      · exact h3.trans (min_le_left _ _)
      · rcases List.mem_cons.1 hy with rfl | hy
        · exact h3.trans (min_le_right _ _)
        · exact h2 y (List.mem_cons_of_mem _ hy)

theorem leastNat_iff (l : List Nat) (x : Nat) (hx : x ∈ l) : some x = leastNat l ↔ ∀ y ∈ l, x ≤ y := by
  cases l with
  | nil => cases hx
  | cons a l =>
    obtain ⟨h1, h2⟩ := foldl_min_nat l a
    simp only [leastNat, Option.some.injEq]
    constructor
    · rintro rfl; exact h2
    · intro h; exact le_antisymm (h _ h1) (h2 x hx)

theorem decorateTm_of (cells : List TmCell) (nCols nSamples : Nat) (yticks : List ℚ) (c : TmCell) (hc : c ∈ cells)
    (hslot : ∀ a ∈ cells, a.slot = c.slot → a = c) : cells.find? (·.slot = c.slot) = some c := by
  cases h : cells.find? (·.slot = c.slot) with
  | none => exact absurd (by simp) (List.find?_eq_none.1 h c hc)
  | some a => rw [hslot a (List.mem_of_find?_eq_some h) (by simpa using List.find?_some h)]

/-- C125: the amplitude axis is shown exactly for the leftmost module of each row, the time axis exactly for the lowest module of each column, and all
plots show the samples of the waveform. -/
theorem C125_shown (cells : List TmCell) (nCols nSamples : Nat) (yticks : List ℚ) (hnd : (cells.map (·.slot)).Nodup) (c : TmCell) (hc : c ∈ cells) :
    ∃ d, decorateTm cells nCols nSamples yticks c.slot = .ok d ∧ d.xlim = nSamples ∧
      (d.yticks.isSome = true ↔ ∀ a ∈ cells, a.row = c.row → c.col ≤ a.col) ∧
      (d.xticks.isSome = true ↔ ∀ a ∈ cells, a.col = c.col → c.row ≤ a.row) := by
  have hslot : ∀ a ∈ cells, a.slot = c.slot → a = c := fun a ha he => List.inj_on_of_nodup_map hnd ha hc he
  unfold decorateTm
  rw [decorateTm_of cells nCols nSamples yticks c hc hslot]
  refine ⟨_, rfl, rfl, ?_, ?_⟩
  · simp only
    rw [apply_ite Option.isSome]
    simp only [Option.isSome_some, Option.isSome_none]
    rw [ite_eq_left_iff]
    simp only [Bool.false_eq_true, imp_false, not_not]
    rw [leastNat_iff _ _ (List.mem_map.2 ⟨c, List.mem_filter.2 ⟨hc, by simp⟩, rfl⟩)]
    constructor
    · intro h a ha hr; exact h _ (List.mem_map.2 ⟨a, List.mem_filter.2 ⟨ha, by simpa using hr⟩, rfl⟩)
    · intro h y hy
      obtain ⟨a, ha, rfl⟩ := List.mem_map.1 hy
      obtain ⟨h1, h2⟩ := List.mem_filter.1 ha
      exact h a h1 (by simpa using h2)
  · simp only
    rw [apply_ite Option.isSome]
    simp only [Option.isSome_some, Option.isSome_none]
    rw [ite_eq_left_iff]
    simp only [Bool.false_eq_true, imp_false, not_not]
    rw [leastNat_iff _ _ (List.mem_map.2 ⟨c, List.mem_filter.2 ⟨hc, by simp⟩, rfl⟩)]
    constructor
    · intro h a ha hr; exact h _ (List.mem_map.2 ⟨a, List.mem_filter.2 ⟨ha, by simpa using hr⟩, rfl⟩)
    · intro h y hy
      obtain ⟨a, ha, rfl⟩ := List.mem_map.1 hy
      obtain ⟨h1, h2⟩ := List.mem_filter.1 ha
      exact h a h1 (by simpa using h2)

/-- C125: a module that is not in the mapping is refused. -/
theorem C125_unknown (cells : List TmCell) (nCols nSamples : Nat) (yticks : List ℚ) (tm : Nat) (h : ∀ a ∈ cells, a.slot ≠ tm) :
    decorateTm cells nCols nSamples yticks tm = .error .indexError := by
  unfold decorateTm
  rw [List.find?_eq_none.2 (fun a ha => by simpa using h a ha)]

theorem mem_tmTicks (n t : Nat) : t ∈ tmTicks n ↔ t % 32 = 0 ∧ t < n + 32 := by
  unfold tmTicks
  rw [List.mem_map]
  constructor
  · rintro ⟨k, hk, rfl⟩
    rw [List.mem_range] at hk
    omega
  · rintro ⟨h1, h2⟩
    exact ⟨t / 32, List.mem_range.2 (by omega), by omega⟩

theorem tmTicks_shape (k : Nat) : tmTicks (32 * k) = (List.range (k + 1)).map (32 * ·) := by
  unfold tmTicks
  rw [show (32 * k + 63) / 32 = k + 1 by omega]

/-- C125: where two neighbouring plots of a row both show their time axis, the place where they meet is labelled once: either the left one shows its end or
the right one its beginning, never both (waveforms of a multiple of 32 samples). -/
theorem C125_no_overlap (cells : List TmCell) (nCols k : Nat) (hk : 0 < k) (yticks : List ℚ) (a b : TmCell) (hnext : b.col = a.col + 1) (hin : b.col < nCols)
    (da db : TmDecor) (ha : cells.find? (·.slot = a.slot) = some a) (hb : cells.find? (·.slot = b.slot) = some b)
    (hda : decorateTm cells nCols (32 * k) yticks a.slot = .ok da) (hdb : decorateTm cells nCols (32 * k) yticks b.slot = .ok db)
    (xa xb : List Nat) (hxa : da.xticks = some xa) (hxb : db.xticks = some xb) :
    (32 * k ∈ xa ∧ 0 ∉ xb) ∨ (32 * k ∉ xa ∧ 0 ∈ xb) := by
  unfold decorateTm at hda hdb
  rw [ha] at hda
  rw [hb] at hdb
  simp only [Except.ok.injEq] at hda hdb
  rw [← hda] at hxa
  rw [← hdb] at hxb
  simp only at hxa hxb
  have hxa := Option.some.inj ((if_pos (by by_contra hn; rw [if_neg hn] at hxa; cases hxa)).symm.trans hxa)
  have hxb := Option.some.inj ((if_pos (by by_contra hn; rw [if_neg hn] at hxb; cases hxb)).symm.trans hxb)
  have hlast : (List.range (k + 1)).map (32 * ·) = (List.range k).map (32 * ·) ++ [32 * k] := by rw [List.range_succ, List.map_append]; rfl
  have hfirst : ((List.range (k + 1)).map (32 * ·)).drop 1 = (List.range k).map fun i => 32 * (i + 1) := by
    rw [List.range_succ_eq_map, List.map_cons, List.drop_one, List.tail_cons, List.map_map]
    rfl
  rw [tmTicks_shape] at hxa hxb
  rw [if_neg (by omega)] at hxa
  by_cases hend : b.col = nCols - 1
  · left
    rw [if_neg (by omega)] at hxa
    rw [if_pos (by omega)] at hxb
    subst hxa hxb
    refine ⟨by rw [hlast]; simp, ?_⟩
    rw [hfirst]
    simp
  · right
    rw [if_pos (by omega)] at hxa
    rw [if_neg (by omega)] at hxb
    subst hxa
    constructor
    · rw [hlast, List.dropLast_concat]
      simp
    · have hz : 0 ∈ (List.range (k + 1)).map (32 * ·) := by simp
      split at hxb
      · subst hxb
        rw [hlast, List.dropLast_concat]
        exact List.mem_map.2 ⟨0, List.mem_range.2 hk, rfl⟩
      · subst hxb
        exact hz

/-- C125: the vertical lines are at every 32nd sample, which contains all labels of the time axis. -/
theorem C125_time_grid (cells : List TmCell) (nCols nSamples : Nat) (yticks : List ℚ) (tm : Nat) (d : TmDecor)
    (h : decorateTm cells nCols nSamples yticks tm = .ok d) :
    (∀ x, x ∈ d.vlines ↔ ∃ t : Nat, (t : ℚ) = x ∧ t % 32 = 0 ∧ t < nSamples + 32) ∧ ∀ xs, d.xticks = some xs → ∀ t ∈ xs, (t : ℚ) ∈ d.vlines := by
  unfold decorateTm at h
  split at h
  · cases h
  · simp only [Except.ok.injEq] at h
    subst h
    refine ⟨fun x => ?_, fun xs hxs t ht => ?_⟩
    · simp only [List.mem_map, mem_tmTicks]
      constructor
      · rintro ⟨t, h1, h2⟩; exact ⟨t, h2, h1⟩
      · rintro ⟨t, h1, h2⟩; exact ⟨t, h2, h1⟩
    · simp only at hxs ⊢
      split at hxs
      · injection hxs with hxs
        refine List.mem_map.2 ⟨t, ?_, rfl⟩
        split at hxs
        · subst hxs; exact List.mem_of_mem_drop ht
        · split at hxs
          · subst hxs; exact (List.dropLast_sublist _).subset ht
          · subst hxs; exact ht
      · cases hxs

/-- C125 is false: the horizontal lines are not at the labels of the amplitude axis but at the numbers of the time axis, whatever the amplitudes are. -/
theorem C125_false : ∃ cells d, decorateTm cells 1 128 [0, 5, 10, 15] 0 = .ok d ∧ d.yticks = some [0, 5] ∧ (5 : ℚ) ∉ d.hlines ∧ (128 : ℚ) ∈ d.hlines :=
  ⟨[⟨0, 0, 0⟩], _, rfl, by decide +kernel, by decide +kernel, by decide +kernel⟩

/-- C125 (what holds of the horizontal lines instead): they are the numbers of the vertical lines. -/
theorem C125_amplitude_grid_partial (cells : List TmCell) (nCols nSamples : Nat) (yticks : List ℚ) (tm : Nat) (d : TmDecor)
    (h : decorateTm cells nCols nSamples yticks tm = .ok d) : d.hlines = d.vlines := by
  unfold decorateTm at h
  split at h
  · cases h
  · simp only [Except.ok.injEq] at h
    subst h
    rfl

/-- C125: each module has its plot at its place, counted from the top. -/
theorem C125_places (nRows : Nat) (cells : List TmCell) (hnd : (cells.map (·.slot)).Nodup) (hin : ∀ c ∈ cells, c.row < nRows) (c : TmCell) (hc : c ∈ cells) :
    ∃ r, Dict.get? (tmPlaces nRows cells) c.slot = some (r, c.col) ∧ r + c.row + 1 = nRows := by
  have key : ∀ (cells : List TmCell) (d : Dict Nat (Nat × Nat)), (cells.map (·.slot)).Nodup → ∀ k,
      (k ∉ cells.map (·.slot) → Dict.get? (cells.foldl (fun d c => Dict.set d c.slot (nRows - 1 - c.row, c.col)) d) k = Dict.get? d k) ∧
      ∀ c ∈ cells, c.slot = k → Dict.get? (cells.foldl (fun d c => Dict.set d c.slot (nRows - 1 - c.row, c.col)) d) k = some (nRows - 1 - c.row, c.col) := by
    intro cells
    induction cells with
    | nil => intro d _ k; exact ⟨fun _ => rfl, by simp⟩
    | cons x cells ih =>
      intro d hn k
      rw [List.map_cons, List.nodup_cons] at hn
      obtain ⟨h1, h2⟩ := ih (Dict.set d x.slot (nRows - 1 - x.row, x.col)) hn.2 k
      constructor
      · intro hk
        rw [List.map_cons, List.mem_cons, not_or] at hk
        rw [List.foldl_cons, h1 hk.2, Dict.get?_set, if_neg (fun he => hk.1 he.symm)]
      · intro c hc hs
        rcases List.mem_cons.1 hc with rfl | hc
        · rw [List.foldl_cons, h1 (by rw [← hs]; exact hn.1), Dict.get?_set, if_pos hs]
        · rw [List.foldl_cons]; exact h2 c hc hs
  refine ⟨nRows - 1 - c.row, (key cells [] hnd c.slot).2 c hc rfl, ?_⟩
  have := hin c hc
  omega

/-- four modules, one of them missing in the lower left corner -/
def fourCells : List TmCell := [⟨0, 0, 1⟩, ⟨1, 1, 0⟩, ⟨2, 1, 1⟩, ⟨3, 0, 2⟩]

example : (fourCells.map (·.slot)).Nodup ∧ (∀ c ∈ fourCells, c.row < 2) ∧
    (∃ d, decorateTm fourCells 3 128 [0, 5, 10] 0 = .ok d ∧ d.yticks = some [0] ∧ d.xticks = some [0, 32, 64, 96, 128]) ∧
    (∃ d, decorateTm fourCells 3 128 [0, 5, 10] 3 = .ok d ∧ d.yticks = none ∧ d.xticks = some [32, 64, 96, 128]) ∧
    (∃ d, decorateTm fourCells 3 128 [0, 5, 10] 1 = .ok d ∧ d.yticks = some [0, 5, 10] ∧ d.xticks = some [0, 32, 64, 96]) :=
  ⟨by decide, by decide, ⟨_, rfl, by decide +kernel, by decide +kernel⟩, ⟨_, rfl, by decide +kernel, by decide +kernel⟩,
    ⟨_, rfl, by decide +kernel, by decide +kernel⟩⟩

end Verif.Props
