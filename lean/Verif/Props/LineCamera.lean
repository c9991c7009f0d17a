import Verif.Props.RowColumn

/-!
# C89: row and column numbers of cameras of a single column or row, and of a single pixel

Beside `Verif.Props.RowColumn`, whose cameras have at least two rows and two columns.
-/

namespace Verif.Props

open Verif.Py Verif.Model Verif.Lemmas

/-- C89: no pixel at all raises `IndexError`, a single pixel `ValueError`. -/
theorem C89_too_few (p : ℝ × ℝ) : getRowColumn [] = .error .indexError ∧ getRowColumn [p] = .error .valueError := ⟨rfl, rfl⟩

theorem axisBin_flat (x : ℝ) : axisBin x x 1 x = 0 := by
  unfold axisBin
  rw [if_pos rfl]
  norm_num

theorem axisBins_flat (x d : ℝ) (hd : 0 < d) : axisBins x x d = .ok 1 := by
  unfold axisBins
  rw [if_neg hd.ne']
  simp

theorem argmaxNat_one (f : Nat → Nat) : argmaxNat f 1 = 0 := by
  unfold argmaxNat
  rw [if_neg (by simp)]

section Line

variable {n : Nat} {s : Nat → ℝ} {d : ℝ} {lines : List Nat} {pos : Nat → ℝ × ℝ} {bin : ℝ × ℝ → Nat × Nat} {cell : Nat → Nat × Nat}

theorem line_filter (hnd : lines.Nodup) (hbin : ∀ c ∈ lines, bin (pos c) = cell c) (hinj : ∀ a ∈ lines, ∀ b ∈ lines, cell a = cell b → a = b) (c : Nat) (hc : c ∈ lines) :
    (lines.map pos).filter (fun p => decide (bin p = cell c)) = [pos c] := by
  rw [List.filter_map]
  have : lines.filter ((fun p => decide (bin p = cell c)) ∘ pos) = lines.filter (fun e => decide (e = c)) := by
    apply List.filter_congr
    intro e he
    simp only [Function.comp_apply, decide_eq_decide, hbin e he]
    exact ⟨fun h => hinj e he c hc h, fun h => by rw [h]⟩
  rw [this, show (lines.filter fun e => decide (e = c)) = [c] from ?_]
  · rfl
  · rw [show (fun e => decide (e = c)) = (· == c) from rfl, List.filter_beq, List.count_eq_one_of_mem hnd hc]
    rfl

theorem line_empty (hbin : ∀ c ∈ lines, bin (pos c) = cell c) (k : Nat × Nat) (h : ∀ c ∈ lines, cell c ≠ k) : (lines.map pos).filter (fun p => decide (bin p = k)) = [] := by
  rw [List.filter_eq_nil_iff]
  intro p hp
  obtain ⟨c, hc, rfl⟩ := List.mem_map.1 hp
  rw [hbin c hc]
  simpa using h c hc

end Line

/-- distances of the lines from the first -/
theorem line_minimum {n : Nat} {s : Nat → ℝ} {d : ℝ} (h : Axis n s d) (f : Nat → ℝ) (hf : ∀ k, k < n → f k = s k) : minR ((List.range n).map f).tail = .ok (s 1) := by
  have h2 := h.two
  obtain ⟨m, rfl⟩ : ∃ m, n = m + 1 := ⟨n - 1, by omega⟩
  rw [List.range_succ_eq_map, List.map_cons, List.tail_cons, List.map_map]
  apply minR_eq
  · exact List.mem_map.2 ⟨0, List.mem_range.2 (by omega), hf 1 (by omega)⟩
  · intro v hv
    obtain ⟨k, hk, rfl⟩ := List.mem_map.1 hv
    have hk := List.mem_range.1 hk
    simp only [Function.comp_apply, Nat.succ_eq_add_one]
    rw [hf (k + 1) (by omega)]
    exact h.mono 1 (k + 1) (by omega) (by omega)

theorem digitizeAll_one (x m : ℝ) (hm0 : 0 < m) (k : Nat) : digitizeAll (lineEdges [x] m) (List.replicate k x) = .ok (List.replicate k 0) := by
  have := digitizeAll_two x m hm0 (fun _ => 0) (List.replicate k 0) rfl (fun c hc h => absurd (List.eq_of_mem_replicate hc) h)
  simpa using this

/-- C89, a camera of a single column of at least two pixels, in any order: if the column is not at coordinate zero the numbers are right, otherwise `ValueError`. -/
theorem C89_one_column (n : Nat) (s : Nat → ℝ) (d x0 y0 : ℝ) (first : Nat) (rest : List Nat) (hn : 2 ≤ n) (h0 : s 0 = 0) (hd : 0 < d)
    (hgap : ∀ k, k + 1 < n → d ≤ s (k + 1) - s k) (h1 : s 1 < 2 * d) (hrows : ∀ r, r ∈ first :: rest ↔ r < n) (hnd : (first :: rest).Nodup)
    (hnear : ∃ r ∈ rest, |s r - s first| = d) :
    getRowColumn ((first :: rest).map fun r => (x0, y0 + s r)) =
      if x0 = 0 then .error .valueError else .ok ((first :: rest).map fun (r : Nat) => (r : Int), List.replicate (first :: rest).length 0) := by
  classical
  have hA : Axis n s d := ⟨hn, h0, hd, hgap⟩
  obtain ⟨pos, hpos⟩ : ∃ pos : Nat → ℝ × ℝ, pos = fun r => (x0, y0 + s r) := ⟨_, rfl⟩
  rw [← hpos]
  have hdist : ∀ a b, distance2 (pos a) (pos b) = |s a - s b| := by
    intro a b
    rw [hpos]
    unfold distance2
    simp only [add_sub_add_left_eq_sub, sub_self]
    rw [zero_pow (by norm_num), zero_add, Real.sqrt_sq_eq_abs]
  have hmin : minR ((rest.map pos).map fun p => distance2 p (pos first)) = .ok d := by
    apply minR_eq
    · obtain ⟨r, hr, h⟩ := hnear
      simp only [List.mem_map, exists_exists_and_eq_and]
      exact ⟨r, hr, by rw [hdist, h]⟩
    · intro v hv
      simp only [List.mem_map, exists_exists_and_eq_and] at hv
      obtain ⟨r, hr, rfl⟩ := hv
      rw [hdist]
      have hne : r ≠ first := fun e => (List.nodup_cons.1 hnd).1 (e ▸ hr)
      have ha := (hrows r).1 (by simp [hr])
      have hb := (hrows first).1 (by simp)
      rcases Nat.lt_or_gt_of_ne hne with hlt | hgt
      · have := hA.gap_lt r first hlt hb
        rw [abs_sub_comm]
        exact this.trans (le_abs_self _)
      · have := hA.gap_lt first r hgt ha
        exact this.trans (le_abs_self _)
  have hlow : ∀ k, k < n → 0 ≤ s k ∧ s k ≤ s (n - 1) := by
    intro k hk
    have a := hA.mono 0 k (by omega) hk
    rw [h0] at a
    exact ⟨a, hA.mono k (n - 1) (by omega) (by omega)⟩
  have ex : (pos first).1 :: (rest.map pos).map Prod.fst = List.replicate (rest.length + 1) x0 := by
    rw [hpos, List.map_map, List.replicate_succ]
    simp only [Function.comp_def, List.map_const']
  have ey : (pos first).2 :: (rest.map pos).map Prod.snd = (first :: rest).map fun r => y0 + s r := by
    rw [hpos, List.map_map]
    rfl
  have mx0 := foldl_min_eq ((rest.map pos).map Prod.fst) (pos first).1 x0 (by rw [ex]; simp) (fun v hv => by rw [ex] at hv; exact (List.eq_of_mem_replicate hv).ge)
  have mx1 := foldl_max_eq ((rest.map pos).map Prod.fst) (pos first).1 x0 (by rw [ex]; simp) (fun v hv => by rw [ex] at hv; exact (List.eq_of_mem_replicate hv).le)
  have my0 := foldl_min_eq ((rest.map pos).map Prod.snd) (pos first).2 y0 (by
      rw [ey]; exact List.mem_map.2 ⟨0, (hrows 0).2 (by omega), by rw [h0, add_zero]⟩) (fun v hv => by
      rw [ey] at hv
      obtain ⟨r, hr, rfl⟩ := List.mem_map.1 hv
      have := hlow r ((hrows r).1 hr)
      linarith)
  have my1 := foldl_max_eq ((rest.map pos).map Prod.snd) (pos first).2 (y0 + s (n - 1)) (by
      rw [ey]; exact List.mem_map.2 ⟨n - 1, (hrows _).2 (by omega), rfl⟩) (fun v hv => by
      rw [ey] at hv
      obtain ⟨r, hr, rfl⟩ := List.mem_map.1 hv
      have := hlow r ((hrows r).1 hr)
      linarith)
  unfold getRowColumn
  rw [List.map_cons]
  simp only
  rw [hmin]
  simp only
  rw [mx0, mx1, my0, my1, axisBins_flat x0 d hd, axisBins_line hA]
  simp only
  rw [← List.map_cons (f := pos)]
  obtain ⟨bin, hbinDef⟩ : ∃ bin : ℝ × ℝ → Nat × Nat, bin = fun p => (axisBin x0 x0 1 p.1, axisBin y0 (y0 + s (n - 1)) (nBinsOf n s d) p.2) := ⟨_, rfl⟩
  rw [← hbinDef]
  have hbin : ∀ c ∈ first :: rest, bin (pos c) = (0, lineBin n s d c) := by
    intro c hc
    rw [hbinDef, hpos]
    simp only
    rw [axisBin_flat, axisBin_line hA y0 c ((hrows c).1 hc)]
  have hinj : ∀ a ∈ first :: rest, ∀ b ∈ first :: rest, ((0, lineBin n s d a) : Nat × Nat) = (0, lineBin n s d b) → a = b :=
    fun a ha b hb h => lineBin_inj hA a b ((hrows a).1 ha) ((hrows b).1 hb) (Prod.mk.inj h).2
  have hcell : ∀ (w : ℝ × ℝ → ℝ) c, c < n → histCell bin w ((first :: rest).map pos) 0 (lineBin n s d c) = w (pos c) := by
    intro w c hc
    unfold histCell
    rw [line_filter (cell := fun c => (0, lineBin n s d c)) hnd hbin hinj c ((hrows c).2 hc)]
    simp
  have hb0 : lineBin n s d 0 = 0 := lineBin_zero hA
  have hfull : ∀ (w : ℝ × ℝ → ℝ) c, c < n → w (pos c) ≠ 0 → fullest (histCell bin w ((first :: rest).map pos)) 1 (nBinsOf n s d) = .ok 0 := by
    intro w c hc hw
    unfold fullest
    simp only
    rw [if_neg, argmaxNat_one]
    simp only [show List.range 1 = [0] from rfl, List.all_cons, List.all_nil, Bool.and_true, decide_eq_true_eq]
    intro h
    rw [List.length_eq_zero_iff, List.filter_eq_nil_iff] at h
    have := h (lineBin n s d c) (List.mem_range.2 (lineBin_lt hA c hc))
    rw [hcell w c hc] at this
    simp [hw] at this
  by_cases hx : x0 = 0
  · rw [if_pos hx]
    have : fullest (histCell bin Prod.fst ((first :: rest).map pos)) 1 (nBinsOf n s d) = .error .valueError := by
      unfold fullest
      simp only
      rw [if_pos]
      simp only [show List.range 1 = [0] from rfl, List.all_cons, List.all_nil, Bool.and_true, decide_eq_true_eq]
      rw [List.length_eq_zero_iff, List.filter_eq_nil_iff]
      intro j _
      have : histCell bin Prod.fst ((first :: rest).map pos) 0 j = 0 := by
        unfold histCell
        apply List.sum_eq_zero
        intro v hv
        obtain ⟨p, hp, rfl⟩ := List.mem_map.1 hv
        obtain ⟨c, -, rfl⟩ := List.mem_map.1 (List.mem_filter.1 hp).1
        rw [hpos]
        exact hx
      rw [this]
      simp
    unfold fullLines
    rw [this]
  · rw [if_neg hx]
    obtain ⟨c, hc, hyc⟩ : ∃ c, c < n ∧ y0 + s c ≠ 0 := by
      by_contra hno
      push Not at hno
      have a := hno 0 (by omega)
      have b := hno 1 (by omega)
      have := hgap 0 (by omega)
      norm_num at this
      linarith
    have hlines : fullLines bin 1 (nBinsOf n s d) ((first :: rest).map pos) = .ok ([x0], (List.range n).map fun r => y0 + s r) := by
      unfold fullLines
      rw [hfull Prod.fst 0 (by omega) (by rw [hpos]; exact hx), hfull Prod.snd c hc (by rw [hpos]; exact hyc)]
      simp only
      rw [if_neg (by unfold nBinsOf; omega)]
      have e1 : histCell bin Prod.fst ((first :: rest).map pos) 0 0 = x0 := by
        have := hcell Prod.fst 0 (by omega)
        rw [hb0] at this
        rw [this, hpos]
      have hcount : ∀ j, histCount bin ((first :: rest).map pos) 0 j ≠ 0 ↔ ∃ k, k < n ∧ (true : Bool) = true ∧ lineBin n s d k = j := by
        intro j
        unfold histCount
        constructor
        · intro h
          by_contra hno
          push Not at hno
          refine h ?_
          rw [line_empty (cell := fun c => (0, lineBin n s d c)) hbin (0, j) fun c hc he => hno c ((hrows c).1 hc) rfl (Prod.mk.inj he).2]
          rfl
        · rintro ⟨k, hk, -, rfl⟩
          rw [line_filter (cell := fun c => (0, lineBin n s d c)) hnd hbin hinj k ((hrows k).2 hk)]
          simp
      have e2 : (List.range 1).filter (fun i => decide (histCount bin ((first :: rest).map pos) i 0 ≠ 0)) = [0] := by
        rw [show List.range 1 = [0] from rfl, List.filter_cons, if_pos (by
          simpa using (hcount 0).2 ⟨0, by omega, rfl, hb0⟩), List.filter_nil]
      have e3 : (List.range (nBinsOf n s d)).filter (fun j => decide (histCount bin ((first :: rest).map pos) 0 j ≠ 0)) = (List.range n).map (lineBin n s d) := by
        rw [filter_lineBin hA _ (fun _ => true) fun i => by rw [decide_eq_true_eq]; exact hcount i]
        simp
      rw [e2, e3, List.map_map, List.map_cons, List.map_nil, e1]
      congr 2
      refine List.map_congr_left fun r hr => ?_
      simp only [Function.comp_apply]
      rw [hcell Prod.snd r (List.mem_range.1 hr), hpos]
    rw [hlines]
    simp only
    have hs1 : d ≤ s 1 := by have := hgap 0 (by omega); rw [h0, sub_zero] at this; exact this
    have hm0 : 0 < s 1 / 2 := by linarith
    have hds : lineDistances [x0] ((List.range n).map fun r => y0 + s r) = .ok ((List.range n).map fun r => distance2 (x0, y0 + s r) (x0, y0)) := by
      obtain ⟨b, rfl⟩ : ∃ b, n = b + 2 := ⟨n - 2, by omega⟩
      rw [List.range_succ_eq_map]
      simp only [List.map_cons, lineDistances, List.length_map, List.length_range, List.map_map, List.length_nil, h0, add_zero]
      rw [if_neg (by omega)]
      rfl
    unfold placePixels
    rw [hds]
    simp only
    rw [line_minimum hA _ fun k hk => distance2_vertical x0 y0 (s k) (hlow k hk).1]
    simp only
    have efst : ((first :: rest).map pos).map Prod.fst = List.replicate (first :: rest).length x0 := by
      rw [List.map_cons, List.map_cons, ex]
      rfl
    have esnd : ((first :: rest).map pos).map Prod.snd = (first :: rest).map fun r => y0 + s r := by
      rw [List.map_cons, List.map_cons, ey]
    rw [efst, esnd, digitizeAll_one x0 _ hm0, digitizeAll_lines hA y0 _ hm0 (by linarith) (first :: rest) fun c hc => (hrows c).1 hc]

theorem distance2_horizontal (x y a : ℝ) (ha : 0 ≤ a) : distance2 (x + a, y) (x, y) = a := by
  unfold distance2
  simp only [add_sub_cancel_left, sub_self]
  rw [zero_pow (by norm_num), add_zero, Real.sqrt_sq ha]

/-- C89, a camera of a single row of at least two pixels, in any order: if neither the row nor its first pixel is at coordinate zero the numbers are right. If
the row is at coordinate zero it is `ValueError`, and otherwise, if the first pixel of the row is at coordinate zero, `IndexError`. -/
theorem C89_one_row (n : Nat) (s : Nat → ℝ) (d x0 y0 : ℝ) (first : Nat) (rest : List Nat) (hn : 2 ≤ n) (h0 : s 0 = 0) (hd : 0 < d)
    (hgap : ∀ k, k + 1 < n → d ≤ s (k + 1) - s k) (h1 : s 1 < 2 * d) (hcols : ∀ c, c ∈ first :: rest ↔ c < n) (hnd : (first :: rest).Nodup)
    (hnear : ∃ c ∈ rest, |s c - s first| = d) :
    getRowColumn ((first :: rest).map fun c => (x0 + s c, y0)) =
      if y0 = 0 then .error .valueError else if x0 = 0 then .error .indexError
      else .ok (List.replicate (first :: rest).length 0, (first :: rest).map fun (c : Nat) => (c : Int)) := by
  classical
  have hA : Axis n s d := ⟨hn, h0, hd, hgap⟩
  obtain ⟨pos, hpos⟩ : ∃ pos : Nat → ℝ × ℝ, pos = fun c => (x0 + s c, y0) := ⟨_, rfl⟩
  rw [← hpos]
  have hdist : ∀ a b, distance2 (pos a) (pos b) = |s a - s b| := by
    intro a b
    rw [hpos]
    unfold distance2
    simp only [add_sub_add_left_eq_sub, sub_self]
    rw [zero_pow (by norm_num), add_zero, Real.sqrt_sq_eq_abs]
  have hmin : minR ((rest.map pos).map fun p => distance2 p (pos first)) = .ok d := by
    apply minR_eq
    · obtain ⟨r, hr, h⟩ := hnear
      simp only [List.mem_map, exists_exists_and_eq_and]
      exact ⟨r, hr, by rw [hdist, h]⟩
    · intro v hv
      simp only [List.mem_map, exists_exists_and_eq_and] at hv
      obtain ⟨r, hr, rfl⟩ := hv
      rw [hdist]
      have hne : r ≠ first := fun e => (List.nodup_cons.1 hnd).1 (e ▸ hr)
      have ha := (hcols r).1 (by simp [hr])
      have hb := (hcols first).1 (by simp)
      rcases Nat.lt_or_gt_of_ne hne with hlt | hgt
      · have := hA.gap_lt r first hlt hb
        rw [abs_sub_comm]
        exact this.trans (le_abs_self _)
      · have := hA.gap_lt first r hgt ha
        exact this.trans (le_abs_self _)
  have hlow : ∀ k, k < n → 0 ≤ s k ∧ s k ≤ s (n - 1) := by
    intro k hk
    have a := hA.mono 0 k (by omega) hk
    rw [h0] at a
    exact ⟨a, hA.mono k (n - 1) (by omega) (by omega)⟩
  have ey : (pos first).2 :: (rest.map pos).map Prod.snd = List.replicate (rest.length + 1) y0 := by
    rw [hpos, List.map_map, List.replicate_succ]
    simp only [Function.comp_def, List.map_const']
  have ex : (pos first).1 :: (rest.map pos).map Prod.fst = (first :: rest).map fun r => x0 + s r := by
    rw [hpos, List.map_map]
    rfl
  have my0 := foldl_min_eq ((rest.map pos).map Prod.snd) (pos first).2 y0 (by rw [ey]; simp) (fun v hv => by rw [ey] at hv; exact (List.eq_of_mem_replicate hv).ge)
  have my1 := foldl_max_eq ((rest.map pos).map Prod.snd) (pos first).2 y0 (by rw [ey]; simp) (fun v hv => by rw [ey] at hv; exact (List.eq_of_mem_replicate hv).le)
  have mx0 := foldl_min_eq ((rest.map pos).map Prod.fst) (pos first).1 x0 (by
      rw [ex]; exact List.mem_map.2 ⟨0, (hcols 0).2 (by omega), by rw [h0, add_zero]⟩) (fun v hv => by
      rw [ex] at hv
      obtain ⟨r, hr, rfl⟩ := List.mem_map.1 hv
      have := hlow r ((hcols r).1 hr)
      linarith)
  have mx1 := foldl_max_eq ((rest.map pos).map Prod.fst) (pos first).1 (x0 + s (n - 1)) (by
      rw [ex]; exact List.mem_map.2 ⟨n - 1, (hcols _).2 (by omega), rfl⟩) (fun v hv => by
      rw [ex] at hv
      obtain ⟨r, hr, rfl⟩ := List.mem_map.1 hv
      have := hlow r ((hcols r).1 hr)
      linarith)
  unfold getRowColumn
  rw [List.map_cons]
  simp only
  rw [hmin]
  simp only
  rw [mx0, mx1, my0, my1, axisBins_flat y0 d hd, axisBins_line hA]
  simp only
  rw [← List.map_cons (f := pos)]
  obtain ⟨bin, hbinDef⟩ : ∃ bin : ℝ × ℝ → Nat × Nat, bin = fun p => (axisBin x0 (x0 + s (n - 1)) (nBinsOf n s d) p.1, axisBin y0 y0 1 p.2) := ⟨_, rfl⟩
  rw [← hbinDef]
  have hbin : ∀ c ∈ first :: rest, bin (pos c) = (lineBin n s d c, 0) := by
    intro c hc
    rw [hbinDef, hpos]
    simp only
    rw [axisBin_flat, axisBin_line hA x0 c ((hcols c).1 hc)]
  have hinj : ∀ a ∈ first :: rest, ∀ b ∈ first :: rest, ((lineBin n s d a, 0) : Nat × Nat) = (lineBin n s d b, 0) → a = b :=
    fun a ha b hb h => lineBin_inj hA a b ((hcols a).1 ha) ((hcols b).1 hb) (Prod.mk.inj h).1
  have hcell : ∀ (w : ℝ × ℝ → ℝ) c, c < n → histCell bin w ((first :: rest).map pos) (lineBin n s d c) 0 = w (pos c) := by
    intro w c hc
    unfold histCell
    rw [line_filter (cell := fun c => (lineBin n s d c, 0)) hnd hbin hinj c ((hcols c).2 hc)]
    simp
  have hb0 : lineBin n s d 0 = 0 := lineBin_zero hA
  have hN : 0 < nBinsOf n s d := by unfold nBinsOf; omega
  -- the first line whose coordinate is not zero
  have hfull : ∀ (w : ℝ × ℝ → ℝ) c, c < n → w (pos c) ≠ 0 → (∀ k, k < c → w (pos k) = 0) →
      ∃ k, fullest (histCell bin w ((first :: rest).map pos)) (nBinsOf n s d) 1 = .ok k ∧ (c = 0 → k = 0) ∧ (0 < c → 0 < k) := by
    intro w c hc hw hbefore
    obtain ⟨count, hcount⟩ : ∃ count : Nat → Nat, count = fun i => ((List.range 1).filter fun j => decide (histCell bin w ((first :: rest).map pos) i j ≠ 0)).length := ⟨_, rfl⟩
    have hle : ∀ i, count i ≤ 1 := by
      intro i
      rw [hcount]
      refine (List.length_filter_le _ _).trans (by simp)
    have hone : count (lineBin n s d c) = 1 := by
      rw [hcount]
      simp only [show List.range 1 = [0] from rfl, List.filter_cons, List.filter_nil]
      rw [hcell w c hc, if_pos (by simpa using hw)]
      rfl
    refine ⟨argmaxNat count (nBinsOf n s d), ?_, ?_, ?_⟩
    · unfold fullest
      simp only
      rw [if_neg, hcount]
      rw [List.all_eq_true]
      intro h
      have := h (lineBin n s d c) (List.mem_range.2 (lineBin_lt hA c hc))
      rw [decide_eq_true_eq] at this
      rw [hcount] at hone
      simp only at hone
      omega
    · rintro rfl
      obtain ⟨-, h2, h3⟩ := argmaxNat_spec count (nBinsOf n s d) hN
      by_contra hne
      have := h3 0 (by omega)
      rw [hb0] at hone
      have := hle (argmaxNat count (nBinsOf n s d))
      omega
    · intro hc0
      obtain ⟨-, h2, -⟩ := argmaxNat_spec count (nBinsOf n s d) hN
      rcases Nat.eq_zero_or_pos (argmaxNat count (nBinsOf n s d)) with h | h
      · exfalso
        have := h2 _ (lineBin_lt hA c hc)
        rw [hone, h] at this
        have hz : count 0 = 0 := by
          rw [hcount]
          simp only [show List.range 1 = [0] from rfl, List.filter_cons, List.filter_nil]
          have := hcell w 0 (by omega)
          rw [hb0, hbefore 0 hc0] at this
          rw [this]
          simp
        omega
      · exact h
  obtain ⟨c, hc, hxc, hbefore, hc0⟩ : ∃ c, c < n ∧ x0 + s c ≠ 0 ∧ (∀ k, k < c → x0 + s k = 0) ∧ (x0 = 0 ↔ 0 < c) := by
    by_cases hx : x0 = 0
    · refine ⟨1, by omega, ?_, fun k hk => ?_, by simp [hx]⟩
      · have := hgap 0 (by omega)
        rw [h0, zero_add, sub_zero] at this
        rw [hx, zero_add]
        linarith
      · obtain rfl : k = 0 := by omega
        rw [hx, h0, zero_add]
    · exact ⟨0, by omega, by rwa [h0, add_zero], fun k hk => by omega, by simp [hx]⟩
  obtain ⟨k, hk, hk0, hkpos⟩ := hfull Prod.fst c hc (by rw [hpos]; exact hxc) (fun j hj => by rw [hpos]; exact hbefore j hj)
  by_cases hy : y0 = 0
  · rw [if_pos hy]
    have : fullest (histCell bin Prod.snd ((first :: rest).map pos)) (nBinsOf n s d) 1 = .error .valueError := by
      unfold fullest
      simp only
      rw [if_pos]
      rw [List.all_eq_true]
      intro i _
      rw [decide_eq_true_eq, List.length_eq_zero_iff, List.filter_eq_nil_iff]
      intro j _
      have : histCell bin Prod.snd ((first :: rest).map pos) i j = 0 := by
        unfold histCell
        apply List.sum_eq_zero
        intro v hv
        obtain ⟨p, hp, rfl⟩ := List.mem_map.1 hv
        obtain ⟨c, -, rfl⟩ := List.mem_map.1 (List.mem_filter.1 hp).1
        rw [hpos]
        exact hy
      rw [this]
      simp
    unfold fullLines
    rw [hk]
    simp only
    rw [this]
  rw [if_neg hy]
  obtain ⟨l, hl, hl0, -⟩ := hfull Prod.snd 0 (by omega) (by rw [hpos]; exact hy) (fun j hj => by omega)
  have hl0 := hl0 rfl
  subst hl0
  by_cases hx : x0 = 0
  · rw [if_pos hx]
    unfold fullLines
    rw [hk]
    simp only
    rw [hl]
    simp only
    rw [if_pos (by have := hkpos (hc0.1 hx); omega)]
  · rw [if_neg hx]
    have hk0 := hk0 (by by_contra h; exact hx (hc0.2 (by omega)))
    subst hk0
    have hlines : fullLines bin (nBinsOf n s d) 1 ((first :: rest).map pos) = .ok ((List.range n).map fun c => x0 + s c, [y0]) := by
      unfold fullLines
      rw [hk]
      simp only
      rw [hl]
      simp only
      rw [if_neg (by omega)]
      have e1 : histCell bin Prod.snd ((first :: rest).map pos) 0 0 = y0 := by
        have := hcell Prod.snd 0 (by omega)
        rw [hb0] at this
        rw [this, hpos]
      have hcount : ∀ i, histCount bin ((first :: rest).map pos) i 0 ≠ 0 ↔ ∃ k, k < n ∧ (true : Bool) = true ∧ lineBin n s d k = i := by
        intro j
        unfold histCount
        constructor
        · intro h
          by_contra hno
          push Not at hno
          refine h ?_
          rw [line_empty (cell := fun c => (lineBin n s d c, 0)) hbin (j, 0) fun c hc he => hno c ((hcols c).1 hc) rfl (Prod.mk.inj he).1]
          rfl
        · rintro ⟨k, hk, -, rfl⟩
          rw [line_filter (cell := fun c => (lineBin n s d c, 0)) hnd hbin hinj k ((hcols k).2 hk)]
          simp
      have e2 : (List.range 1).filter (fun j => decide (histCount bin ((first :: rest).map pos) 0 j ≠ 0)) = [0] := by
        rw [show List.range 1 = [0] from rfl, List.filter_cons, if_pos (by
          simpa using (hcount 0).2 ⟨0, by omega, rfl, hb0⟩), List.filter_nil]
      have e3 : (List.range (nBinsOf n s d)).filter (fun i => decide (histCount bin ((first :: rest).map pos) i 0 ≠ 0)) = (List.range n).map (lineBin n s d) := by
        rw [filter_lineBin hA _ (fun _ => true) fun i => by rw [decide_eq_true_eq]; exact hcount i]
        simp
      rw [e2, e3, List.map_map, show [0].map (fun j => histCell bin Prod.snd ((first :: rest).map pos) 0 j) = [y0] by rw [List.map_singleton, e1]]
      congr 2
      refine List.map_congr_left fun r hr => ?_
      simp only [Function.comp_apply]
      rw [hcell Prod.fst r (List.mem_range.1 hr), hpos]
    rw [hlines]
    simp only
    have hs1 : d ≤ s 1 := by have := hgap 0 (by omega); rw [h0, sub_zero] at this; exact this
    have hm0 : 0 < s 1 / 2 := by linarith
    have hds : lineDistances ((List.range n).map fun r => x0 + s r) [y0] = .ok ((List.range n).map fun r => distance2 (x0 + s r, y0) (x0, y0)) := by
      obtain ⟨b, rfl⟩ : ∃ b, n = b + 2 := ⟨n - 2, by omega⟩
      rw [List.range_succ_eq_map]
      simp only [List.map_cons, lineDistances, List.length_map, List.length_range, List.map_map, List.length_nil, h0, add_zero]
      rw [if_neg (by omega), if_neg (by simp)]
      rfl
    unfold placePixels
    rw [hds]
    simp only
    rw [line_minimum hA _ fun k hk => distance2_horizontal x0 y0 (s k) (hlow k hk).1]
    simp only
    have esnd : ((first :: rest).map pos).map Prod.snd = List.replicate (first :: rest).length y0 := by
      rw [List.map_cons, List.map_cons, ey]
      rfl
    have efst : ((first :: rest).map pos).map Prod.fst = (first :: rest).map fun r => x0 + s r := by
      rw [List.map_cons, List.map_cons, ex]
    rw [efst, esnd, digitizeAll_one y0 _ hm0, digitizeAll_lines hA x0 _ hm0 (by linarith) (first :: rest) fun c hc => (hcols c).1 hc]

/-- three pixels beside one another, the first of them at coordinate zero -/
example : getRowColumn (([1, 0, 2] : List Nat).map fun c => ((0 : ℝ) + (c : ℝ), (3 : ℝ))) = .error .indexError ∧
    getRowColumn (([1, 0, 2] : List Nat).map fun c => ((5 : ℝ) + (c : ℝ), (3 : ℝ))) = .ok ([0, 0, 0], [1, 0, 2]) := by
  have h := fun x0 => C89_one_row 3 (fun k => (k : ℝ)) 1 x0 3 1 [0, 2] (by norm_num) (by norm_num) (by norm_num) (fun k _ => by push_cast; linarith) (by norm_num)
    (fun r => by simp; omega) (by decide) ⟨0, by simp, by norm_num⟩
  constructor
  · have := h 0
    rw [if_neg (by norm_num), if_pos rfl] at this
    exact this
  · have := h 5
    rw [if_neg (by norm_num), if_neg (by norm_num)] at this
    exact this

/-- three pixels above one another -/
example : getRowColumn (([1, 0, 2] : List Nat).map fun r => ((3 : ℝ), (-1 : ℝ) + (r : ℝ))) = .ok ([1, 0, 2], [0, 0, 0]) := by
  have := C89_one_column 3 (fun k => (k : ℝ)) 1 3 (-1) 1 [0, 2] (by norm_num) (by norm_num) (by norm_num) (fun k _ => by push_cast; linarith) (by norm_num)
    (fun r => by simp; omega) (by decide) ⟨0, by simp, by norm_num⟩
  rw [if_neg (by norm_num)] at this
  exact this

end Verif.Props
