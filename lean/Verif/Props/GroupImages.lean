import Verif.Model.GroupImages
import Verif.Props.Camera
import Mathlib.Tactic.Linarith
import Mathlib.Tactic.FieldSimp
import Mathlib.Data.Rat.Floor

/-!
# Images of superpixels and of modules (C180)
-/

namespace Verif.Props

open Verif.Py Verif.Model

/-! ## specification -/

/-- the centres of a square block of `n * n` pixels, `p` apart, first pixel at `(x0, y0)` -/
def blockPoints (n : Nat) (x0 y0 p : ℚ) : List (ℚ × ℚ) :=
  (List.range n).flatMap fun i : Nat => (List.range n).map fun j : Nat => (x0 + i * p, y0 + j * p)

/-- the point is on the square (lower left corner, width) -/
def OnSquare (q : (ℚ × ℚ) × ℚ) (x y : ℚ) : Prop := q.1.1 ≤ x ∧ x ≤ q.1.1 + q.2 ∧ q.1.2 ≤ y ∧ y ≤ q.1.2 + q.2

/-- a camera whose groups of pixels are square blocks: pixels of side `s`, `p` apart in a block, pixels of different blocks do not overlap -/
structure BlockCamera (n : Nat) (group : MapRow → Int) (rows : List MapRow) (s p : ℚ) : Prop where
  side : 1 / 10000 < s
  pitch : s ≤ p
  gaps : p < 2 * s ∧ (n - 1) * p ≤ n * s
  block : ∀ r ∈ rows, ∃ x0 y0, ((rows.filter fun a => group a = group r).map fun a => (a.xpix, a.ypix)).Perm (blockPoints n x0 y0 p)
  apart : ∀ a ∈ rows, ∀ b ∈ rows, group a ≠ group b → s ≤ |a.xpix - b.xpix| ∨ s ≤ |a.ypix - b.ypix|

/-- the groups of pixels are the cells of the grid with cells of `n * n` positions, counted from zero -/
structure BlockGrid (n : Nat) (group : MapRow → Int) (rows : List MapRow) : Prop where
  nonneg : ∀ r ∈ rows, 0 ≤ r.row ∧ 0 ≤ r.col
  cells : ∀ a ∈ rows, ∀ b ∈ rows, group a = group b ↔ a.row / n = b.row / n ∧ a.col / n = b.col / n

/-! ## lemmas -/

theorem sum_arith (n : Nat) (a p : ℚ) : ((List.range n).map fun i : Nat => a + i * p).sum = n * a + p * (n * (n - 1) / 2) := by
  induction n with
  | zero => simp
  | succ n ih => rw [List.range_succ, List.map_append, List.sum_append, ih]; push_cast; simp; ring

theorem sum_flat_fst (n k : Nat) (x0 y0 p : ℚ) :
    (((List.range k).flatMap fun i : Nat => (List.range n).map fun j : Nat => ((x0 + i * p, y0 + j * p) : ℚ × ℚ)).map (·.1)).sum
      = n * ((List.range k).map fun i : Nat => x0 + i * p).sum := by
  induction k with
  | zero => simp
  | succ k ih =>
    rw [List.range_succ, List.flatMap_append, List.map_append, List.sum_append, ih, List.map_append, List.sum_append]
    simp [Function.comp_def, List.map_const', List.sum_replicate]
    ring

theorem sum_flat_snd (n k : Nat) (x0 y0 p : ℚ) :
    (((List.range k).flatMap fun i : Nat => (List.range n).map fun j : Nat => ((x0 + i * p, y0 + j * p) : ℚ × ℚ)).map (·.2)).sum
      = k * ((List.range n).map fun j : Nat => y0 + j * p).sum := by
  induction k with
  | zero => simp
  | succ k ih =>
    rw [List.range_succ, List.flatMap_append, List.map_append, List.sum_append, ih]
    simp [Function.comp_def]
    ring

theorem blockPoints_length (n : Nat) (x0 y0 p : ℚ) : (blockPoints n x0 y0 p).length = n * n := by
  unfold blockPoints
  rw [List.length_flatMap]
  simp

theorem block_mean (n : Nat) (hn : 0 < n) (x0 y0 p : ℚ) (l : List (ℚ × ℚ)) (h : l.Perm (blockPoints n x0 y0 p)) :
    mean (l.map (·.1)) = x0 + (n - 1) * p / 2 ∧ mean (l.map (·.2)) = y0 + (n - 1) * p / 2 := by
  have hn' : (n : ℚ) ≠ 0 := by exact_mod_cast hn.ne'
  have hl : l.length = n * n := by rw [h.length_eq, blockPoints_length]
  constructor
  · unfold mean
    rw [(h.map _).sum_eq, List.length_map, hl, blockPoints, sum_flat_fst, sum_arith]
    push_cast
    field_simp
  · unfold mean
    rw [(h.map _).sum_eq, List.length_map, hl, blockPoints, sum_flat_snd, sum_arith]
    push_cast
    field_simp

theorem mem_blockPoints (n : Nat) (x0 y0 p x y : ℚ) :
    (x, y) ∈ blockPoints n x0 y0 p ↔ ∃ i j : Nat, i < n ∧ j < n ∧ x = x0 + i * p ∧ y = y0 + j * p := by
  unfold blockPoints
  simp only [List.mem_flatMap, List.mem_map, List.mem_range, Prod.mk.injEq]
  constructor
  · rintro ⟨i, hi, j, hj, rfl, rfl⟩; exact ⟨i, j, hi, hj, rfl, rfl⟩
  · rintro ⟨i, j, hi, hj, rfl, rfl⟩; exact ⟨i, hi, j, hj, rfl, rfl⟩

/-- along one direction: a coordinate on the square of the block is nearer than a pixel side to one of the block's pixels -/
theorem near_pixel (n : Nat) (hn : 0 < n) (x0 s p x : ℚ) (hs : 1 / 10000 < s) (hp : s ≤ p) (hg : p < 2 * s)
    (h1 : x0 + (n - 1) * p / 2 - (n * s + 1 / 10000) / 2 ≤ x) (h2 : x ≤ x0 + (n - 1) * p / 2 + (n * s + 1 / 10000) / 2) :
    ∃ i : Nat, i < n ∧ |x - (x0 + i * p)| < s := by
  have hn1 : (1 : ℚ) ≤ n := by exact_mod_cast hn
  have hmono : (n - 1 : ℚ) * s ≤ (n - 1) * p := mul_le_mul_of_nonneg_left hp (by linarith)
  by_cases hlo : x < x0
  · refine ⟨0, hn, ?_⟩
    rw [abs_lt]
    push_cast
    constructor <;> nlinarith
  by_cases hhi : x0 + (n - 1) * p < x
  · refine ⟨n - 1, by omega, ?_⟩
    rw [abs_lt, Nat.cast_sub (by omega)]
    push_cast
    constructor <;> nlinarith
  push Not at hlo hhi
  -- the nearest pixel
  have hp0 : 0 < p := by linarith
  obtain ⟨k, hk⟩ : ∃ k : ℤ, k = round ((x - x0) / p) := ⟨_, rfl⟩
  have hround : |(x - x0) / p - k| ≤ 1 / 2 := by rw [hk]; exact abs_sub_round _
  have hq0 : 0 ≤ (x - x0) / p := div_nonneg (by linarith) hp0.le
  have hq1 : (x - x0) / p ≤ n - 1 := by rw [div_le_iff₀ hp0]; linarith
  rw [abs_le] at hround
  have hk0 : (-1 : ℤ) < k := by
    have : (-1 : ℚ) < k := by linarith
    exact_mod_cast this
  have hk1 : k < (n : ℤ) := by
    have : (k : ℚ) < n := by linarith
    exact_mod_cast this
  refine ⟨k.toNat, by omega, ?_⟩
  have hcast : ((k.toNat : ℕ) : ℚ) = (k : ℚ) := by
    have : ((k.toNat : ℕ) : ℤ) = k := Int.toNat_of_nonneg (by omega)
    exact_mod_cast this
  rw [hcast]
  have hx : x - (x0 + k * p) = ((x - x0) / p - k) * p := by field_simp; ring
  rw [hx, abs_mul, abs_of_pos hp0]
  have : |(x - x0) / p - k| ≤ 1 / 2 := abs_le.2 hround
  nlinarith

/-- the square drawn at the mean position of a group is on the centres of the pixels of the group and of no others -/
theorem square_of_group (n : Nat) (hn : 0 < n) (group : MapRow → Int) (rows : List MapRow) (s p : ℚ) (hc : BlockCamera n group rows s p)
    (r : MapRow) (hr : r ∈ rows) (q : (ℚ × ℚ) × ℚ) (hw : q.2 = n * s + 1 / 10000)
    (hx : q.1.1 + q.2 / 2 = mean ((rows.filter fun a => group a = group r).map (·.xpix)))
    (hy : q.1.2 + q.2 / 2 = mean ((rows.filter fun a => group a = group r).map (·.ypix))) (b : MapRow) (hb : b ∈ rows) :
    OnSquare q b.xpix b.ypix ↔ group b = group r := by
  obtain ⟨x0, y0, hperm⟩ := hc.block r hr
  obtain ⟨mx, my⟩ := block_mean n hn x0 y0 p _ hperm
  rw [List.map_map] at mx my
  have ex : q.1.1 + q.2 / 2 = x0 + (n - 1) * p / 2 := by rw [hx, ← mx]; rfl
  have ey : q.1.2 + q.2 / 2 = y0 + (n - 1) * p / 2 := by rw [hy, ← my]; rfl
  have hp0 : 0 < p := lt_of_lt_of_le (lt_trans (by norm_num) hc.side) hc.pitch
  constructor
  · rintro ⟨a1, a2, a3, a4⟩
    by_contra hne
    obtain ⟨i, hi, hxi⟩ := near_pixel n hn x0 s p b.xpix hc.side hc.pitch hc.gaps.1 (by rw [hw] at *; linarith) (by rw [hw] at *; linarith)
    obtain ⟨j, hj, hyj⟩ := near_pixel n hn y0 s p b.ypix hc.side hc.pitch hc.gaps.1 (by rw [hw] at *; linarith) (by rw [hw] at *; linarith)
    have hmem : (x0 + i * p, y0 + j * p) ∈ blockPoints n x0 y0 p := (mem_blockPoints ..).2 ⟨i, j, hi, hj, rfl, rfl⟩
    obtain ⟨a, ha, hpos⟩ := List.mem_map.1 (hperm.symm.subset hmem)
    rw [List.mem_filter] at ha
    have hga : group a = group r := by simpa using ha.2
    rw [Prod.mk.injEq] at hpos
    rcases hc.apart b hb a ha.1 (by rw [hga]; exact hne) with h | h
    · rw [hpos.1] at h; linarith
    · rw [hpos.2] at h; linarith
  · intro hg
    have hmem : (b.xpix, b.ypix) ∈ blockPoints n x0 y0 p :=
      hperm.subset (List.mem_map.2 ⟨b, List.mem_filter.2 ⟨hb, by simpa using hg⟩, rfl⟩)
    obtain ⟨i, j, hi, hj, e1, e2⟩ := (mem_blockPoints ..).1 hmem
    have bound : ∀ k : Nat, k < n → 0 ≤ (k : ℚ) * p ∧ (k : ℚ) * p ≤ (n - 1) * p := by
      intro k hk
      refine ⟨by positivity, mul_le_mul_of_nonneg_right ?_ hp0.le⟩
      have : (k : ℚ) + 1 ≤ n := by exact_mod_cast hk
      linarith
    obtain ⟨i1, i2⟩ := bound i hi
    obtain ⟨j1, j2⟩ := bound j hj
    have := hc.gaps.2
    unfold OnSquare
    rw [e1, e2]
    refine ⟨?_, ?_, ?_, ?_⟩ <;> rw [hw] at * <;> linarith

/-- the patches of a table with one row per group -/
theorem group_patches {ρ : Type} (n : Nat) (hn : 0 < n) (group : MapRow → Int) (rows : List MapRow) (s p : ℚ) (hc : BlockCamera n group rows s p)
    (out : List ρ) (key : ρ → Int) (x y : ρ → ℚ) (hkey : ∀ g, g ∈ out.map key ↔ ∃ r ∈ rows, group r = g)
    (hx : ∀ o ∈ out, x o = mean ((rows.filter fun r => group r = key o).map (·.xpix)))
    (hy : ∀ o ∈ out, y o = mean ((rows.filter fun r => group r = key o).map (·.ypix))) :
    ∃ im, PatchImage.init (out.map x) (out.map y) (n * s) = .ok im ∧ im.patches.length = (out.map key).length ∧
      (∀ (i : Nat) (q : (ℚ × ℚ) × ℚ) (g : Int), im.patches[i]? = some q → (out.map key)[i]? = some g →
        ∀ b ∈ rows, OnSquare q b.xpix b.ypix ↔ group b = g) ∧
      ∀ val : List ℚ, if val.length = (out.map key).length
        then ∃ im', im.setImage val = (im', none) ∧ im'.patches = im.patches ∧ im'.shown = val
        else im.setImage val = (im, some .assertionError) := by
  obtain ⟨im, h1, h2, h3, h4⟩ := C66_patches (out.map x) (out.map y) (by simp) (n * s)
  refine ⟨im, h1, by simpa using h3, ?_, ?_⟩
  · intro i q g hq hg b hb
    obtain ⟨q1, q2, q3⟩ := h2 i q hq
    rw [List.getElem?_map, Option.map_eq_some_iff] at hg q1 q2
    obtain ⟨o, ho, rfl⟩ := hg
    obtain ⟨o1, ho1, e1⟩ := q1
    obtain ⟨o2, ho2, e2⟩ := q2
    rw [ho, Option.some.injEq] at ho1 ho2
    subst ho1
    subst ho2
    have hmem := List.mem_of_getElem? ho
    obtain ⟨r, hr, hgr⟩ := (hkey (key o)).1 (List.mem_map_of_mem hmem)
    rw [← hgr]
    refine square_of_group n hn group rows s p hc r hr q q3 ?_ ?_ b hb
    · rw [← e1, hx o hmem, hgr]
    · rw [← e2, hy o hmem, hgr]
  · intro val
    have h := h4 val
    simp only [List.length_map] at h ⊢
    split
    · rename_i hl
      rw [if_pos hl] at h
      obtain ⟨im', a, b, c, _⟩ := h
      exact ⟨im', a, b, c⟩
    · rename_i hl
      rwa [if_neg hl] at h

/-- the cells of a table with one row per group -/
theorem group_cells {ρ : Type} (n : Nat) (group : MapRow → Int) (rows : List MapRow) (hc : BlockGrid n group rows)
    (out : List ρ) (key row col : ρ → Int) (hnd : (out.map key).Nodup)
    (hfirst : ∀ o ∈ out, ∃ r ∈ rows, group r = key o ∧ row o = r.row / n ∧ col o = r.col / n) (a b : Int)
    (hab : ∀ o ∈ out, row o < a ∧ col o < b) :
    ∃ im, Imshow.init (out.map row) (out.map col) a.toNat b.toNat = .ok im ∧
      ∀ val : List ℚ, val.length = (out.map key).length → ∃ im', im.setImage val = (im', none) ∧
        (∀ r ∈ rows, ∀ (i : Nat) (v : ℚ), (out.map key)[i]? = some (group r) → val[i]? = some v →
          im'.data (r.row / n).toNat (r.col / n).toNat = some v) ∧
        ∀ c d : Nat, (∀ r ∈ rows, ¬ (r.row / n = c ∧ r.col / n = d)) →
          (isCorner a.toNat b.toNat c d → im'.data c d = none) ∧ (¬ isCorner a.toNat b.toNat c d → im'.data c d = some 0) := by
  have hnn : ∀ o ∈ out, 0 ≤ row o ∧ 0 ≤ col o := by
    intro o ho
    obtain ⟨r, hr, _, e1, e2⟩ := hfirst o ho
    have := hc.nonneg r hr
    rw [e1, e2]
    exact ⟨Int.ediv_nonneg this.1 (by omega), Int.ediv_nonneg this.2 (by omega)⟩
  obtain ⟨pos, hpos⟩ : ∃ pos, pos = out.map fun o => ((row o).toNat, (col o).toNat) := ⟨_, rfl⟩
  have hin : ∀ q ∈ pos, q.1 < a.toNat ∧ q.2 < b.toNat := by
    intro q hq
    rw [hpos] at hq
    obtain ⟨o, ho, rfl⟩ := List.mem_map.1 hq
    have h1 := hnn o ho
    have h2 := hab o ho
    dsimp only
    omega
  have hdup : pos.Nodup := by
    rw [hpos]
    refine List.Nodup.map_on ?_ (List.Nodup.of_map _ hnd)
    intro o1 ho1 o2 ho2 h
    rw [Prod.mk.injEq] at h
    have n1 := hnn o1 ho1
    have n2 := hnn o2 ho2
    obtain ⟨r1, hr1, k1, e1, f1⟩ := hfirst o1 ho1
    obtain ⟨r2, hr2, k2, e2, f2⟩ := hfirst o2 ho2
    have hk : key o1 = key o2 := by
      rw [← k1, ← k2, hc.cells r1 hr1 r2 hr2, ← e1, ← e2, ← f1, ← f2]
      omega
    exact (List.inj_on_of_nodup_map hnd) ho1 ho2 hk
  have er : out.map row = pos.map fun q => (q.1 : Int) := by
    rw [hpos, List.map_map]
    refine List.map_congr_left fun o ho => ?_
    have := hnn o ho
    simp only [Function.comp]
    omega
  have ec : out.map col = pos.map fun q => (q.2 : Int) := by
    rw [hpos, List.map_map]
    refine List.map_congr_left fun o ho => ?_
    have := hnn o ho
    simp only [Function.comp]
    omega
  have hlen : pos.length = (out.map key).length := by rw [hpos]; simp
  rw [er, ec]
  obtain ⟨im, _, h1, _, _, _, _⟩ := C66_grid a.toNat b.toNat pos hin hdup (List.replicate pos.length 0) (by simp)
  refine ⟨im, h1, ?_⟩
  intro val hval
  obtain ⟨im2, im', g1, g2, _, g4, g5⟩ := C66_grid a.toNat b.toNat pos hin hdup val (by rw [hval, hlen])
  rw [h1] at g1
  cases g1
  refine ⟨im', g2, ?_, ?_⟩
  · intro r hr i v hi hv
    rw [List.getElem?_map, Option.map_eq_some_iff] at hi
    obtain ⟨o, ho, hk⟩ := hi
    obtain ⟨r1, hr1, k1, e1, f1⟩ := hfirst o (List.mem_of_getElem? ho)
    have hcell := (hc.cells r1 hr1 r hr).1 (by rw [k1, hk])
    have hp : pos[i]? = some ((row o).toNat, (col o).toNat) := by rw [hpos, List.getElem?_map, ho]; rfl
    have := g4 i _ v hp hv
    rw [← hcell.1, ← hcell.2, ← e1, ← f1]
    exact this
  · intro c d hcd
    refine g5 c d ?_
    intro hmem
    rw [hpos] at hmem
    obtain ⟨o, ho, he⟩ := List.mem_map.1 hmem
    rw [Prod.mk.injEq] at he
    obtain ⟨r1, hr1, _, e1, f1⟩ := hfirst o ho
    have := hnn o ho
    refine hcd r1 hr1 ?_
    rw [← e1, ← f1]
    omega

/-! ## C180 -/

/-- **C180**, an image of the superpixels: the square with number `i` is on the pixels of the `i`-th superpixel present, and on no other pixel;
values are shown in that order, an image of another size is refused -/
theorem C180_superpixels (heap : List MapMeta) (m : Mapping MapRow) (md : MapMeta) (hmd : heap[m.metaRef]? = some md) (hne : m.rows ≠ []) (p : ℚ)
    (hc : BlockCamera 2 (·.superpixel) m.rows md.size p) :
    ∃ (numbers : List Int) (im : PatchImage), superpixelImage heap m = .ok im ∧
      numbers.Pairwise (· < ·) ∧ (∀ g, g ∈ numbers ↔ ∃ r ∈ m.rows, r.superpixel = g) ∧ im.patches.length = numbers.length ∧
      (∀ (i : Nat) (q : (ℚ × ℚ) × ℚ) (g : Int), im.patches[i]? = some q → numbers[i]? = some g →
        ∀ r ∈ m.rows, OnSquare q r.xpix r.ypix ↔ r.superpixel = g) ∧
      ∀ val : List ℚ, if val.length = numbers.length
        then ∃ im', im.setImage val = (im', none) ∧ im'.patches = im.patches ∧ im'.shown = val
        else im.setImage val = (im, some .assertionError) := by
  obtain ⟨heap', out, md', h1, h2, h3, h4, h5, h6, _⟩ := C39_superpixel_mapping heap m md hmd hne
  obtain ⟨im, g1, g2⟩ := group_patches 2 (by norm_num) (·.superpixel) m.rows md.size p hc out.rows (·.superpixel) (·.xpix) (·.ypix) h3
    (fun o ho => by obtain ⟨_, _, _, _, _, _, e, _⟩ := h4 o ho; exact e)
    (fun o ho => by obtain ⟨_, _, _, _, _, _, _, e⟩ := h4 o ho; exact e)
  refine ⟨out.rows.map (·.superpixel), im, ?_, h2, h3, g2⟩
  unfold superpixelImage patchFromMapping
  rw [h1]
  simp only
  rw [h5]
  simp only
  rw [h6]
  exact_mod_cast g1

/-- **C180**, an image of the modules -/
theorem C180_modules (heap : List MapMeta) (m : Mapping MapRow) (md : MapMeta) (hmd : heap[m.metaRef]? = some md) (hne : m.rows ≠ []) (p : ℚ)
    (hc : BlockCamera 8 (·.slot) m.rows md.size p) :
    ∃ (numbers : List Int) (im : PatchImage), tmImage heap m = .ok im ∧
      numbers.Pairwise (· < ·) ∧ (∀ g, g ∈ numbers ↔ ∃ r ∈ m.rows, r.slot = g) ∧ im.patches.length = numbers.length ∧
      (∀ (i : Nat) (q : (ℚ × ℚ) × ℚ) (g : Int), im.patches[i]? = some q → numbers[i]? = some g →
        ∀ r ∈ m.rows, OnSquare q r.xpix r.ypix ↔ r.slot = g) ∧
      ∀ val : List ℚ, if val.length = numbers.length
        then ∃ im', im.setImage val = (im', none) ∧ im'.patches = im.patches ∧ im'.shown = val
        else im.setImage val = (im, some .assertionError) := by
  obtain ⟨heap', out, md', h1, h2, h3, h4, h5, h6, _⟩ := C39_tm_mapping heap m md hmd hne
  obtain ⟨im, g1, g2⟩ := group_patches 8 (by norm_num) (·.slot) m.rows md.size p hc out.rows (·.slot) (·.xpix) (·.ypix) h3
    (fun o ho => by obtain ⟨_, _, _, _, e, _⟩ := h4 o ho; exact e)
    (fun o ho => by obtain ⟨_, _, _, _, _, e⟩ := h4 o ho; exact e)
  refine ⟨out.rows.map (·.slot), im, ?_, h2, h3, g2⟩
  unfold tmImage patchFromMapping
  rw [h1]
  simp only
  rw [h5]
  simp only
  rw [h6]
  exact_mod_cast g1

theorem init_grid_of_nonneg {ρ : Type} (row col : ρ → Int) (heap : List MapMeta) (m : Mapping ρ) (md : MapMeta) (hmd : heap[m.metaRef]? = some md)
    (a b : Int) (ha : md.nRows = some a) (hb : md.nColumns = some b) (h0 : 0 ≤ a ∧ 0 ≤ b) :
    gridFromMapping row col heap m = Imshow.init (m.rows.map row) (m.rows.map col) a.toNat b.toNat := by
  unfold gridFromMapping
  rw [hmd]
  simp only [ha, hb]
  rw [if_neg (by omega)]

/-- **C180**, the superpixels as a grid: the cell of every pixel shows the value of its superpixel, cells without pixels are empty or masked -/
theorem C180_superpixel_grid (heap : List MapMeta) (m : Mapping MapRow) (md : MapMeta) (hmd : heap[m.metaRef]? = some md) (hne : m.rows ≠ [])
    (hc : BlockGrid 2 (·.superpixel) m.rows) :
    ∃ (numbers : List Int) (im : Imshow) (a b : Nat), superpixelGrid heap m = .ok im ∧
      numbers.Pairwise (· < ·) ∧ (∀ g, g ∈ numbers ↔ ∃ r ∈ m.rows, r.superpixel = g) ∧
      (∀ r ∈ m.rows, r.row < 2 * a ∧ r.col < 2 * b) ∧ (∃ r ∈ m.rows, 2 * a ≤ r.row + 2) ∧ (∃ r ∈ m.rows, 2 * b ≤ r.col + 2) ∧
      ∀ val : List ℚ, val.length = numbers.length → ∃ im', im.setImage val = (im', none) ∧
        (∀ r ∈ m.rows, ∀ (i : Nat) (v : ℚ), numbers[i]? = some r.superpixel → val[i]? = some v →
          im'.data (r.row / 2).toNat (r.col / 2).toNat = some v) ∧
        ∀ c d : Nat, (∀ r ∈ m.rows, ¬ (r.row / 2 = c ∧ r.col / 2 = d)) →
          (isCorner a b c d → im'.data c d = none) ∧ (¬ isCorner a b c d → im'.data c d = some 0) := by
  obtain ⟨heap', out, md', h1, h2, h3, h4, h5, _, _, ⟨a, b, ha, hb, hab, ⟨oa, hoa, hoa'⟩, ob, hob, hob'⟩, _⟩ := C39_superpixel_mapping heap m md hmd hne
  have hfirst : ∀ o ∈ out.rows, ∃ r ∈ m.rows, r.superpixel = o.superpixel ∧ o.row = r.row / (2 : Nat) ∧ o.col = r.col / (2 : Nat) := by
    intro o ho
    obtain ⟨f, hf, _, _, e1, e2, _⟩ := h4 o ho
    exact ⟨f, List.mem_of_find?_eq_some hf, by simpa using List.find?_some hf, e1, e2⟩
  have hnd : (out.rows.map (·.superpixel)).Nodup := h2.imp (fun h => ne_of_lt h)
  have hnn : ∀ o ∈ out.rows, 0 ≤ o.row ∧ 0 ≤ o.col := by
    intro o ho
    obtain ⟨r, hr, _, e1, e2⟩ := hfirst o ho
    have := hc.nonneg r hr
    omega
  have h0 : 0 ≤ a ∧ 0 ≤ b := by
    have := hnn oa hoa
    have := hnn ob hob
    omega
  obtain ⟨im, g1, g2⟩ := group_cells 2 (·.superpixel) m.rows hc out.rows (·.superpixel) (·.row) (·.col) hnd hfirst a b hab
  refine ⟨out.rows.map (·.superpixel), im, a.toNat, b.toNat, ?_, h2, h3, ?_, ?_, ?_, g2⟩
  · unfold superpixelGrid
    rw [h1]
    simp only
    rw [init_grid_of_nonneg _ _ heap' out md' h5 a b ha hb h0, g1]
  · intro r hr
    obtain ⟨o, ho, hk⟩ := List.mem_map.1 ((h3 r.superpixel).2 ⟨r, hr, rfl⟩)
    obtain ⟨f, hf, hfk, e1, e2⟩ := hfirst o ho
    have hcell := (hc.cells f hf r hr).1 (by rw [hfk]; exact hk)
    have := hab o ho
    omega
  · obtain ⟨f, hf, _, e1, _⟩ := hfirst oa hoa
    exact ⟨f, hf, by omega⟩
  · obtain ⟨f, hf, _, _, e1⟩ := hfirst ob hob
    exact ⟨f, hf, by omega⟩

/-- **C180**, the modules as a grid -/
theorem C180_module_grid (heap : List MapMeta) (m : Mapping MapRow) (md : MapMeta) (hmd : heap[m.metaRef]? = some md) (hne : m.rows ≠ [])
    (hc : BlockGrid 8 (·.slot) m.rows) :
    ∃ (numbers : List Int) (im : Imshow) (a b : Nat), tmGrid heap m = .ok im ∧
      numbers.Pairwise (· < ·) ∧ (∀ g, g ∈ numbers ↔ ∃ r ∈ m.rows, r.slot = g) ∧
      (∀ r ∈ m.rows, r.row < 8 * a ∧ r.col < 8 * b) ∧ (∃ r ∈ m.rows, 8 * a ≤ r.row + 8) ∧ (∃ r ∈ m.rows, 8 * b ≤ r.col + 8) ∧
      ∀ val : List ℚ, val.length = numbers.length → ∃ im', im.setImage val = (im', none) ∧
        (∀ r ∈ m.rows, ∀ (i : Nat) (v : ℚ), numbers[i]? = some r.slot → val[i]? = some v →
          im'.data (r.row / 8).toNat (r.col / 8).toNat = some v) ∧
        ∀ c d : Nat, (∀ r ∈ m.rows, ¬ (r.row / 8 = c ∧ r.col / 8 = d)) →
          (isCorner a b c d → im'.data c d = none) ∧ (¬ isCorner a b c d → im'.data c d = some 0) := by
  obtain ⟨heap', out, md', h1, h2, h3, h4, h5, _, _, ⟨a, b, ha, hb, hab, ⟨oa, hoa, hoa'⟩, ob, hob, hob'⟩, _⟩ := C39_tm_mapping heap m md hmd hne
  have hfirst : ∀ o ∈ out.rows, ∃ r ∈ m.rows, r.slot = o.slot ∧ o.row = r.row / (8 : Nat) ∧ o.col = r.col / (8 : Nat) := by
    intro o ho
    obtain ⟨f, hf, e1, e2, _⟩ := h4 o ho
    exact ⟨f, List.mem_of_find?_eq_some hf, by simpa using List.find?_some hf, e1, e2⟩
  have hnd : (out.rows.map (·.slot)).Nodup := h2.imp (fun h => ne_of_lt h)
  have hnn : ∀ o ∈ out.rows, 0 ≤ o.row ∧ 0 ≤ o.col := by
    intro o ho
    obtain ⟨r, hr, _, e1, e2⟩ := hfirst o ho
    have := hc.nonneg r hr
    omega
  have h0 : 0 ≤ a ∧ 0 ≤ b := by
    have := hnn oa hoa
    have := hnn ob hob
    omega
  obtain ⟨im, g1, g2⟩ := group_cells 8 (·.slot) m.rows hc out.rows (·.slot) (·.row) (·.col) hnd hfirst a b hab
  refine ⟨out.rows.map (·.slot), im, a.toNat, b.toNat, ?_, h2, h3, ?_, ?_, ?_, g2⟩
  · unfold tmGrid
    rw [h1]
    simp only
    rw [init_grid_of_nonneg _ _ heap' out md' h5 a b ha hb h0, g1]
  · intro r hr
    obtain ⟨o, ho, hk⟩ := List.mem_map.1 ((h3 r.slot).2 ⟨r, hr, rfl⟩)
    obtain ⟨f, hf, hfk, e1, e2⟩ := hfirst o ho
    have hcell := (hc.cells f hf r hr).1 (by rw [hfk]; exact hk)
    have := hab o ho
    omega
  · obtain ⟨f, hf, _, e1, _⟩ := hfirst oa hoa
    exact ⟨f, hf, by omega⟩
  · obtain ⟨f, hf, _, _, e1⟩ := hfirst ob hob
    exact ⟨f, hf, by omega⟩

/-- **C180**, an empty mapping: no patches, and no grid -/
theorem C180_empty (heap : List MapMeta) (m : Mapping MapRow) (md : MapMeta) (hmd : heap[m.metaRef]? = some md) (hne : m.rows = []) :
    (∃ im, superpixelImage heap m = .ok im ∧ im.patches = []) ∧ (∃ im, tmImage heap m = .ok im ∧ im.patches = []) ∧
      superpixelGrid heap m = .error .typeError ∧ tmGrid heap m = .error .typeError := by
  refine ⟨?_, ?_, ?_, ?_⟩
  · unfold superpixelImage getSuperpixelMapping patchFromMapping
    simp [hmd, hne, PatchImage.init]
  · unfold tmImage getTmMapping patchFromMapping
    simp [hmd, hne, PatchImage.init]
  · unfold superpixelGrid getSuperpixelMapping gridFromMapping
    simp [hmd, hne, maximum?]
  · unfold tmGrid getTmMapping gridFromMapping
    simp [hmd, hne, maximum?]

theorem eq_range_of_members (numbers : List Int) (hp : numbers.Pairwise (· < ·)) (N : Nat) (h : ∀ g, g ∈ numbers ↔ 0 ≤ g ∧ g < N) :
    numbers = (List.range N).map fun i : Nat => (i : Int) := by
  have hr : ((List.range N).map fun i : Nat => (i : Int)).Pairwise (· < ·) := by
    rw [List.pairwise_map]
    exact List.pairwise_lt_range.imp fun h => by exact_mod_cast h
  have hperm : numbers.Perm ((List.range N).map fun i : Nat => (i : Int)) := by
    rw [List.perm_ext_iff_of_nodup (hp.imp fun h => ne_of_lt h) (hr.imp fun h => ne_of_lt h)]
    intro g
    rw [h, List.mem_map]
    constructor
    · intro hg
      exact ⟨g.toNat, List.mem_range.2 (by omega), by omega⟩
    · rintro ⟨i, hi, rfl⟩
      rw [List.mem_range] at hi
      omega
  exact hperm.eq_of_pairwise (fun a b _ _ h1 h2 => absurd h1 (not_lt.2 h2.le)) hp hr

/-- **C180**, superpixels numbered without gaps: value `i` is on the pixels of superpixel `i` -/
theorem C180_superpixels_numbered (heap : List MapMeta) (m : Mapping MapRow) (md : MapMeta) (hmd : heap[m.metaRef]? = some md) (N : Nat) (hN : 0 < N)
    (hall : ∀ g, (∃ r ∈ m.rows, r.superpixel = g) ↔ 0 ≤ g ∧ g < N) (p : ℚ) (hc : BlockCamera 2 (·.superpixel) m.rows md.size p)
    (val : List ℚ) (hval : val.length = N) :
    ∃ im im', superpixelImage heap m = .ok im ∧ im.setImage val = (im', none) ∧ im'.shown = val ∧ im'.patches.length = N ∧
      ∀ (i : Nat) (q : (ℚ × ℚ) × ℚ), im'.patches[i]? = some q → ∀ r ∈ m.rows, OnSquare q r.xpix r.ypix ↔ r.superpixel = i := by
  have hne : m.rows ≠ [] := by
    obtain ⟨r, hr, _⟩ := (hall 0).2 ⟨le_refl _, by exact_mod_cast hN⟩
    exact List.ne_nil_of_mem hr
  obtain ⟨numbers, im, h1, h2, h3, h4, h5, h6⟩ := C180_superpixels heap m md hmd hne p hc
  have hnum := eq_range_of_members numbers h2 N (fun g => (h3 g).trans (hall g))
  have hl : numbers.length = N := by rw [hnum]; simp
  have h6 := h6 val
  rw [if_pos (by rw [hval, hl])] at h6
  obtain ⟨im', a, b, c⟩ := h6
  refine ⟨im, im', h1, a, c, by rw [b, h4, hl], ?_⟩
  intro i q hq
  rw [b] at hq
  have hi : i < N := by
    have := (List.getElem?_eq_some_iff.1 hq).1
    omega
  exact h5 i q i hq (by rw [hnum, List.getElem?_map, List.getElem?_range hi]; rfl)

/-- **C180**, modules numbered without gaps: value `i` is on the pixels of module `i` -/
theorem C180_modules_numbered (heap : List MapMeta) (m : Mapping MapRow) (md : MapMeta) (hmd : heap[m.metaRef]? = some md) (N : Nat) (hN : 0 < N)
    (hall : ∀ g, (∃ r ∈ m.rows, r.slot = g) ↔ 0 ≤ g ∧ g < N) (p : ℚ) (hc : BlockCamera 8 (·.slot) m.rows md.size p)
    (val : List ℚ) (hval : val.length = N) :
    ∃ im im', tmImage heap m = .ok im ∧ im.setImage val = (im', none) ∧ im'.shown = val ∧ im'.patches.length = N ∧
      ∀ (i : Nat) (q : (ℚ × ℚ) × ℚ), im'.patches[i]? = some q → ∀ r ∈ m.rows, OnSquare q r.xpix r.ypix ↔ r.slot = i := by
  have hne : m.rows ≠ [] := by
    obtain ⟨r, hr, _⟩ := (hall 0).2 ⟨le_refl _, by exact_mod_cast hN⟩
    exact List.ne_nil_of_mem hr
  obtain ⟨numbers, im, h1, h2, h3, h4, h5, h6⟩ := C180_modules heap m md hmd hne p hc
  have hnum := eq_range_of_members numbers h2 N (fun g => (h3 g).trans (hall g))
  have hl : numbers.length = N := by rw [hnum]; simp
  have h6 := h6 val
  rw [if_pos (by rw [hval, hl])] at h6
  obtain ⟨im', a, b, c⟩ := h6
  refine ⟨im, im', h1, a, c, by rw [b, h4, hl], ?_⟩
  intro i q hq
  rw [b] at hq
  have hi : i < N := by
    have := (List.getElem?_eq_some_iff.1 hq).1
    omega
  exact h5 i q i hq (by rw [hnum, List.getElem?_map, List.getElem?_range hi]; rfl)

/-- **C180**, modules whose pixels are further apart than the eighth part allows: the square of the module misses the outer pixels -/
theorem C180_wide_modules (heap : List MapMeta) (m : Mapping MapRow) (md : MapMeta) (hmd : heap[m.metaRef]? = some md) (p : ℚ)
    (hwide : 8 * md.size + 1 / 10000 < 7 * p) (r : MapRow) (hr : r ∈ m.rows)
    (hb : ∃ x0 y0, ((m.rows.filter fun a => a.slot = r.slot).map fun a => (a.xpix, a.ypix)).Perm (blockPoints 8 x0 y0 p)) :
    ∃ im, tmImage heap m = .ok im ∧ ∃ (i : Nat) (q : (ℚ × ℚ) × ℚ) (b : MapRow), im.patches[i]? = some q ∧
      q.1.1 + q.2 / 2 = mean ((m.rows.filter fun a => a.slot = r.slot).map (·.xpix)) ∧
      q.1.2 + q.2 / 2 = mean ((m.rows.filter fun a => a.slot = r.slot).map (·.ypix)) ∧
      b ∈ m.rows ∧ b.slot = r.slot ∧ ¬ OnSquare q b.xpix b.ypix := by
  obtain ⟨heap', out, md', h1, h2, h3, h4, h5, h6, _⟩ := C39_tm_mapping heap m md hmd (List.ne_nil_of_mem hr)
  obtain ⟨im, g1, g2, g3, _⟩ := C66_patches (out.rows.map (·.xpix)) (out.rows.map (·.ypix)) (by simp) md'.size
  obtain ⟨o, ho, hk⟩ := List.mem_map.1 ((h3 r.slot).2 ⟨r, hr, rfl⟩)
  obtain ⟨i, hi, hio⟩ := List.mem_iff_getElem.1 ho
  have hip : i < im.patches.length := by rw [g3]; simpa using hi
  obtain ⟨e1, e2, e3⟩ := g2 i im.patches[i] (List.getElem?_eq_getElem hip)
  have hoi : out.rows[i]? = some o := by rw [List.getElem?_eq_getElem hi, hio]
  rw [List.getElem?_map, hoi, Option.map_some, Option.some.injEq] at e1 e2
  obtain ⟨_, _, _, _, ex, ey⟩ := h4 o ho
  rw [hk] at ex ey
  obtain ⟨x0, y0, hperm⟩ := hb
  obtain ⟨mx, _⟩ := block_mean 8 (by norm_num) x0 y0 p _ hperm
  rw [List.map_map] at mx
  have hmem : (x0, y0) ∈ blockPoints 8 x0 y0 p := (mem_blockPoints ..).2 ⟨0, 0, by norm_num, by norm_num, by simp, by simp⟩
  obtain ⟨b, hbm, hpos⟩ := List.mem_map.1 (hperm.symm.subset hmem)
  rw [List.mem_filter] at hbm
  rw [Prod.mk.injEq] at hpos
  refine ⟨im, ?_, i, im.patches[i], b, List.getElem?_eq_getElem hip, e1.symm.trans ex, e2.symm.trans ey, hbm.1, by simpa using hbm.2, ?_⟩
  · unfold tmImage patchFromMapping
    rw [h1]
    simp only
    rw [h5]
    exact g1
  · rintro ⟨a1, -⟩
    have hc : im.patches[i].1.1 + im.patches[i].2 / 2 = x0 + (8 - 1) * p / 2 := by
      rw [← e1, ex]
      have : mean ((m.rows.filter fun a => a.slot = r.slot).map (·.xpix)) = x0 + ((8 : Nat) - 1) * p / 2 := by rw [← mx]; rfl
      rw [this]
      push_cast
      ring
    rw [hpos.1, e3] at *
    rw [h6] at *
    linarith

/-! ## cases -/

/-- two superpixels side by side, numbers 4 and 7 -/
def twoSuperpixels : List MapRow :=
  [⟨7, 0, 0, 0, 2, 2, 0⟩, ⟨7, 0, 0, 1, 2, 2, 1⟩, ⟨7, 0, 0, 0, 3, 3, 0⟩, ⟨7, 0, 0, 1, 3, 3, 1⟩,
   ⟨4, 0, 0, 0, 0, 0, 0⟩, ⟨4, 0, 0, 1, 0, 0, 1⟩, ⟨4, 0, 0, 0, 1, 1, 0⟩, ⟨4, 0, 0, 1, 1, 1, 1⟩]

theorem twoSuperpixels_camera : BlockCamera 2 (·.superpixel) twoSuperpixels 1 1 where
  side := by norm_num
  pitch := le_refl _
  gaps := by norm_num
  block := by
    intro r hr
    have h : r.superpixel = 7 ∨ r.superpixel = 4 := by
      have : ∀ r ∈ twoSuperpixels, r.superpixel = 7 ∨ r.superpixel = 4 := by decide +kernel
      exact this r hr
    rcases h with h | h
    · refine ⟨2, 0, ?_⟩; rw [h]; decide +kernel
    · refine ⟨0, 0, ?_⟩; rw [h]; decide +kernel
  apart := by decide +kernel

theorem twoSuperpixels_grid : BlockGrid 2 (·.superpixel) twoSuperpixels where
  nonneg := by decide +kernel
  cells := by decide +kernel

example : ∃ (numbers : List Int) (im : PatchImage), superpixelImage [⟨some 2, some 4, 1, []⟩] ⟨twoSuperpixels, 0⟩ = .ok im ∧
    im.patches.length = numbers.length ∧ 7 ∈ numbers := by
  obtain ⟨numbers, im, h1, _, h3, h4, _⟩ := C180_superpixels [⟨some 2, some 4, 1, []⟩] ⟨twoSuperpixels, 0⟩ _ rfl (by decide +kernel) 1 twoSuperpixels_camera
  exact ⟨numbers, im, h1, h4, (h3 7).2 (by decide +kernel)⟩

example : ∃ im im', superpixelGrid [⟨some 2, some 4, 1, []⟩] ⟨twoSuperpixels, 0⟩ = .ok im ∧ im.setImage [10, 20] = (im', none) ∧
    im'.data 0 0 = some 10 ∧ im'.data 0 1 = some 20 := ⟨_, _, rfl, rfl, by decide +kernel, by decide +kernel⟩

/-- **C180**, the number of a value is its place, not the number of the superpixel: with superpixels 4 and 7 the value with number 0 is on
superpixel 4 and there is no value with number 4 -/
theorem C180_numbers : ∃ im, superpixelImage [⟨some 2, some 4, 1, []⟩] ⟨twoSuperpixels, 0⟩ = .ok im ∧ im.patches[4]? = none ∧
    ∃ q, im.patches[0]? = some q ∧ ∀ r ∈ twoSuperpixels, OnSquare q r.xpix r.ypix ↔ r.superpixel = 4 := by
  refine ⟨_, rfl, by decide +kernel, _, rfl, ?_⟩
  unfold OnSquare
  decide +kernel

/-- one module of 64 pixels -/
def oneModule (p : ℚ) : List MapRow := (blockPoints 8 0 0 p).map fun q => ⟨0, 0, 0, 0, 0, q.1, q.2⟩

theorem oneModule_block (p : ℚ) (r : MapRow) (hr : r ∈ oneModule p) :
    ∃ x0 y0, (((oneModule p).filter fun a => a.slot = r.slot).map fun a => (a.xpix, a.ypix)).Perm (blockPoints 8 x0 y0 p) := by
  have hs : ∀ a ∈ oneModule p, a.slot = 0 := by
    intro a ha
    obtain ⟨q, _, rfl⟩ := List.mem_map.1 ha
    rfl
  refine ⟨0, 0, ?_⟩
  rw [List.filter_eq_self.2 fun a ha => by simp [hs a ha, hs r hr]]
  unfold oneModule
  rw [List.map_map]
  have : ((fun a : MapRow => (a.xpix, a.ypix)) ∘ fun q : ℚ × ℚ => (⟨0, 0, 0, 0, 0, q.1, q.2⟩ : MapRow)) = id := rfl
  rw [this, List.map_id]

theorem oneModule_camera : BlockCamera 8 (·.slot) (oneModule 1) 1 1 where
  side := by norm_num
  pitch := le_refl _
  gaps := by norm_num
  block := oneModule_block 1
  apart := by
    intro a ha b hb h
    obtain ⟨q, _, rfl⟩ := List.mem_map.1 ha
    obtain ⟨q', _, rfl⟩ := List.mem_map.1 hb
    exact absurd rfl h

theorem oneModule_first (p : ℚ) : (⟨0, 0, 0, 0, 0, 0, 0⟩ : MapRow) ∈ oneModule p :=
  List.mem_map.2 ⟨(0, 0), (mem_blockPoints ..).2 ⟨0, 0, by norm_num, by norm_num, by simp, by simp⟩, rfl⟩

example : ∃ im im', tmImage [⟨some 8, some 8, 1, []⟩] ⟨oneModule 1, 0⟩ = .ok im ∧ im.setImage [3] = (im', none) ∧ im'.shown = [3] := by
  obtain ⟨im, im', h1, h2, h3, _⟩ := C180_modules_numbered [⟨some 8, some 8, 1, []⟩] ⟨oneModule 1, 0⟩ _ rfl 1 (by norm_num) (by
    intro g
    constructor
    · rintro ⟨r, hr, rfl⟩
      obtain ⟨q, _, rfl⟩ := List.mem_map.1 hr
      simp
    · intro hg
      exact ⟨_, oneModule_first 1, by simp; omega⟩) 1 oneModule_camera [3] rfl
  exact ⟨im, im', h1, h2, h3⟩

/-- pixels of 6 mm every 7 mm: the square of the module does not reach the outer pixels -/
example : ∃ im, tmImage [⟨some 8, some 8, 6 / 1000, []⟩] ⟨oneModule (7 / 1000), 0⟩ = .ok im ∧
    ∃ (i : Nat) (q : (ℚ × ℚ) × ℚ) (b : MapRow), im.patches[i]? = some q ∧ b ∈ oneModule (7 / 1000) ∧ ¬ OnSquare q b.xpix b.ypix := by
  obtain ⟨im, h1, i, q, b, h2, _, _, h3, _, h4⟩ := C180_wide_modules [⟨some 8, some 8, 6 / 1000, []⟩] ⟨oneModule (7 / 1000), 0⟩ _ rfl (7 / 1000)
    (by norm_num) _ (oneModule_first _) (oneModule_block _ _ (oneModule_first _))
  exact ⟨im, h1, i, q, b, h2, h3, h4⟩

end Verif.Props
