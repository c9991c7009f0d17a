import Verif.Props.RowColumn
import Verif.Props.SimReader
import Mathlib.Tactic.Linarith
import Mathlib.Tactic.Positivity

/-!
# Simulated events of the CHEC camera, from the positions of the pixels (C181)
-/

namespace Verif.Props

open Verif.Py Verif.Model

variable {α β : Type}

/-! ## specification -/

/-- the pixels of the camera, as (column, row): six by six modules of eight by eight pixels, without the four modules in the corners -/
def OnChec (c : Nat × Nat) : Prop := c.1 < 48 ∧ c.2 < 48 ∧ ¬ ((c.1 < 8 ∨ 40 ≤ c.1) ∧ (c.2 < 8 ∨ 40 ≤ c.2))

/-- distance of line `k` from line 0: pixels `d` apart, modules `g` further -/
noncomputable def checLine (d g : ℝ) (k : Nat) : ℝ := k * d + (k / 8 : Nat) * g

/-- position of a pixel on the camera, the middle of which is the origin -/
noncomputable def checPosition (d g : ℝ) (c : Nat × Nat) : ℝ × ℝ := (checLine d g c.1 - checLine d g 47 / 2, checLine d g c.2 - checLine d g 47 / 2)

/-! ## C181 -/

theorem checLine_neighbour (d g : ℝ) (hd : 0 < d) (a : Nat) : ∃ b, b / 8 = a / 8 ∧ b ≠ a ∧ |checLine d g b - checLine d g a| = d := by
  unfold checLine
  by_cases h : a % 8 = 7
  · refine ⟨a - 1, by omega, by omega, ?_⟩
    rw [show (a - 1) / 8 = a / 8 by omega, Nat.cast_sub (by omega), abs_sub_comm]
    push_cast
    rw [show (a : ℝ) * d + (a / 8 : Nat) * g - (((a : ℝ) - 1) * d + (a / 8 : Nat) * g) = d by ring, abs_of_pos hd]
  · refine ⟨a + 1, by omega, by omega, ?_⟩
    rw [show (a + 1) / 8 = a / 8 by omega]
    push_cast
    rw [show ((a : ℝ) + 1) * d + (a / 8 : Nat) * g - ((a : ℝ) * d + (a / 8 : Nat) * g) = d by ring, abs_of_pos hd]

theorem checLine_mirror (d g : ℝ) (k : Nat) (hk : k < 48) : checLine d g k + checLine d g (47 - k) = checLine d g 47 := by
  unfold checLine
  rw [show (47 - k) / 8 = 5 - k / 8 by omega, Nat.cast_sub (by omega), Nat.cast_sub (by omega)]
  norm_num
  ring

theorem checLine_lt (d g : ℝ) (hd : 0 < d) (hg : 0 ≤ g) (a b : Nat) (h : a < b) : checLine d g a < checLine d g b := by
  unfold checLine
  have h1 : (a : ℝ) < b := by exact_mod_cast h
  have h2 : ((a / 8 : Nat) : ℝ) ≤ (b / 8 : Nat) := by exact_mod_cast Nat.div_le_div_right h.le
  nlinarith [mul_lt_mul_of_pos_right h1 hd, mul_le_mul_of_nonneg_right h2 hg]

theorem checLine_off_centre (d g : ℝ) (hd : 0 < d) (hg : 0 ≤ g) (k : Nat) (hk : k < 48) : -(checLine d g 47 / 2) + checLine d g k ≠ 0 := by
  intro h
  have hm := checLine_mirror d g k hk
  rcases lt_trichotomy k (47 - k) with hlt | heq | hgt
  · have := checLine_lt d g hd hg _ _ hlt; linarith
  · omega
  · have := checLine_lt d g hd hg _ _ hgt; linarith

/-- **C181**, rows and columns found from the positions: right for every order of the simulated pixels, every distance of the pixels and every gap between modules -/
theorem C181_rows_columns (d g : ℝ) (hd : 0 < d) (hg : 0 ≤ g) (cells : List (Nat × Nat)) (hnd : cells.Nodup) (hcells : ∀ c, c ∈ cells ↔ OnChec c) :
    getRowColumn (cells.map (checPosition d g)) = .ok (rowsOf cells, columnsOf cells) := by
  cases cells with
  | nil => exact absurd ((hcells (8, 8)).2 (by unfold OnChec; omega)) (by simp)
  | cons first rest =>
    have hpos : checPosition d g = fun c : Nat × Nat => (-(checLine d g 47 / 2) + checLine d g c.1, -(checLine d g 47 / 2) + checLine d g c.2) := by
      funext c
      unfold checPosition
      rw [Prod.mk.injEq]
      constructor <;> ring
    rw [hpos]
    refine C89_partial 48 (checLine d g) d _ _ first rest (by norm_num) (by simp [checLine]) hd ?_ ?_ ?_ hnd ?_ ?_ ?_ ?_ ?_
    · intro k _
      unfold checLine
      have h2 : ((k / 8 : Nat) : ℝ) ≤ ((k + 1) / 8 : Nat) := by exact_mod_cast Nat.div_le_div_right (Nat.le_succ k)
      have := mul_le_mul_of_nonneg_right h2 hg
      push_cast at this ⊢
      linarith
    · have : checLine d g 1 = d := by simp [checLine]
      rw [this]
      have h2 : 1 < Real.sqrt 2 := by
        rw [Real.lt_sqrt (by norm_num)]
        norm_num
      nlinarith
    · intro c hc
      have := (hcells c).1 hc
      exact ⟨this.1, this.2.1⟩
    · have hf := (hcells first).1 (by simp)
      obtain ⟨b, hb, hne, hdist⟩ := checLine_neighbour d g hd first.1
      have hmem : (b, first.2) ∈ first :: rest := (hcells _).2 (by unfold OnChec at hf ⊢; dsimp only; omega)
      rcases List.mem_cons.1 hmem with h | h
      · exact absurd (congrArg Prod.fst h) hne
      · exact ⟨_, h, Or.inr ⟨rfl, hdist⟩⟩
    · exact ⟨8, by norm_num, fun r hr => (hcells _).2 (by unfold OnChec; dsimp only; omega)⟩
    · intro k hk hfull c hc
      have := (hcells _).1 (hfull 0 (by norm_num))
      refine (hcells _).2 ?_
      unfold OnChec at this ⊢
      dsimp only at this ⊢
      omega
    · exact fun k hk => checLine_off_centre d g hd hg k hk
    · exact fun k hk => checLine_off_centre d g hd hg k hk

/-- **C181**: a file of simulated events is opened, and pixel `i` of each event is the simulated pixel that lies at the row and column of pixel `i` of the mapping,
for every order in which the simulation numbers its pixels -/
theorem C181_events (d g : ℝ) (hd : 0 < d) (hg : 0 ≤ g) (cells : List (Nat × Nat)) (hnd : cells.Nodup) (hcells : ∀ c, c ∈ cells ↔ OnChec c)
    (mapping : List (Nat × Nat)) (hmap : ∀ c ∈ mapping, OnChec c) (positions : Nat → List (ℝ × ℝ)) (e : ArrayEvent α β) (es : List (ArrayEvent α β))
    (tel : Nat) (tels : List Nat) (n : Nat) (ht : e.withData = tel :: tels) (hs : e.shape tel = some (cells.length, n))
    (hpos : positions tel = cells.map (checPosition d g)) :
    ∃ r, openSim 48 48 (rowsOf mapping) (columnsOf mapping) (fun t => getRowColumn (positions t)) (e :: es) = .ok r ∧ r.events = e :: es ∧
      ∀ ev ∈ r.events, ∀ (w : List α) (im : List β), ev.waveform tel = some w → ev.image tel = some im → w.length = cells.length → im.length = cells.length →
        ∃ samples mcTrue, simWaveform r ev = .ok (samples, mcTrue) ∧ samples.length = mapping.length ∧ mcTrue.length = mapping.length ∧
          ∀ (i k : Nat) (c : Nat × Nat), mapping[i]? = some c → cells[k]? = some c → samples[i]? = w[k]? ∧ mcTrue[i]? = im[k]? := by
  have hrc := C181_rows_columns d g hd hg cells hnd hcells
  have hin : ∀ p ∈ cells.map Prod.swap, p.1 < 48 ∧ p.2 < 48 := by
    intro p hp
    obtain ⟨c, hc, rfl⟩ := List.mem_map.1 hp
    have := (hcells c).1 hc
    exact ⟨this.2.1, this.1⟩
  have hocc : ∀ p ∈ mapping.map Prod.swap, p ∈ cells.map Prod.swap := by
    intro p hp
    obtain ⟨c, hc, rfl⟩ := List.mem_map.1 hp
    exact List.mem_map_of_mem ((hcells c).2 (hmap c hc))
  have hsw : (cells.map Prod.swap).Nodup := hnd.map Prod.swap_injective
  have er : ∀ l : List (Nat × Nat), rowsOf l = (l.map Prod.swap).map fun p => (p.1 : Int) := fun l => by unfold rowsOf; rw [List.map_map]; rfl
  have ec : ∀ l : List (Nat × Nat), columnsOf l = (l.map Prod.swap).map fun p => (p.2 : Int) := fun l => by unfold columnsOf; rw [List.map_map]; rfl
  obtain ⟨order, ho⟩ : ∃ order, pixelOrder 48 48 (rowsOf cells) (columnsOf cells) (rowsOf mapping) (columnsOf mapping) = .ok order := by
    rw [er, ec, er, ec]
    exact ⟨_, pixelOrder_spec 48 48 _ _ hin (fun p hp => hin p (hocc p hp))⟩
  refine ⟨{ tel, nPixels := cells.length, nSamples := n, nModules := cells.length / 64, order, events := e :: es }, ?_, rfl, ?_⟩
  · unfold openSim
    simp only [ht, hs, hpos, hrc]
    rw [if_neg (by simp [rowsOf]), ho]
  · intro ev _ w im hw him hwl hil
    obtain ⟨order', samples, mcTrue, h1, h2, h3, h4, h5⟩ := C08_pixel_order 48 48 (cells.map Prod.swap) (mapping.map Prod.swap) hin hsw hocc w im
      (by simpa using hwl) (by simpa using hil)
    rw [← er, ← ec, ← er, ← ec, ho] at h1
    obtain rfl := Except.ok.inj h1
    refine ⟨samples, mcTrue, ?_, by simpa using h3, by simpa using h4, ?_⟩
    · unfold simWaveform
      unfold buildWaveform at h2
      simp only [hw, him]
      exact h2
    · intro i k c hi hk
      exact h5 i k c.swap (by rw [List.getElem?_map, hi]; rfl) (by rw [List.getElem?_map, hk]; rfl)

instance (c : Nat × Nat) : Decidable (OnChec c) := by unfold OnChec; infer_instance

/-- the pixels of the camera column by column -/
def checCells : List (Nat × Nat) := (List.range 48 ×ˢ List.range 48).filter fun c => OnChec c

theorem checCells_mem (c : Nat × Nat) : c ∈ checCells ↔ OnChec c := by
  obtain ⟨a, b⟩ := c
  unfold checCells
  rw [List.mem_filter, List.mem_product, List.mem_range, List.mem_range, decide_eq_true_iff]
  exact ⟨fun h => h.2, fun h => ⟨⟨h.1, h.2.1⟩, h⟩⟩

theorem checCells_nodup : checCells.Nodup := (List.nodup_range.product List.nodup_range).filter _

/-- **C181**, the camera has 2048 pixels, in 32 modules -/
theorem C181_pixels (cells : List (Nat × Nat)) (hnd : cells.Nodup) (hcells : ∀ c, c ∈ cells ↔ OnChec c) : cells.length = 2048 := by
  have hp : cells.Perm checCells := (List.perm_ext_iff_of_nodup hnd checCells_nodup).2 fun c => (hcells c).trans (checCells_mem c).symm
  rw [hp.length_eq]
  decide +kernel

/-- pixels of 6 mm, modules 2 mm apart, numbered from the last to the first by the simulation; the camera mapping is column by column -/
example : ∃ r, openSim (α := List ℚ) (β := ℚ) 48 48 (rowsOf checCells) (columnsOf checCells)
    (fun _ => getRowColumn (checCells.reverse.map (checPosition 6 2)))
    [⟨[1], fun _ => some (2048, 128), fun _ => some (List.replicate 2048 [1, 2]), fun _ => some (List.replicate 2048 7)⟩] = .ok r ∧
    ∀ c, checCells[0]? = some c → checCells.reverse[2047]? = some c := by
  have hnd := List.nodup_reverse.2 checCells_nodup
  have hc : ∀ c, c ∈ checCells.reverse ↔ OnChec c := fun c => List.mem_reverse.trans (checCells_mem c)
  obtain ⟨r, h, _⟩ := C181_events (α := List ℚ) (β := ℚ) 6 2 (by norm_num) (by norm_num) checCells.reverse hnd hc checCells (fun c h => (checCells_mem c).1 h)
    (fun _ => checCells.reverse.map (checPosition 6 2))
    ⟨[1], fun _ => some (2048, 128), fun _ => some (List.replicate 2048 [1, 2]), fun _ => some (List.replicate 2048 7)⟩ [] 1 [] 128 rfl
    (by rw [C181_pixels _ hnd hc]) rfl
  refine ⟨r, h, fun c hc0 => ?_⟩
  have hl := C181_pixels _ checCells_nodup checCells_mem
  rw [List.getElem?_reverse (by omega), hl]
  exact hc0

end Verif.Props
