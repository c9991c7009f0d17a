import Verif.Lemmas.Baseline
import Mathlib.Tactic.FieldSimp
import Mathlib.Tactic.NormNum

namespace Verif.Lemmas

open Verif.Py Verif.Model Verif.Spec

theorem getElem?_grid (np n : Nat) (f : Nat → Nat → ℚ) (p : Nat) :
    (grid np n f)[p]? = if p < np then some ((List.range n).map fun j => f p j) else none := by
  unfold grid
  by_cases h : p < np
  · simp [h]
  · rw [if_neg h, List.getElem?_eq_none (by simp; omega)]

theorem grid_ext (np n : Nat) (f : Nat → Nat → ℚ) (rows : List (List ℚ)) (h1 : rows.length = np)
    (h2 : ∀ (p : Nat) r, rows[p]? = some r → r.length = n ∧ ∀ j : Nat, j < n → r[j]? = some (f p j)) : rows = grid np n f := by
  apply List.ext_getElem?
  intro p
  rw [getElem?_grid]
  split
  · rename_i hp
    rw [List.getElem?_eq_getElem (by omega)]
    obtain ⟨a, b⟩ := h2 p _ (List.getElem?_eq_getElem (by omega))
    congr 1
    apply List.ext_getElem?
    intro j
    by_cases hj : j < n
    · rw [b j hj]; simp [hj]
    · rw [List.getElem?_eq_none (by omega), List.getElem?_eq_none (by simp; omega)]
  · rw [List.getElem?_eq_none (by omega)]

theorem colMeans_grid (np n : Nat) (f : Nat → Nat → ℚ) :
    colMeans n (grid np n f) = (List.range n).map fun j => ((List.range np).map fun p => f p j).sum / np := by
  unfold colMeans
  apply List.map_congr_left
  intro j hj
  have hj : j < n := by simpa using hj
  unfold mean column grid
  simp [Function.comp_def, hj]

theorem colMeans_getElem? (n : Nat) (rows : List (List ℚ)) (k : Nat) (hk : k < n) :
    (colMeans n rows)[k]? = some (pixelAverage rows k) := by
  unfold colMeans mean column pixelAverage
  simp [hk]

/-- shifting identical pulses to the target -/
theorem shiftWaveform_pulse (junk : Nat → Nat → ℚ) (np n : Nat) (q : Nat → Int → ℚ)
    (hpeak : ∀ k : Int, k ≠ 0 → shapeAverage np q k < shapeAverage np q 0) (t : Nat) (ht : t < n) (tShift : Int)
    (hz : ∀ p, ∀ k : Int, k < -t ∨ (n : Int) - t ≤ k → q p k = 0) :
    shiftWaveform junk n (grid np n fun p j => q p ((j : Int) - t)) tShift 0 =
      .ok (grid np n fun p j => q p ((j : Int) - tShift)) := by
  unfold shiftWaveform
  have harg : argmax (colMeans n (grid np n fun p j => q p ((j : Int) - t))) = .ok t := by
    rw [colMeans_grid]
    have hval : ∀ (k : Nat) y, ((List.range n).map fun (j : Nat) => ((List.range np).map fun p => q p ((j : Int) - t)).sum / (np : ℚ))[k]? = some y →
        y = shapeAverage np q ((k : Int) - t) := by
      intro k y hk
      rw [List.getElem?_map] at hk
      by_cases hkn : k < n
      · rw [List.getElem?_range hkn] at hk
        simp at hk
        rw [← hk]; rfl
      · rw [List.getElem?_eq_none (by simp; omega)] at hk
        simp at hk
    refine argmax_unique _ t (shapeAverage np q 0) ?_ ?_ ?_
    · rw [List.getElem?_map, List.getElem?_range ht]
      simp [shapeAverage]
    · intro k hk y hy
      rw [hval k y hy]
      exact hpeak _ (by omega)
    · intro k y hy
      rw [hval k y hy]
      by_cases hkt : k = t
      · subst hkt; simp
      · exact le_of_lt (hpeak _ (by omega))
  rw [harg]
  simp only
  obtain ⟨res, h1, h2, h3⟩ := shiftArray_spec junk (grid np n fun p j => q p ((j : Int) - t)) (tShift - t) 0
  rw [h1]
  congr 1
  apply grid_ext
  · rw [h2]; simp [grid]
  · intro p r hr
    have hp : p < np := by
      have := (List.getElem?_eq_some_iff.1 hr).1
      rw [h2] at this; simpa [grid] using this
    obtain ⟨row', g1, g2, g3⟩ := h3 p _ (by rw [getElem?_grid, if_pos hp])
    rw [hr] at g1
    cases g1
    simp only [List.length_map, List.length_range] at g2 g3
    refine ⟨g2, fun j hj => ?_⟩
    rw [g3 j hj]
    split
    · rename_i hc
      rw [List.getElem?_map, List.getElem?_range (by omega)]
      simp only [Option.map_some, Option.some.injEq]
      congr 1
      omega
    · rename_i hc
      rw [hz p _ (by omega)]

/-- the constant part of a pulse event is found by the baseline -/
theorem headSum_pulse (np n m : Nat) (ped : Nat → ℚ) (q : Nat → Int → ℚ) (t : Nat) (hm : m ≤ n)
    (hz : ∀ p, ∀ k : Int, k < (m : Int) - t → q p k = 0) (p : Nat) (hp : p < np) :
    headSum m (grid np n fun p j => ped p + q p ((j : Int) - t)) p = m * ped p := by
  unfold headSum
  rw [List.getD_eq_getElem?_getD, getElem?_grid, if_pos hp]
  simp only [Option.getD_some]
  rw [← List.map_take, List.take_range, Nat.min_eq_left hm]
  rw [List.map_congr_left (g := fun _ => ped p) (fun j hj => by
    have : j < m := by simpa using hj
    rw [hz p _ (by omega)]; simp)]
  simp

theorem sum_const (α : Type) (l : List α) (f : α → ℚ) (c : ℚ) (h : ∀ x ∈ l, f x = c) : (l.map f).sum = l.length * c := by
  rw [List.map_congr_left (g := fun _ => c) h]; simp

/-- a source all of whose events have the same pedestal keeps it as baseline -/
theorem rollingBaseline_const (n m : Nat) (hn : 0 < n) (hm : 0 < m) (source : List WfEvent) (ws : List (List (List ℚ)))
    (p : Nat) (c : ℚ) (hc : c = 0 ∨ n ≤ source.length) (hs : ∀ e ∈ source, headSum m e.rows p = m * c)
    (hw : ∀ w ∈ ws, headSum m w p = m * c) : rollingBaseline n m source ws p = c := by
  unfold rollingBaseline
  rw [sum_const _ _ _ (m * c) (fun w h => hw w (List.mem_of_mem_drop h)),
    sum_const _ _ _ (m * c) (fun e h => hs e (List.mem_of_mem_take (List.mem_of_mem_drop h)))]
  have hm' : (m : ℚ) ≠ 0 := by exact_mod_cast (by omega : m ≠ 0)
  have hn' : (n : ℚ) ≠ 0 := by exact_mod_cast (by omega : n ≠ 0)
  rcases hc with rfl | hc
  · simp
  · rw [← add_mul, ← Nat.cast_add,
      show (ws.drop (ws.length - n)).length + ((source.take n).drop ws.length).length = n from by
        simp; omega]
    field_simp

theorem subtractRows_grid (np n : Nat) (f : Nat → Nat → ℚ) (b : Nat → ℚ) :
    subtractRows (grid np n f) ((List.range np).map b) = grid np n fun p j => f p j - b p := by
  apply grid_ext
  · simp [subtractRows, grid]
  · intro p r hr
    unfold subtractRows grid at hr
    rw [List.zipWith_map, List.zipWith_self] at hr
    rw [List.getElem?_map] at hr
    by_cases hp : p < np
    · rw [List.getElem?_range hp] at hr
      simp at hr
      subst hr
      refine ⟨by simp, fun j hj => by simp [hj]⟩
    · rw [List.getElem?_eq_none (by simp; omega)] at hr
      simp at hr

structure PulseEvents (np n : Nat) (ped : Nat → ℚ) (q : Nat → Int → ℚ) (es : List WfEvent) : Prop where
  ev : ∀ e ∈ es, ∃ t : Nat, t < n ∧ e.rows = grid np n (fun p j => ped p + q p ((j : Int) - t)) ∧
    ∀ p, ∀ k : Int, k < 16 - (t : Int) ∨ (n : Int) - t ≤ k → q p k = 0

theorem regular_grid (np n m : Nat) (f : Nat → Nat → ℚ) (h : m ≤ n) : Regular np m (grid np n f) := by
  refine ⟨by simp [grid], fun r hr => ?_⟩
  simp only [grid, List.mem_map] at hr
  obtain ⟨p, -, rfl⟩ := hr
  simpa using h

/-- one event of the averaging loops -/
theorem pulse_event (junk : Nat → Nat → ℚ) (np n : Nat) (ped : Nat → ℚ) (q : Nat → Int → ℚ)
    (hpeak : ∀ k : Int, k ≠ 0 → shapeAverage np q k < shapeAverage np q 0) (hn : 16 ≤ n) (tShift : Int)
    (source : List WfEvent) (hsrc : PulseEvents np n ped q source) (hped : (∀ p < np, ped p = 0) ∨ 50 ≤ source.length)
    (buf0 : List (List (List ℚ))) (h0 : buf0.length = 50)
    (hbuf : ∀ p k, ((buf0.drop k).map (entrySum p)).sum = (((source.take 50).drop k).map fun e => headSum 16 e.rows p).sum)
    (hist : List WfEvent) (hh : PulseEvents np n ped q hist) (e : WfEvent) (he : PulseEvents np n ped q [e])
    (b : Baseline) (hb : RingInv np 50 16 buf0 (hist.map (·.rows)) b) :
    ∃ b' wf, b.subtract e.rows = .ok (b', wf) ∧ RingInv np 50 16 buf0 ((hist ++ [e]).map (·.rows)) b' ∧
      shiftWaveform junk n wf tShift 0 = .ok (grid np n fun p j => q p ((j : Int) - tShift)) := by
  obtain ⟨t, ht, hrows, hz⟩ := he.ev e (by simp)
  have hreg : Regular np 16 e.rows := by rw [hrows]; exact regular_grid np n 16 _ hn
  obtain ⟨b', g1, g2⟩ := ring_step np 50 16 (by omega) buf0 h0 _ b hb e.rows hreg
  have g2' : RingInv np 50 16 buf0 ((hist ++ [e]).map (·.rows)) b' := by simpa using g2
  have hpe : ∀ e' p, p < np → (e' ∈ source ∨ e' ∈ hist ++ [e]) → headSum 16 e'.rows p = (16 : Nat) * ped p := by
    intro e' p hp he'
    have : ∃ t : Nat, t < n ∧ e'.rows = grid np n (fun p j => ped p + q p ((j : Int) - t)) ∧
        ∀ p, ∀ k : Int, k < 16 - (t : Int) ∨ (n : Int) - t ≤ k → q p k = 0 := by
      rcases he' with he' | he'
      · exact hsrc.ev e' he'
      · rw [List.mem_append] at he'
        rcases he' with he' | he'
        · exact hh.ev e' he'
        · exact he.ev e' he'
    obtain ⟨t', ht', hr', hz'⟩ := this
    rw [hr']
    exact headSum_pulse np n 16 ped q t' hn (fun p k hk => hz' p k (Or.inl (by exact_mod_cast hk))) p hp
  have hbl : b'.baseline = (List.range np).map ped := by
    rw [ring_baseline np 50 16 buf0 source hbuf _ b' g2']
    apply List.map_congr_left
    intro p hp
    have hp : p < np := by simpa using hp
    apply rollingBaseline_const 50 16 (by omega) (by omega)
    · rcases hped with h | h
      · exact Or.inl (h p hp)
      · exact Or.inr h
    · intro e' he'; exact hpe e' p hp (Or.inl he')
    · intro w hw
      obtain ⟨e', he', rfl⟩ := List.mem_map.1 hw
      exact hpe e' p hp (Or.inr he')
  refine ⟨b', subtractRows e.rows b'.baseline, by unfold Baseline.subtract; rw [g1], g2', ?_⟩
  rw [hbl, hrows, subtractRows_grid]
  have : (fun p (j : Nat) => ped p + q p ((j : Int) - t) - ped p) = fun p (j : Nat) => q p ((j : Int) - t) := by
    funext p j; ring
  rw [this]
  exact shiftWaveform_pulse junk np n q hpeak t ht tShift (fun p k hk => hz p k (by omega))

theorem addRow_map (n : Nat) (f g : Nat → ℚ) :
    addRow ((List.range n).map f) ((List.range n).map g) = (List.range n).map fun j => f j + g j := by
  unfold addRow
  rw [List.zipWith_map, List.zipWith_self]

section loops
variable (junk : Nat → Nat → ℚ) (np n : Nat) (ped : Nat → ℚ) (q : Nat → Int → ℚ)
    (hpeak : ∀ k : Int, k ≠ 0 → shapeAverage np q k < shapeAverage np q 0) (hn : 16 ≤ n) (tShift : Int)
    (source : List WfEvent) (hsrc : PulseEvents np n ped q source) (hped : (∀ p < np, ped p = 0) ∨ 50 ≤ source.length)
    (buf0 : List (List (List ℚ))) (h0 : buf0.length = 50)
    (hbuf : ∀ p k, ((buf0.drop k).map (entrySum p)).sum = (((source.take 50).drop k).map fun e => headSum 16 e.rows p).sum)
include hpeak hn hsrc hped h0 hbuf

theorem averageLoop_spec (es hist : List WfEvent) (hh : PulseEvents np n ped q hist) (he : PulseEvents np n ped q es)
    (b : Baseline) (hb : RingInv np 50 16 buf0 (hist.map (·.rows)) b) (k : Nat) :
    averageLoop junk n tShift b ((List.range n).map fun (j : Nat) => (k : ℚ) * shapeAverage np q ((j : Int) - tShift)) k es =
      .ok ((List.range n).map fun (j : Nat) => ((k + es.length : Nat) : ℚ) * shapeAverage np q ((j : Int) - tShift), k + es.length) := by
  induction es generalizing hist b k with
  | nil => rfl
  | cons e es ih =>
    have he1 : PulseEvents np n ped q [e] := ⟨fun e' h => he.ev e' (by simp at h; simp [h])⟩
    obtain ⟨b', wf, g1, g2, g3⟩ := pulse_event junk np n ped q hpeak hn tShift source hsrc hped buf0 h0 hbuf hist hh e he1 b hb
    unfold averageLoop
    simp only [g1, g3]
    rw [colMeans_grid]
    rw [addRow_map]
    have := ih (hist ++ [e]) ⟨fun e' h => by
        rw [List.mem_append] at h
        rcases h with h | h
        · exact hh.ev e' h
        · exact he1.ev e' h⟩ ⟨fun e' h => he.ev e' (by simp [h])⟩ b' g2 (k + 1)
    rw [show k + (e :: es).length = k + 1 + es.length from by simp; omega, ← this]
    congr 2
    funext j
    simp only [shapeAverage]
    push_cast
    ring

theorem averagePixelLoop_spec (es hist : List WfEvent) (hh : PulseEvents np n ped q hist) (he : PulseEvents np n ped q es)
    (b : Baseline) (hb : RingInv np 50 16 buf0 (hist.map (·.rows)) b) (k : Nat) :
    averagePixelLoop junk n tShift b (grid np n fun p j => (k : ℚ) * q p ((j : Int) - tShift)) k es =
      .ok (grid np n fun p j => ((k + es.length : Nat) : ℚ) * q p ((j : Int) - tShift), k + es.length) := by
  induction es generalizing hist b k with
  | nil => rfl
  | cons e es ih =>
    have he1 : PulseEvents np n ped q [e] := ⟨fun e' h => he.ev e' (by simp at h; simp [h])⟩
    obtain ⟨b', wf, g1, g2, g3⟩ := pulse_event junk np n ped q hpeak hn tShift source hsrc hped buf0 h0 hbuf hist hh e he1 b hb
    unfold averagePixelLoop
    simp only [g1, g3]
    have := ih (hist ++ [e]) ⟨fun e' h => by
        rw [List.mem_append] at h
        rcases h with h | h
        · exact hh.ev e' h
        · exact he1.ev e' h⟩ ⟨fun e' h => he.ev e' (by simp [h])⟩ b' g2 (k + 1)
    rw [show k + (e :: es).length = k + 1 + es.length from by simp; omega, ← this]
    congr 1
    unfold grid
    rw [List.zipWith_map, List.zipWith_self]
    apply List.map_congr_left
    intro p _
    rw [addRow_map]
    apply List.map_congr_left
    intro j _
    push_cast
    ring
end loops

end Verif.Lemmas
