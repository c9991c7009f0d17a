import Verif.Lemmas.Baseline
import Mathlib.Tactic.Ring
import Mathlib.Tactic.FieldSimp

/-!
# Pedestals and baseline subtraction (C130)
-/

namespace Verif.Props

open Verif.Py Verif.Model Verif.Spec Verif.Lemmas

/-- the same waveforms on top of a pedestal in each pixel -/
def lifted (ped : Nat → ℚ) (rows : List (List ℚ)) : List (List ℚ) := rows.mapIdx fun p r => r.map (· + ped p)

/-- every event of a source on top of the pedestals -/
def liftedSource (ped : Nat → ℚ) (source : List WfEvent) : List WfEvent := source.map fun e => ⟨e.iev, lifted ped e.rows⟩

theorem regular_lifted (ped : Nat → ℚ) (np m : Nat) (rows : List (List ℚ)) (h : Regular np m rows) : Regular np m (lifted ped rows) := by
  refine ⟨by simp [lifted, h.1], fun r hr => ?_⟩
  obtain ⟨i, hi⟩ := List.mem_iff_getElem?.1 hr
  simp only [lifted, List.getElem?_mapIdx] at hi
  cases hr' : rows[i]? with
  | none => rw [hr'] at hi; cases hi
  | some r' =>
    rw [hr'] at hi
    obtain rfl := Option.some.inj hi
    rw [List.length_map]
    exact h.2 r' (List.mem_of_getElem? hr')

theorem sum_map_add_const (l : List ℚ) (c : ℚ) : (l.map (· + c)).sum = l.sum + l.length * c := by
  induction l with
  | nil => simp
  | cons x l ih => rw [List.map_cons, List.sum_cons, ih]; simp; ring

theorem headSum_lifted (ped : Nat → ℚ) (np m : Nat) (rows : List (List ℚ)) (h : Regular np m rows) (p : Nat) (hp : p < np) :
    headSum m (lifted ped rows) p = headSum m rows p + m * ped p := by
  obtain ⟨r, hr⟩ : ∃ r, rows[p]? = some r := ⟨_, List.getElem?_eq_getElem (by rw [h.1]; exact hp)⟩
  have hm := h.2 r (List.mem_of_getElem? hr)
  unfold headSum lifted
  simp only [List.getD_eq_getElem?_getD, List.getElem?_mapIdx, hr, Option.map_some, Option.getD_some]
  rw [← List.map_take, sum_map_add_const, List.length_take, Nat.min_eq_left hm]

theorem sum_map_add_const' {α : Type} (l : List α) (f g : α → ℚ) (c : ℚ) (h : ∀ x ∈ l, f x = g x + c) : (l.map f).sum = (l.map g).sum + l.length * c := by
  induction l with
  | nil => simp
  | cons x l ih =>
    rw [List.map_cons, List.sum_cons, h x (by simp), ih (fun y hy => h y (by simp [hy]))]
    simp
    ring

/-- how many of the `n` places of the buffer hold an event: the `k` events seen and the events of the source before them -/
def heldEvents (n N k : Nat) : Nat := max (min k n) (min N n)

theorem rollingBaseline_lifted (ped : Nat → ℚ) (np n m : Nat) (hn : 0 < n) (hm : 0 < m) (source : List WfEvent) (ws : List (List (List ℚ)))
    (hsrc : ∀ e ∈ source, Regular np m e.rows) (hws : ∀ w ∈ ws, Regular np m w) (p : Nat) (hp : p < np) :
    rollingBaseline n m (liftedSource ped source) (ws.map (lifted ped)) p =
      rollingBaseline n m source ws p + ped p * heldEvents n source.length ws.length / n := by
  unfold rollingBaseline liftedSource
  rw [List.length_map, ← List.map_drop, ← List.map_take, ← List.map_drop, List.map_map, List.map_map,
    sum_map_add_const' (ws.drop (ws.length - n)) _ (fun w => headSum m w p) (m * ped p) (fun w hw => by
      exact headSum_lifted ped np m w (hws w (List.mem_of_mem_drop hw)) p hp),
    sum_map_add_const' ((source.take n).drop ws.length) _ (fun e => headSum m e.rows p) (m * ped p) (fun e he => by
      exact headSum_lifted ped np m e.rows (hsrc e (List.mem_of_mem_take (List.mem_of_mem_drop he))) p hp)]
  have hm' : (m : ℚ) ≠ 0 := by exact_mod_cast (by omega : m ≠ 0)
  have hn' : (n : ℚ) ≠ 0 := by exact_mod_cast (by omega : n ≠ 0)
  have hcount : heldEvents n source.length ws.length = (ws.drop (ws.length - n)).length + ((source.take n).drop ws.length).length := by
    unfold heldEvents
    simp only [List.length_drop, List.length_take]
    omega
  rw [hcount]
  push_cast
  field_simp
  ring

/-- **C130**, what a pedestal leaves behind: of the pedestal of a pixel the fraction of the buffer which does not hold events, whatever was subtracted before -/
theorem C130_left (ped : Nat → ℚ) (np n m : Nat) (hn : 0 < n) (hm : 0 < m) (source : List WfEvent) (hnum : Numbered source)
    (hsrc : ∀ e ∈ source, Regular np m e.rows) (ws : List (List (List ℚ))) (hws : ∀ w ∈ ws, Regular np m w) :
    ∃ b0 b rs b0' b' rs', Baseline.init np source n m = .ok b0 ∧ b0.subtractAll ws = .ok (b, rs) ∧
      Baseline.init np (liftedSource ped source) n m = .ok b0' ∧ b0'.subtractAll (ws.map (lifted ped)) = .ok (b', rs') ∧
      rs.length = ws.length ∧ rs'.length = ws.length ∧
      ∀ (k : Nat) (r : List (List ℚ)), rs[k]? = some r →
        rs'[k]? = some (lifted (fun p => ped p * (1 - heldEvents n source.length (k + 1) / n)) r) := by
  have hnum' : Numbered (liftedSource ped source) := by
    intro j h
    have h' : j < source.length := by simpa [liftedSource] using h
    simpa [liftedSource] using hnum j h'
  have hsrc' : ∀ e ∈ liftedSource ped source, Regular np m e.rows := by
    intro e he
    obtain ⟨e0, he0, rfl⟩ := List.mem_map.1 he
    exact regular_lifted ped np m _ (hsrc e0 he0)
  have hws' : ∀ w ∈ ws.map (lifted ped), Regular np m w := by
    intro w hw
    obtain ⟨w0, hw0, rfl⟩ := List.mem_map.1 hw
    exact regular_lifted ped np m _ (hws w0 hw0)
  obtain ⟨b0, h1, h2, h3, h4⟩ := init_spec np n m hn source hnum (fun e he => hsrc e (List.mem_of_mem_take he))
  obtain ⟨b, rs, g1, g2, g3, g4⟩ := subtractAll_spec np n m hn b0.buffer h3 ws [] b0 h2 hws
  obtain ⟨b0', h1', h2', h3', h4'⟩ := init_spec np n m hn _ hnum' (fun e he => hsrc' e (List.mem_of_mem_take he))
  obtain ⟨b', rs', g1', g2', g3', g4'⟩ := subtractAll_spec np n m hn b0'.buffer h3' _ [] b0' h2' hws'
  refine ⟨b0, b, rs, b0', b', rs', h1, g1, h1', g1', g3, by rw [g3', List.length_map], ?_⟩
  intro k r hr
  have hk : k < ws.length := by rw [← g3]; exact (List.getElem?_eq_some_iff.1 hr).1
  obtain ⟨w, hw⟩ : ∃ w, ws[k]? = some w := ⟨_, List.getElem?_eq_getElem hk⟩
  obtain ⟨bk, r1, r2⟩ := g4 k w hw
  obtain ⟨bk', r1', r2'⟩ := g4' k (lifted ped w) (by rw [List.getElem?_map, hw]; rfl)
  rw [hr] at r2
  obtain rfl := Option.some.inj r2
  rw [r2']
  congr 1
  rw [ring_baseline np n m b0.buffer source h4 _ bk r1, ring_baseline np n m b0'.buffer _ h4' _ bk' r1']
  have hreg := hws w (List.mem_of_getElem? hw)
  apply List.ext_getElem?
  intro p
  unfold subtractRows lifted
  simp only [List.getElem?_mapIdx, List.getElem?_zipWith, List.getElem?_map]
  by_cases hp : p < np
  · obtain ⟨row, hrow⟩ : ∃ row, w[p]? = some row := ⟨_, List.getElem?_eq_getElem (by rw [hreg.1]; exact hp)⟩
    simp only [hrow, Option.map_some, List.getElem?_range hp]
    simp only [List.nil_append]
    have hroll := rollingBaseline_lifted ped np n m hn hm source (ws.take (k + 1)) hsrc (fun v hv => hws v (List.mem_of_mem_take hv)) p hp
    unfold lifted at hroll
    rw [← List.map_take, hroll, List.length_take, Nat.min_eq_left (by omega)]
    simp only [List.map_map]
    congr 1
    apply List.map_congr_left
    intro x _
    simp only [Function.comp]
    ring
  · rw [List.getElem?_eq_none (by rw [hreg.1]; omega : w.length ≤ p)]
    rfl

theorem lifted_zero (rows : List (List ℚ)) (ped : Nat → ℚ) (h : ∀ p, ped p = 0) : lifted ped rows = rows := by
  unfold lifted
  apply List.ext_getElem?
  intro p
  rw [List.getElem?_mapIdx]
  cases rows[p]? <;> simp [h]

/-- **C130**: with a source of at least `n` events the subtracted waveforms are the same with and without pedestals -/
theorem C130_gone (ped : Nat → ℚ) (np n m : Nat) (hn : 0 < n) (hm : 0 < m) (source : List WfEvent) (hnum : Numbered source) (hlen : n ≤ source.length)
    (hsrc : ∀ e ∈ source, Regular np m e.rows) (ws : List (List (List ℚ))) (hws : ∀ w ∈ ws, Regular np m w) :
    ∃ b0 b rs b0' b', Baseline.init np source n m = .ok b0 ∧ b0.subtractAll ws = .ok (b, rs) ∧
      Baseline.init np (liftedSource ped source) n m = .ok b0' ∧ b0'.subtractAll (ws.map (lifted ped)) = .ok (b', rs) := by
  obtain ⟨b0, b, rs, b0', b', rs', h1, h2, h3, h4, h5, h6, h7⟩ := C130_left ped np n m hn hm source hnum hsrc ws hws
  refine ⟨b0, b, rs, b0', b', h1, h2, h3, ?_⟩
  rw [h4]
  congr 2
  apply List.ext_getElem?
  intro k
  cases hr : rs[k]? with
  | none =>
    have : rs.length ≤ k := List.getElem?_eq_none_iff.1 hr
    exact List.getElem?_eq_none (by omega)
  | some r =>
    rw [h7 k r hr, lifted_zero]
    intro p
    have hn' : (n : ℚ) ≠ 0 := by exact_mod_cast (by omega : n ≠ 0)
    have : heldEvents n source.length (k + 1) = n := by unfold heldEvents; omega
    rw [this, div_self hn']
    ring

theorem subtractRows_lifted (np n m : Nat) (hn : 0 < n) (hm : 0 < m) (ped : Nat → ℚ) (source : List WfEvent) (hlen : n ≤ source.length)
    (hsrc : ∀ e ∈ source, Regular np m e.rows) (hist : List (List (List ℚ))) (hh : ∀ w ∈ hist, Regular np m w) (w : List (List ℚ)) (hw : Regular np m w) :
    subtractRows (lifted ped w) ((List.range np).map fun p => rollingBaseline n m (liftedSource ped source) (hist.map (lifted ped)) p) =
      subtractRows w ((List.range np).map fun p => rollingBaseline n m source hist p) := by
  apply List.ext_getElem?
  intro p
  unfold subtractRows lifted
  simp only [List.getElem?_mapIdx, List.getElem?_zipWith, List.getElem?_map]
  by_cases hp : p < np
  · obtain ⟨row, hrow⟩ : ∃ row, w[p]? = some row := ⟨_, List.getElem?_eq_getElem (by rw [hw.1]; exact hp)⟩
    simp only [hrow, Option.map_some, List.getElem?_range hp]
    have hc : heldEvents n source.length hist.length = n := by unfold heldEvents; omega
    have hn' : (n : ℚ) ≠ 0 := by exact_mod_cast (by omega : n ≠ 0)
    have := rollingBaseline_lifted ped np n m hn hm source hist hsrc hh p hp
    unfold lifted at this
    rw [this, hc, mul_div_assoc, div_self hn', mul_one, List.map_map]
    congr 1
    apply List.map_congr_left
    intro x _
    simp only [Function.comp]
    ring
  · rw [List.getElem?_eq_none (by rw [hw.1]; omega : w.length ≤ p)]
    rfl

/-- one event of the loops over a source, with and without pedestals -/
theorem subtract_both (ped : Nat → ℚ) (np n m : Nat) (hn : 0 < n) (hm : 0 < m) (source : List WfEvent) (hlen : n ≤ source.length)
    (hsrc : ∀ e ∈ source, Regular np m e.rows) (buf0 buf0' : List (List (List ℚ))) (h0 : buf0.length = n) (h0' : buf0'.length = n)
    (hb : ∀ p k, ((buf0.drop k).map (entrySum p)).sum = (((source.take n).drop k).map fun e => headSum m e.rows p).sum)
    (hb' : ∀ p k, ((buf0'.drop k).map (entrySum p)).sum = ((((liftedSource ped source).take n).drop k).map fun e => headSum m e.rows p).sum)
    (hist : List (List (List ℚ))) (hh : ∀ w ∈ hist, Regular np m w) (b b' : Baseline) (hr : RingInv np n m buf0 hist b)
    (hr' : RingInv np n m buf0' (hist.map (lifted ped)) b') (w : List (List ℚ)) (hw : Regular np m w) :
    ∃ c c' out, b.subtract w = .ok (c, out) ∧ b'.subtract (lifted ped w) = .ok (c', out) ∧ RingInv np n m buf0 (hist ++ [w]) c ∧
      RingInv np n m buf0' ((hist ++ [w]).map (lifted ped)) c' := by
  obtain ⟨c, e1, e2⟩ := ring_step np n m hn buf0 h0 hist b hr w hw
  obtain ⟨c', e1', e2'⟩ := ring_step np n m hn buf0' h0' _ b' hr' (lifted ped w) (regular_lifted ped np m w hw)
  rw [← List.map_singleton, ← List.map_append] at e2'
  have hreg : ∀ v ∈ hist ++ [w], Regular np m v := by
    intro v hv
    rcases List.mem_append.1 hv with hv | hv
    · exact hh v hv
    · rw [List.mem_singleton.1 hv]; exact hw
  refine ⟨c, c', subtractRows w c.baseline, ?_, ?_, e2, e2'⟩
  · unfold Baseline.subtract; rw [e1]
  · unfold Baseline.subtract
    rw [e1']
    simp only
    rw [ring_baseline np n m buf0 source hb _ c e2, ring_baseline np n m buf0' _ hb' _ c' e2',
      subtractRows_lifted np n m hn hm ped source hlen hsrc _ hreg w hw]

theorem both_start (ped : Nat → ℚ) (np : Nat) (source : List WfEvent) (hnum : Numbered source) (hsrc : ∀ e ∈ source, Regular np 16 e.rows) :
    ∃ b b', Baseline.init np source 50 16 = .ok b ∧ Baseline.init np (liftedSource ped source) 50 16 = .ok b' ∧
      RingInv np 50 16 b.buffer [] b ∧ RingInv np 50 16 b'.buffer [] b' ∧ b.buffer.length = 50 ∧ b'.buffer.length = 50 ∧
      (∀ p k, ((b.buffer.drop k).map (entrySum p)).sum = (((source.take 50).drop k).map fun e => headSum 16 e.rows p).sum) ∧
      ∀ p k, ((b'.buffer.drop k).map (entrySum p)).sum = ((((liftedSource ped source).take 50).drop k).map fun e => headSum 16 e.rows p).sum := by
  have hnum' : Numbered (liftedSource ped source) := by
    intro j h
    have h' : j < source.length := by simpa [liftedSource] using h
    simpa [liftedSource] using hnum j h'
  have hsrc' : ∀ e ∈ liftedSource ped source, Regular np 16 e.rows := by
    intro e he
    obtain ⟨e0, he0, rfl⟩ := List.mem_map.1 he
    exact regular_lifted ped np 16 _ (hsrc e0 he0)
  obtain ⟨b, h1, h2, h3, h4⟩ := init_spec np 50 16 (by omega) source hnum (fun e he => hsrc e (List.mem_of_mem_take he))
  obtain ⟨b', h1', h2', h3', h4'⟩ := init_spec np 50 16 (by omega) _ hnum' (fun e he => hsrc' e (List.mem_of_mem_take he))
  exact ⟨b, b', h1, h1', h2, h2', h3, h3', h4, h4'⟩

/-- **C130**: the average waveforms of a run of at least 50 events are the same with and without pedestals -/
theorem C130_average (junk : Nat → Nat → ℚ) (ped : Nat → ℚ) (np n : Nat) (source : List WfEvent) (hnum : Numbered source) (hlen : 50 ≤ source.length)
    (hsrc : ∀ e ∈ source, Regular np 16 e.rows) (tShift : Int) :
    getAverageWf junk np n (liftedSource ped source) tShift = getAverageWf junk np n source tShift ∧
    getAverageWfPerPixel junk np n (liftedSource ped source) tShift = getAverageWfPerPixel junk np n source tShift := by
  obtain ⟨b, b', h1, h1', h2, h2', h3, h3', h4, h4'⟩ := both_start ped np source hnum hsrc
  have loop : ∀ (es : List WfEvent) (hist : List (List (List ℚ))) (c c' : Baseline), (∀ e ∈ es, Regular np 16 e.rows) → (∀ w ∈ hist, Regular np 16 w) →
      RingInv np 50 16 b.buffer hist c → RingInv np 50 16 b'.buffer (hist.map (lifted ped)) c' →
      (∀ acc k, averageLoop junk n tShift c' acc k (liftedSource ped es) = averageLoop junk n tShift c acc k es) ∧
      ∀ acc k, averagePixelLoop junk n tShift c' acc k (liftedSource ped es) = averagePixelLoop junk n tShift c acc k es := by
    intro es
    induction es with
    | nil => exact fun _ _ _ _ _ _ _ => ⟨fun _ _ => rfl, fun _ _ => rfl⟩
    | cons e es ih =>
      intro hist c c' hes hh hc hc'
      obtain ⟨d, d', out, r1, r2, r3, r4⟩ := subtract_both ped np 50 16 (by omega) (by omega) source hlen hsrc b.buffer b'.buffer h3 h3' h4 h4'
        hist hh c c' hc hc' e.rows (hes e (by simp))
      obtain ⟨i1, i2⟩ := ih (hist ++ [e.rows]) d d' (fun e he => hes e (by simp [he]))
        (by
          intro v hv
          rcases List.mem_append.1 hv with hv | hv
          · exact hh v hv
          · rw [List.mem_singleton.1 hv]; exact hes e (by simp)) r3 r4
      constructor
      · intro acc k
        show averageLoop junk n tShift c' acc k (⟨e.iev, lifted ped e.rows⟩ :: liftedSource ped es) = _
        unfold averageLoop
        rw [r1, r2]
        simp only
        split
        · rfl
        · exact i1 _ _
      · intro acc k
        show averagePixelLoop junk n tShift c' acc k (⟨e.iev, lifted ped e.rows⟩ :: liftedSource ped es) = _
        unfold averagePixelLoop
        rw [r1, r2]
        simp only
        split
        · rfl
        · exact i2 _ _
  obtain ⟨l1, l2⟩ := loop source [] b b' hsrc (by simp) h2 h2'
  unfold getAverageWf getAverageWfPerPixel
  rw [h1, h1']
  simp only
  rw [l1, l2]
  exact ⟨rfl, rfl⟩

/-- what a fresh subtractor makes of some waveforms -/
def subtracted (np n m : Nat) (source : List WfEvent) (ws : List (List (List ℚ))) : Option (List (List (List ℚ))) :=
  match Baseline.init np source n m with
  | .error _ => none
  | .ok b => (b.subtractAll ws).toOption.map (·.2)

/-- two events of one pixel, a buffer of two, and the same on a pedestal of 7 -/
example : subtracted 1 2 2 [⟨0, [[1, 1, 5]]⟩, ⟨1, [[3, 3, 4]]⟩] [[[1, 1, 5]], [[3, 3, 4]]] = some [[[-1, -1, 3]], [[1, 1, 2]]] ∧
    subtracted 1 2 2 [⟨0, [[8, 8, 12]]⟩, ⟨1, [[10, 10, 11]]⟩] [[[8, 8, 12]], [[10, 10, 11]]] = some [[[-1, -1, 3]], [[1, 1, 2]]] := by
  decide +kernel

/-- a source of one event and a buffer of two: half of the pedestal of 8 is left -/
example : subtracted 1 2 2 [⟨0, [[1, 1, 5]]⟩] [[[1, 1, 5]]] = some [[[1/2, 1/2, 9/2]]] ∧
    subtracted 1 2 2 [⟨0, [[9, 9, 13]]⟩] [[[9, 9, 13]]] = some [[[9/2, 9/2, 17/2]]] ∧ heldEvents 2 1 1 = 1 := by
  decide +kernel

/-- a run of 50 equal events with a pulse -/
example : Numbered ((List.range 50).map fun i => ⟨i, [List.replicate 16 3 ++ [9]]⟩) ∧
    ∀ e ∈ (List.range 50).map (fun i => WfEvent.mk i [List.replicate 16 3 ++ [9]]), Regular 1 16 e.rows := by
  refine ⟨fun j h => by simp, fun e he => ?_⟩
  obtain ⟨i, -, rfl⟩ := List.mem_map.1 he
  refine ⟨rfl, fun r hr => ?_⟩
  rw [List.mem_singleton.1 hr]
  simp

end Verif.Props
