import Verif.Spec.WaveformUtils
import Verif.Lemmas.Shift
import Verif.Lemmas.Dl1

namespace Verif.Lemmas

open Verif.Py Verif.Model Verif.Spec

theorem cutRows_regular (np m : Nat) (rows : List (List ℚ)) (h : Regular np m rows) :
    cutRows np m rows = .ok (rows.map (List.take m)) := by
  unfold cutRows
  rw [mapM_ok _ _ (List.take m)]
  · simp only
    exact broadcastTo_eq _ _ (by simp [h.1])
  · intro r hr
    have : sliceList r none (some (m : Int)) = r.take m := by
      have := h.2 r hr
      unfold sliceList clampIndex
      have hneg : ¬ ((m : Int) < 0) := by omega
      simp [hneg]
      try omega
    rw [this]
    exact broadcastTo_eq _ _ (by simp [h.2 r hr])

theorem sum_map_set {α : Type} (f : α → ℚ) (l : List α) (i : Nat) (a b : α) (h : l[i]? = some a) :
    ((l.set i b).map f).sum = (l.map f).sum - f a + f b := by
  induction l generalizing i with
  | nil => simp at h
  | cons x l ih =>
    cases i with
    | zero => simp at h; subst h; simp; ring
    | succ i =>
      simp at h
      rw [List.set_cons_succ, List.map_cons, List.sum_cons, ih i h, List.map_cons, List.sum_cons]; ring

/-- the sum stored for pixel `p` in an entry -/
def entrySum (p : Nat) (entry : List (List ℚ)) : ℚ := (entry.getD p []).sum

theorem entrySum_cut (p m : Nat) (rows : List (List ℚ)) : entrySum p (rows.map (List.take m)) = headSum m rows p := by
  unfold entrySum headSum
  congr 1
  simp only [List.getD_eq_getElem?_getD, List.getElem?_map]
  cases rows[p]? <;> simp

structure RingInv (np n m : Nat) (buf0 : List (List (List ℚ))) (hist : List (List (List ℚ))) (b : Baseline) : Prop where
  nBase : b.nBase = n
  nBaseSamples : b.nBaseSamples = m
  nPixels : b.nPixels = np
  iev : b.iev = hist.length
  len : b.buffer.length = n
  recent : ∀ (i : Nat) (w : List (List ℚ)), hist.length < i + n + 1 → hist[i]? = some w →
    b.buffer[i % n]? = some (w.map (List.take m))
  old : ∀ j, hist.length ≤ j → j < n → b.buffer[j]? = buf0[j]?
  sums : ∀ p, (b.buffer.map (entrySum p)).sum = ((hist.drop (hist.length - n)).map fun w => headSum m w p).sum
    + ((buf0.drop hist.length).map (entrySum p)).sum
  mean : b.baseline = bufferMean n m np b.buffer

theorem ring_step (np n m : Nat) (hn : 0 < n) (buf0 : List (List (List ℚ))) (h0 : buf0.length = n)
    (hist : List (List (List ℚ))) (b : Baseline) (h : RingInv np n m buf0 hist b) (w : List (List ℚ))
    (hw : Regular np m w) : ∃ b', b.update w = .ok b' ∧ RingInv np n m buf0 (hist ++ [w]) b' := by
  unfold Baseline.update
  rw [if_neg (by rw [h.nBase]; omega), h.nPixels, h.nBaseSamples, cutRows_regular np m w hw]
  simp only [h.nBase, h.iev]
  refine ⟨_, rfl, ?_⟩
  have hmod : hist.length % n < n := Nat.mod_lt _ hn
  obtain ⟨oldv, hold⟩ : ∃ v, b.buffer[hist.length % n]? = some v :=
    ⟨_, List.getElem?_eq_getElem (by rw [h.len]; exact hmod)⟩
  refine ⟨rfl, rfl, rfl, by simp, by simp [h.len], ?_, ?_, ?_, rfl⟩
  · intro i v hi hv
    simp only [List.length_append, List.length_singleton] at hi
    by_cases hlast : i = hist.length
    · subst hlast
      simp at hv
      subst hv
      rw [List.getElem?_set_self (by rw [h.len]; exact hmod)]
    · have hlt : i < hist.length := by
        have := (List.getElem?_eq_some_iff.1 hv).1
        simp at this; omega
      rw [List.getElem?_append_left hlt] at hv
      rw [List.getElem?_set_ne]
      · exact h.recent i v (by omega) hv
      · intro heq
        have hd : (hist.length - i) % n = 0 := (Nat.sub_mod_eq_zero_of_mod_eq heq)
        have : n ≤ hist.length - i := Nat.le_of_dvd (by omega) (Nat.dvd_of_mod_eq_zero hd)
        omega
  · intro j hj hjn
    simp only [List.length_append, List.length_singleton] at hj
    rw [List.getElem?_set_ne]
    · exact h.old j (by omega) hjn
    · rw [Nat.mod_eq_of_lt (by omega)]; omega
  · intro p
    simp only [List.length_append, List.length_singleton]
    rw [sum_map_set (entrySum p) _ _ oldv _ hold, h.sums p, entrySum_cut]
    by_cases hk : hist.length < n
    · have h1 : hist.length - n = 0 := by omega
      have h2 : hist.length + 1 - n = 0 := by omega
      rw [Nat.mod_eq_of_lt hk, h.old _ (Nat.le_refl _) hk] at hold
      rw [h1, h2]
      have h3 : buf0.drop hist.length = oldv :: buf0.drop (hist.length + 1) := by
        obtain ⟨hh, he⟩ := List.getElem?_eq_some_iff.1 hold
        rw [List.drop_eq_getElem_cons hh, he]
      rw [h3]
      simp only [List.drop_zero, List.map_append, List.sum_append, List.map_cons, List.sum_cons, List.map_nil, List.sum_nil]
      ring
    · obtain ⟨v, hv⟩ : ∃ v, hist[hist.length - n]? = some v := ⟨_, List.getElem?_eq_getElem (by omega)⟩
      have h4 := h.recent (hist.length - n) v (by omega) hv
      rw [show (hist.length - n) % n = hist.length % n from (Nat.mod_eq_sub_mod (by omega)).symm, hold] at h4
      simp at h4
      subst h4
      rw [entrySum_cut]
      have h3 : hist.drop (hist.length - n) = v :: hist.drop (hist.length - n + 1) := by
        obtain ⟨hh, he⟩ := List.getElem?_eq_some_iff.1 hv
        rw [List.drop_eq_getElem_cons hh, he]
      rw [h3, show hist.length + 1 - n = hist.length - n + 1 from by omega,
        List.drop_append_of_le_length (by omega), List.drop_of_length_le (by omega : buf0.length ≤ hist.length + 1),
        List.drop_of_length_le (by omega : buf0.length ≤ hist.length)]
      simp only [List.map_append, List.sum_append, List.map_cons, List.sum_cons, List.map_nil, List.sum_nil]
      ring

/-- the buffer after initialisation from a numbered source -/
theorem fillBuffer_spec (np n m : Nat) (es : List WfEvent) (k : Nat) (buf : List (List (List ℚ)))
    (hb : buf.length = n) (hnum : ∀ j (h : j < es.length), es[j].iev = k + j) (hr : ∀ e ∈ es.take (n - k), Regular np m e.rows) :
    ∃ buf', fillBuffer n np m buf es = .ok buf' ∧ buf'.length = n ∧
      ∀ j, j < n → buf'[j]? = if k ≤ j ∧ j < k + es.length then (es[j - k]?).map (fun e => e.rows.map (List.take m)) else buf[j]? := by
  induction es generalizing k buf with
  | nil => exact ⟨buf, rfl, hb, fun j hj => by simp⟩
  | cons e es ih =>
    have h0 : e.iev = k := hnum 0 (by simp)
    unfold fillBuffer
    by_cases hk : e.iev ≥ n
    · rw [if_pos hk]
      exact ⟨buf, rfl, hb, fun j hj => by rw [if_neg (by omega)]⟩
    · rw [if_neg hk]
      have hnk : n - k = (n - (k + 1)) + 1 := by omega
      rw [hnk] at hr
      rw [cutRows_regular np m e.rows (hr e (by simp))]
      obtain ⟨buf', h1, h2, h3⟩ := ih (k + 1) (buf.set e.iev (e.rows.map (List.take m))) (by simp [hb])
        (fun j hj => by
          have := hnum (j + 1) (by simpa using hj)
          simp at this; omega)
        (fun e' he' => hr e' (by simp [he']))
      refine ⟨buf', h1, h2, fun j hj => ?_⟩
      rw [h3 j hj]
      by_cases hjk : j = k
      · subst hjk
        rw [if_neg (by omega), if_pos (by simp), h0, List.getElem?_set_self (by omega)]
        simp
      · by_cases hc : k + 1 ≤ j ∧ j < k + 1 + es.length
        · rw [if_pos hc, if_pos (by simp; omega)]
          rw [show j - k = j - (k + 1) + 1 from by omega, List.getElem?_cons_succ]
        · rw [if_neg hc, if_neg (by simp; omega), List.getElem?_set_ne (by omega)]

theorem init_spec (np n m : Nat) (hn : 0 < n) (source : List WfEvent) (hnum : Numbered source)
    (hr : ∀ e ∈ source.take n, Regular np m e.rows) :
    ∃ b, Baseline.init np source n m = .ok b ∧ RingInv np n m b.buffer [] b ∧ b.buffer.length = n ∧
      ∀ p k, ((b.buffer.drop k).map (entrySum p)).sum = (((source.take n).drop k).map fun e => headSum m e.rows p).sum := by
  obtain ⟨buf, h1, h2, h3⟩ := fillBuffer_spec np n m source 0
    (List.replicate n (List.replicate np (List.replicate m 0))) (by simp)
    (fun j h => by simpa using hnum j h) (by simpa using hr)
  unfold Baseline.init
  rw [h1]
  refine ⟨_, rfl, ⟨rfl, rfl, rfl, rfl, h2, by simp, by simp, by simp, rfl⟩, h2, ?_⟩
  intro p k
  have hz : ∀ (j : Nat), entrySum p (List.replicate np (List.replicate m (0 : ℚ))) = 0 := by
    intro _
    unfold entrySum
    rw [List.getD_eq_getElem?_getD, List.getElem?_replicate]
    split <;> simp
  have hbuf : buf = (source.take n).map (fun e => e.rows.map (List.take m))
      ++ List.replicate (n - source.length) (List.replicate np (List.replicate m 0)) := by
    apply List.ext_getElem?
    intro j
    by_cases hj : j < n
    · rw [h3 j hj]
      by_cases hs : j < source.length
      · rw [if_pos (by omega), List.getElem?_append_left (by simp; omega), List.getElem?_map,
          List.getElem?_take_of_lt hj, Nat.sub_zero]
      · rw [if_neg (by omega), List.getElem?_append_right (by simp; omega), List.getElem?_replicate,
          List.getElem?_replicate, if_pos hj, if_pos (by simp; omega)]
    · rw [List.getElem?_eq_none (by omega), List.getElem?_eq_none (by simp; omega)]
  simp only
  rw [hbuf, List.drop_append, List.map_append, List.sum_append, ← List.map_drop, List.map_map,
    List.drop_replicate, List.map_replicate, hz 0]
  rw [show (List.replicate (n - source.length - (k - (List.map (fun e => e.rows.map (List.take m)) (source.take n)).length)) (0 : ℚ)).sum = 0 from by simp, add_zero]
  congr 1
  apply List.map_congr_left
  intro e _
  exact entrySum_cut p m e.rows

/-- the state after a history of calls -/
theorem subtractAll_spec (np n m : Nat) (hn : 0 < n) (buf0 : List (List (List ℚ))) (h0 : buf0.length = n)
    (ws : List (List (List ℚ))) (hist : List (List (List ℚ))) (b : Baseline) (h : RingInv np n m buf0 hist b)
    (hws : ∀ w ∈ ws, Regular np m w) :
    ∃ b' rs, b.subtractAll ws = .ok (b', rs) ∧ RingInv np n m buf0 (hist ++ ws) b' ∧ rs.length = ws.length ∧
      ∀ (k : Nat) (w : List (List ℚ)), ws[k]? = some w → ∃ bk, RingInv np n m buf0 (hist ++ ws.take (k + 1)) bk ∧
        rs[k]? = some (subtractRows w bk.baseline) := by
  induction ws generalizing hist b with
  | nil => exact ⟨b, [], rfl, by simpa using h, rfl, by simp⟩
  | cons w ws ih =>
    obtain ⟨b1, h1, h2⟩ := ring_step np n m hn buf0 h0 hist b h w (hws w (by simp))
    obtain ⟨b', rs, g1, g2, g3, g4⟩ := ih (hist ++ [w]) b1 h2 (fun v hv => hws v (by simp [hv]))
    refine ⟨b', subtractRows w b1.baseline :: rs, ?_, by simpa using g2, by simp [g3], ?_⟩
    · unfold Baseline.subtractAll Baseline.subtract
      simp only [h1, g1]
    · intro k v hk
      cases k with
      | zero => simp at hk; subst hk; exact ⟨b1, by simpa using h2, rfl⟩
      | succ k =>
        obtain ⟨bk, e1, e2⟩ := g4 k v hk
        exact ⟨bk, by simpa using e1, e2⟩

theorem ring_baseline (np n m : Nat) (buf0 : List (List (List ℚ))) (source : List WfEvent)
    (hsrc : ∀ p k, ((buf0.drop k).map (entrySum p)).sum = (((source.take n).drop k).map fun e => headSum m e.rows p).sum)
    (hist : List (List (List ℚ))) (b : Baseline) (h : RingInv np n m buf0 hist b) :
    b.baseline = (List.range np).map fun p => rollingBaseline n m source hist p := by
  rw [h.mean]
  unfold bufferMean rollingBaseline
  apply List.map_congr_left
  intro p _
  have := h.sums p
  rw [hsrc p hist.length] at this
  change (b.buffer.map (entrySum p)).sum / _ = _
  rw [this]
  push_cast
  rfl

end Verif.Lemmas
