import Verif.Model.WaveformReader
import Verif.Spec.Slice
import Verif.Py.RangeLemmas

/-! # C01, C02, C03: event access of waveform readers -/

namespace Verif.Props

open Verif.Py Verif.Model Verif.Spec

variable {α : Type}

/-! ## C01 -/

/-- C01: integer indexing of a reader with `n ≥ 0` events: `i` in `0..n-1` gives event `i`, `i` in `-n..-1` gives event
`n+i`, anything else is an `IndexError`. -/
theorem C01_int_index (r : WfReader α) (n : Nat) (hn : r.nEvents = n) (i : Int) :
    (0 ≤ i → i < n → r.getItem (.int i) = .ok (.event (r.getEvent i))) ∧
    (i < 0 → -n ≤ i → r.getItem (.int i) = .ok (.event (r.getEvent (n + i)))) ∧
    ((i < -n ∨ n ≤ i) → r.getItem (.int i) = .error .indexError) := by
  refine ⟨?_, ?_, ?_⟩
  · intro h0 h1
    have a : ¬ i < 0 := by omega
    have b : ¬ (i ≥ (n : Int)) := by omega
    have c : ¬ ((n : Int) < 0) := by omega
    simp [WfReader.getItem, WfReader.getInt, WfReader.len, hn, a, b, c, Except.map, bind, Except.bind]
  · intro h0 h1
    have a : ¬ i + (n : Int) < 0 := by omega
    have b : ¬ (i + (n : Int) ≥ (n : Int)) := by omega
    have c : ¬ ((n : Int) < 0) := by omega
    rw [Int.add_comm (n : Int) i]
    simp only [WfReader.getItem, WfReader.getInt, WfReader.len, hn, h0, if_true, a, if_false, c, b, bind, Except.bind,
      Except.map]
  · intro h
    by_cases h0 : i < 0
    · have a : i + (n : Int) < 0 := by omega
      simp [WfReader.getItem, WfReader.getInt, hn, h0, a, Except.map]
    · have b : i ≥ (n : Int) := by omega
      have c : ¬ ((n : Int) < 0) := by omega
      simp [WfReader.getItem, WfReader.getInt, WfReader.len, hn, h0, b, c, Except.map, bind, Except.bind]

example : (⟨5, fun i => i * 10⟩ : WfReader Int).getItem (.int (-2)) = .ok (.event 30) := rfl
example : (⟨5, fun i => i * 10⟩ : WfReader Int).getItem (.int 5) = .error .indexError := rfl
example : (⟨5, fun i => i * 10⟩ : WfReader Int).getItem (.int (-6)) = .error .indexError := rfl

/-- C01: the file is only ever asked for events `0..n-1`: two readers that agree there answer every index (int, slice,
list, nested list) alike, also when `n_events` is negative. -/
theorem C01_only_valid_events (r r' : WfReader α) (hn : r.nEvents = r'.nEvents)
    (hev : ∀ i : Int, 0 ≤ i → i < r.nEvents → r.getEvent i = r'.getEvent i) (x : Idx) :
    r.getItem x = r'.getItem x := by
  have hint : ∀ i, r.getInt i = r'.getInt i := by
    intro i
    unfold WfReader.getInt WfReader.len
    rw [← hn]
    dsimp only
    generalize (if i < 0 then i + r.nEvents else i) = j
    by_cases h0 : j < 0
    · simp [h0]
    · by_cases h1 : r.nEvents < 0
      · simp [h0, h1, bind, Except.bind]
      · by_cases h2 : j ≥ r.nEvents
        · simp [h0, h1, h2, bind, Except.bind]
        · simp [h0, h1, h2, bind, Except.bind, hev j (by omega) (by omega)]
  refine WfReader.getItem.induct (motive_1 := fun x => r.getItem x = r'.getItem x)
    (motive_2 := fun l => r.getItems l = r'.getItems l) ?_ ?_ ?_ ?_ ?_ ?_ x
  · intro i; simp [WfReader.getItem, hint]
  · intro s; simp only [WfReader.getItem, ← hn]
    have : r.getInt = r'.getInt := funext hint
    rw [this]
  · intro l ih; simp [WfReader.getItem, ih]
  · simp [WfReader.getItem]
  · simp [WfReader.getItems]
  · intro i is h1 h2; simp [WfReader.getItems, h1, h2]

example (x : Idx) : (⟨3, fun i => i⟩ : WfReader Int).getItem x
    = (⟨3, fun i => if 0 ≤ i ∧ i < 3 then i else 999⟩ : WfReader Int).getItem x :=
  C01_only_valid_events ⟨3, fun i => i⟩ ⟨3, fun i => if 0 ≤ i ∧ i < 3 then i else 999⟩ rfl
    (by intro i h0 h1; exact (if_pos (And.intro h0 h1)).symm) x

/-! ## C02 -/

theorem getInt_of_mem (r : WfReader α) (n : Nat) (hn : r.nEvents = n) (i : Int) (h0 : 0 ≤ i) (h1 : i < n) :
    r.getInt i = .ok (r.getEvent i) := by
  have a : ¬ i < 0 := by omega
  have b : ¬ (i ≥ (n : Int)) := by omega
  have c : ¬ ((n : Int) < 0) := by omega
  simp [WfReader.getInt, WfReader.len, hn, a, b, c, bind, Except.bind]

theorem mapM_ok {β γ : Type} (f : β → Except Err γ) (g : β → γ) (l : List β) (h : ∀ x ∈ l, f x = .ok (g x)) :
    l.mapM f = .ok (l.map g) := by
  induction l with
  | nil => rfl
  | cons a l ih =>
    rw [List.mapM_cons, h a (by simp), ih (fun x hx => h x (by simp [hx]))]
    rfl

/-- C02: a slice with a non-zero step returns, without ever raising, exactly the events the slice selects, in
increasing order for a positive and in decreasing order for a negative step. -/
theorem C02_slice (r : WfReader α) (n : Nat) (hn : r.nEvents = n) (s : Slice) (k : Int) (hk : s.step.getD 1 = k)
    (hk0 : k ≠ 0) :
    ∃ L : List Int,
      r.getItem (.slice s) = .ok (.array (L.map fun i => .event (r.getEvent i))) ∧
      (∀ x, x ∈ L ↔ Selects n s k x) ∧
      (∀ x ∈ L, 0 ≤ x ∧ x < n) ∧
      (0 < k → L.Pairwise (· < ·)) ∧ (k < 0 → L.Pairwise (· > ·)) := by
  have hc : ¬ ((n : Int) < 0) := by omega
  rcases lt_or_gt_of_ne hk0 with hneg | hpos
  · have hidx : s.indices n = .ok (bwdStart n s, bwdStop n s, k) := by
      unfold Slice.indices bwdStart bwdStop limit resolve
      simp only [hc, if_false, hk, hk0, hneg, if_true]
      congr 2
      · rcases s.start with _ | v
        · rfl
        · dsimp only; split <;> omega
      · congr 1
        rcases s.stop with _ | v
        · rfl
        · dsimp only; split <;> omega
    have hb : ∀ x ∈ range (bwdStart n s) (bwdStop n s) k, 0 ≤ x ∧ x < n := by
      intro x hx
      rw [mem_range_neg hneg] at hx
      have h1 : bwdStart n s ≤ n - 1 := by
        unfold bwdStart limit; split <;> omega
      have h2 : -1 ≤ bwdStop n s := by
        unfold bwdStop limit; split <;> omega
      omega
    refine ⟨range (bwdStart n s) (bwdStop n s) k, ?_, ?_, hb, by intro; omega, fun _ => range_pairwise_neg hneg⟩
    · have := mapM_ok r.getInt r.getEvent (range (bwdStart n s) (bwdStop n s) k)
        (fun x hx => getInt_of_mem r n hn x (hb x hx).1 (hb x hx).2)
      simp only [WfReader.getItem, hn, hidx, bind, Except.bind, this, pure, Except.pure, List.map_map]
      rfl
    · intro x
      rw [mem_range_neg hneg]
      unfold Selects
      have : ¬ (0 < k) := by omega
      simp only [this, if_false]
      tauto
  · have hkn : ¬ k < 0 := by omega
    have hidx : s.indices n = .ok (fwdStart n s, fwdStop n s, k) := by
      unfold Slice.indices fwdStart fwdStop limit resolve
      simp only [hc, if_false, hk, hk0, hkn]
      congr 2
      · rcases s.start with _ | v
        · rfl
        · dsimp only; split <;> omega
      · congr 1
        rcases s.stop with _ | v
        · rfl
        · dsimp only; split <;> omega
    have hb : ∀ x ∈ range (fwdStart n s) (fwdStop n s) k, 0 ≤ x ∧ x < n := by
      intro x hx
      rw [mem_range_pos hpos] at hx
      have h1 : 0 ≤ fwdStart n s := by
        unfold fwdStart limit; split <;> omega
      have h2 : fwdStop n s ≤ n := by
        unfold fwdStop limit; split <;> omega
      omega
    refine ⟨range (fwdStart n s) (fwdStop n s) k, ?_, ?_, hb, fun _ => range_pairwise_pos hpos, by intro; omega⟩
    · have := mapM_ok r.getInt r.getEvent (range (fwdStart n s) (fwdStop n s) k)
        (fun x hx => getInt_of_mem r n hn x (hb x hx).1 (hb x hx).2)
      simp only [WfReader.getItem, hn, hidx, bind, Except.bind, this, pure, Except.pure, List.map_map]
      rfl
    · intro x
      rw [mem_range_pos hpos]
      unfold Selects
      simp only [hpos, if_true]

example : (⟨7, fun i => i⟩ : WfReader Int).getItem (.slice ⟨some (-2), some (-100), some (-2)⟩)
    = .ok (.array [.event 5, .event 3, .event 1]) := rfl

/-- C02: step 0 is a `ValueError`. -/
theorem C02_slice_step_zero (r : WfReader α) (s : Slice) (h : s.step = some 0) :
    r.getItem (.slice s) = .error .valueError := by
  unfold WfReader.getItem Slice.indices
  simp only [h, Option.getD_some, if_true]
  split <;> rfl

example : (⟨7, fun i => i⟩ : WfReader Int).getItem (.slice ⟨some 1, none, some 0⟩) = .error .valueError :=
  C02_slice_step_zero _ _ rfl

/-- C02: `reader[a:b]` with `0 ≤ a ≤ b ≤ n` are the events `a, a+1, ..., b-1`. -/
theorem C02_plain_slice (r : WfReader α) (n : Nat) (hn : r.nEvents = n) (a b : Nat) (hab : a ≤ b) (hb : b ≤ n) :
    r.getItem (.slice ⟨some a, some b, none⟩)
      = .ok (.array ((List.range (b - a)).map fun (i : Nat) => .event (r.getEvent ((a : Int) + i)))) := by
  have hc : ¬ ((n : Int) < 0) := by omega
  have ha0 : ¬ ((a : Int) < 0) := by omega
  have hb0 : ¬ ((b : Int) < 0) := by omega
  have h1 : min (a : Int) n = a := by omega
  have h2 : min (b : Int) n = b := by omega
  have hl : range (a : Int) b 1 = (List.range (b - a)).map fun (i : Nat) => (a : Int) + i := by
    unfold range rangeLen
    have : (if (1 : Int) > 0 then if (a : Int) < b then (((b : Int) - a - 1) / 1 + 1).toNat else 0
      else if (1 : Int) < 0 then if (b : Int) < a then (((a : Int) - (b : Int) - 1) / (-1) + 1).toNat else 0 else 0)
        = b - a := by
      simp only [gt_iff_lt, Int.zero_lt_one, if_true, Int.ediv_one]
      split <;> omega
    rw [this]; simp
  have hmap := mapM_ok r.getInt r.getEvent (range (a : Int) b 1) (by
    intro x hx
    rw [mem_range_pos (by omega)] at hx
    exact getInt_of_mem r n hn x (by omega) (by omega))
  have hidx : (⟨some (a : Int), some (b : Int), none⟩ : Slice).indices n = .ok ((a : Int), (b : Int), 1) := by
    unfold Slice.indices
    simp [hc, ha0, hb0, h1, h2]
  simp only [WfReader.getItem, hn, hidx, bind, Except.bind, hmap, pure, Except.pure]
  rw [hl]
  simp [List.map_map, Function.comp_def]

example : (⟨7, fun i => i * i⟩ : WfReader Int).getItem (.slice ⟨some 2, some 5, none⟩)
    = .ok (.array [.event 4, .event 9, .event 16]) :=
  C02_plain_slice ⟨7, fun i => i * i⟩ 7 rfl 2 5 (by decide) (by decide)

/-- C02: a list of in-range integers returns the events in the given order, repeats included. -/
theorem C02_list_ok (r : WfReader α) (n : Nat) (hn : r.nEvents = n) (l : List Int)
    (h : ∀ i ∈ l, -n ≤ i ∧ i < n) :
    r.getItem (.list (l.map .int))
      = .ok (.array (l.map fun i => .event (r.getEvent (if i < 0 then n + i else i)))) := by
  have key : r.getItems (l.map .int)
      = .ok (l.map fun i => .event (r.getEvent (if i < 0 then n + i else i))) := by
    induction l with
    | nil => simp [WfReader.getItems]
    | cons i l ih =>
      have hi := h i (by simp)
      have h3 := C01_int_index r n hn i
      have hx : r.getItem (.int i) = .ok (.event (r.getEvent (if i < 0 then n + i else i))) := by
        by_cases h0 : i < 0
        · simp only [h0, if_true]; exact h3.2.1 h0 hi.1
        · simp only [h0, if_false]; exact h3.1 (by omega) hi.2
      have ih' := ih (fun j hj => h j (by simp [hj]))
      simp only [List.map_cons, WfReader.getItems, hx, ih', bind, Except.bind, pure, Except.pure]
  simp only [WfReader.getItem, key, Except.map]

example : (⟨4, fun i => i⟩ : WfReader Int).getItem (.list [.int 3, .int (-4), .int 3])
    = .ok (.array [.event 3, .event 0, .event 3]) :=
  C02_list_ok ⟨4, fun i => i⟩ 4 rfl [3, -4, 3] (by decide)

/-- C02: a list containing an out-of-range integer raises `IndexError`. -/
theorem C02_list_error (r : WfReader α) (n : Nat) (hn : r.nEvents = n) (l : List Int)
    (h : ∃ i ∈ l, i < -n ∨ n ≤ i) :
    r.getItem (.list (l.map .int)) = .error .indexError := by
  have key : r.getItems (l.map .int) = .error .indexError := by
    induction l with
    | nil => simp at h
    | cons i l ih =>
      have h3 := C01_int_index r n hn i
      by_cases hi : i < -n ∨ n ≤ i
      · simp [WfReader.getItems, h3.2.2 hi, bind, Except.bind]
      · have hl : ∃ i ∈ l, i < -n ∨ n ≤ i := by
          obtain ⟨j, hj, hj'⟩ := h
          rcases List.mem_cons.mp hj with rfl | hj
          · exact absurd hj' hi
          · exact ⟨j, hj, hj'⟩
        have ih' := ih hl
        have hx : ∃ v, r.getItem (.int i) = .ok v := by
          by_cases h0 : i < 0
          · exact ⟨_, h3.2.1 h0 (by omega)⟩
          · exact ⟨_, h3.1 (by omega) (by omega)⟩
        obtain ⟨v, hv⟩ := hx
        simp only [List.map_cons, WfReader.getItems, hv, ih', bind, Except.bind]
  simp only [WfReader.getItem, key, Except.map]

example : (⟨4, fun i => i⟩ : WfReader Int).getItem (.list [.int 3, .int 4, .int 0]) = .error .indexError :=
  C02_list_error ⟨4, fun i => i⟩ 4 rfl [3, 4, 0] ⟨4, by decide, by decide⟩

/-- C02: any other argument type is a `TypeError`, also inside a list, after valid indices and whatever follows. -/
theorem C02_other (r : WfReader α) (n : Nat) (hn : r.nEvents = n) (l : List Int) (h : ∀ i ∈ l, -n ≤ i ∧ i < n)
    (rest : List Idx) : r.getItem .other = .error .typeError ∧
    r.getItem (.list (l.map .int ++ .other :: rest)) = .error .typeError := by
  refine ⟨by simp [WfReader.getItem], ?_⟩
  have key : r.getItems (l.map .int ++ .other :: rest) = .error .typeError := by
    induction l with
    | nil => simp [WfReader.getItems, WfReader.getItem, bind, Except.bind]
    | cons i l ih =>
      have h3 := C01_int_index r n hn i
      have hi := h i (by simp)
      have ih' := ih fun j hj => h j (by simp [hj])
      have hx : ∃ v, r.getItem (.int i) = .ok v := by
        by_cases h0 : i < 0
        · exact ⟨_, h3.2.1 h0 hi.1⟩
        · exact ⟨_, h3.1 (by omega) hi.2⟩
      obtain ⟨v, hv⟩ := hx
      simp only [List.map_cons, List.cons_append, WfReader.getItems, hv, ih', bind, Except.bind]
  simp only [WfReader.getItem, key, Except.map]

example : (⟨4, fun i => i⟩ : WfReader Int).getItem (.list [.int 3, .other, .int 9]) = .error .typeError :=
  (C02_other ⟨4, fun i => i⟩ 4 rfl [3] (by decide) [.int 9]).2

/-! ## C03 -/

/-- C03: iteration yields event `0, 1, ..., n-1`, each once. -/
theorem C03_iter (r : WfReader α) (n : Nat) (hn : r.nEvents = n) :
    r.iter = (List.range n).map (fun (i : Nat) => r.getEvent i) := by
  unfold WfReader.iter
  rw [hn, range_zero_one, List.map_map]; rfl

example : (⟨3, fun i => i * 2⟩ : WfReader Int).iter = [0, 2, 4] := C03_iter ⟨3, fun i => i * 2⟩ 3 rfl

/-- C03: the event at position `i` of the iteration is `reader[i]`; iteration and indexing agree. -/
theorem C03_iter_getItem (r : WfReader α) (n : Nat) (hn : r.nEvents = n) (i : Nat) (hi : i < n) :
    (r.iter[i]?).map (fun e => (.ok (.event e) : Except Err (Res α))) = some (r.getItem (.int i)) := by
  rw [C03_iter r n hn, (C01_int_index r n hn i).1 (by omega) (by exact_mod_cast hi)]
  simp [hi]

example : ((⟨3, fun i => i * 2⟩ : WfReader Int).iter[2]?).map (fun e => (.ok (.event e) : Except Err (Res Int)))
    = some ((⟨3, fun i => i * 2⟩ : WfReader Int).getItem (.int 2)) :=
  C03_iter_getItem ⟨3, fun i => i * 2⟩ 3 rfl 2 (by decide)

/-- C03: number of events of a TIO reader: the smaller of file length and a positive `max_events`; `None` and 0 mean
no limit. -/
theorem C03_max_events (f : Nat) (m : Option Int) :
    (m = none ∨ m = some 0 → tioNEvents f m = f) ∧
    (∀ k : Int, m = some k → 0 < k → tioNEvents f m = min k f) := by
  constructor
  · rintro (rfl | rfl) <;> simp [tioNEvents]
  · rintro k rfl hk
    simp only [tioNEvents]
    split <;> omega

example : tioNEvents 10 (some 4) = 4 ∧ tioNEvents 10 (some 40) = 10 ∧ tioNEvents 10 (some 0) = 10 := by decide

/-- C03: iterating a TIO reader with a positive `max_events` yields the events numbered `0 .. min(max_events, file)-1`
in order, each tagged with its own number. -/
theorem C03_tio_iter {ρ : Type} (f : Nat) (m : Nat) (hm : 0 < m) (raw : Int → ρ) :
    (tioReader f (some m) raw).iter
      = (List.range (min m f)).map (fun (i : Nat) => { iev := (i : Int), raw := raw i }) := by
  have hn : (tioReader f (some m) raw).nEvents = ((min m f : Nat) : Int) := by
    show tioNEvents f (some (m : Int)) = _
    rw [(C03_max_events f (some (m : Int))).2 m rfl (by exact_mod_cast hm)]
    omega
  rw [C03_iter _ _ hn]; rfl

example : ((tioReader 10 (some 2) (fun i => i + 100)).iter).map (fun e => (e.iev, e.raw)) = [(0, 100), (1, 101)] := by
  rw [show (some (2 : Int)) = some ((2 : Nat) : Int) from rfl, C03_tio_iter 10 2 (by decide)]; rfl

/-- C03 (negative limits): a negative `max_events` is taken literally; iteration is then empty, `len` and slicing raise
`ValueError`, non-negative indices raise `ValueError` and negative indices `IndexError`. -/
theorem C03_negative_max_events {ρ : Type} (f : Nat) (m : Int) (hm : m < 0) (raw : Int → ρ) :
    let r := tioReader f (some m) raw
    r.iter = [] ∧ r.len = .error .valueError ∧
    (∀ i : Int, 0 ≤ i → r.getItem (.int i) = .error .valueError) ∧
    (∀ i : Int, i < 0 → r.getItem (.int i) = .error .indexError) ∧
    (∀ s : Slice, r.getItem (.slice s) = .error .valueError) := by
  have hn : (tioReader f (some m) raw).nEvents = m := by
    show tioNEvents f (some m) = m
    have : m ≠ 0 ∧ m < f := by omega
    simp [tioNEvents, this.1, this.2]
  dsimp only
  refine ⟨?_, ?_, ?_, ?_, ?_⟩
  · unfold WfReader.iter; rw [hn]
    have : range 0 m 1 = [] := by
      unfold range rangeLen
      have : ¬ (0 : Int) < m := by omega
      simp [this]
    simp [this]
  · simp [WfReader.len, hn, hm]
  · intro i hi
    have : ¬ i < 0 := by omega
    simp [WfReader.getItem, WfReader.getInt, WfReader.len, hn, hm, this, bind, Except.bind, Except.map]
  · intro i hi
    have : i + m < 0 := by omega
    simp [WfReader.getItem, WfReader.getInt, hn, hi, this, Except.map]
  · intro s
    simp [WfReader.getItem, Slice.indices, hn, hm, bind, Except.bind]

example : (tioReader 10 (some (-3)) (fun i => i)).iter = [] := (C03_negative_max_events 10 (-3) (by decide) _).1

end Verif.Props
