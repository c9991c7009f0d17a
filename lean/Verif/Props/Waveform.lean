import Verif.Model.Waveform
import Verif.Props.Detect
import Verif.Props.Nnls
import Verif.Py.DictLemmas
import Mathlib.Algebra.BigOperators.Group.Finset.Basic
import Mathlib.Algebra.BigOperators.Intervals

/-! # C94–C98: waveform objects, calibration, dead pixels, slow control, simulated events -/

namespace Verif.Props

open Verif.Py Verif.Model

variable {δ : Type}

/-! ### C94 -/

/-- a calculation with arrays -/
inductive ArrExpr (δ : Type)
  | arr (a : NdArray δ)
  | unary (f : δ → δ) (e : ArrExpr δ)
  | binary (f : δ → δ → δ) (a b : ArrExpr δ)

/-- its result -/
def ArrExpr.eval : ArrExpr δ → NdArray δ
  | .arr a => a
  | .unary f e => ndUnary f e.eval
  | .binary f a b => ndBinary f a.eval b.eval

/-- the arrays it starts from, from left to right -/
def ArrExpr.leaves : ArrExpr δ → List (NdArray δ)
  | .arr a => [a]
  | .unary _ e => e.leaves
  | .binary _ a b => a.leaves ++ b.leaves

/-- the attributes of a waveform object -/
def attrsOf : NdArray δ → Option WfAttrs
  | .plain _ => none
  | .wf _ a _ => some a

/-- C94: the result of any calculation has the attributes of the first waveform object that enters it, and is a plain array if there is none. -/
theorem C94_calculation (e : ArrExpr δ) : attrsOf e.eval = (e.leaves.filterMap attrsOf).head? := by
  induction e with
  | arr a => cases a <;> rfl
  | unary f e ih =>
    rw [ArrExpr.leaves, ← ih, ArrExpr.eval]
    cases e.eval <;> rfl
  | binary f a b iha ihb =>
    rw [ArrExpr.leaves, List.filterMap_append, ArrExpr.eval]
    cases ha : a.eval with
    | plain x =>
      rw [ha] at iha
      have : a.leaves.filterMap attrsOf = [] := List.head?_eq_none_iff.1 iha.symm
      rw [this, List.nil_append, ← ihb]
      cases b.eval <;> rfl
    | wf x at' ex =>
      rw [ha] at iha
      obtain ⟨t, ht⟩ := List.head?_eq_some_iff.1 iha.symm
      rw [ht]
      cases b.eval <;> rfl

/-- C94: a calculation with one event and otherwise plain arrays gives an object with all the attributes of the event, and the same time. -/
theorem C94_event (e : ArrExpr δ) (d : δ) (a : WfAttrs) (x : Dict String Bool) (hmem : NdArray.wf d a x ∈ e.leaves)
    (hplain : ∀ l ∈ e.leaves, l = .wf d a x ∨ ∃ d', l = .plain d') :
    e.eval.attrs = .ok a ∧ e.eval.tCpu = (NdArray.wf d a x).tCpu := by
  have h := C94_calculation e
  have hall : ∀ b ∈ e.leaves.filterMap attrsOf, b = a := by
    intro b hb
    obtain ⟨l, hl, hb⟩ := List.mem_filterMap.1 hb
    rcases hplain l hl with rfl | ⟨d', rfl⟩
    · exact (Option.some.inj hb).symm
    · cases hb
  have hin : a ∈ e.leaves.filterMap attrsOf := List.mem_filterMap.2 ⟨_, hmem, rfl⟩
  have hh : (e.leaves.filterMap attrsOf).head? = some a := by
    cases hl : e.leaves.filterMap attrsOf with
    | nil => rw [hl] at hin; cases hin
    | cons b t => rw [hl] at hall; rw [hall b (by simp)]; rfl
  rw [hh] at h
  cases hev : e.eval with
  | plain _ => rw [hev] at h; cases h
  | wf d' a' x' =>
    rw [hev] at h
    injection h with h
    subst h
    exact ⟨rfl, rfl⟩

/-- C94: an event of a TIO file has the time from the file, to the nanosecond; so has everything calculated from it. -/
theorem C94_time (e : ArrExpr δ) (d : δ) (a : WfAttrs) (x : Dict String Bool) (hmem : NdArray.wf d a x ∈ e.leaves)
    (hplain : ∀ l ∈ e.leaves, l = .wf d a x ∨ ∃ d', l = .plain d') (s ns : Nat) (ht : a.cpuTime = .pair s ns) (hs : s < 2 ^ 32) (hns : ns < 10 ^ 9) :
    e.eval.tCpu = .ok (s * 10 ^ 9 + ns : Nat) := by
  rw [(C94_event e d a x hmem hplain).2]
  unfold NdArray.tCpu NdArray.attrs
  simp only [ht]
  rw [C06_exact s ns hs hns]

/-- C94: several events read at once are a plain array, without attributes; made into a waveform object again, its attributes are `None` and it has no time.
An object made with the default arguments has no time either. -/
theorem C94_lost (a : NdArray δ) :
    (ndAsArray a).attrs = .error .attributeError ∧ (ndView (ndAsArray a)).attrs = .ok ⟨none, none, none, none, none, none, .none, none⟩ ∧
    (ndView (ndAsArray a)).tCpu = .error .typeError ∧ ∀ iev, (newWaveform a (defaultAttrs iev)).tCpu = .error .typeError :=
  ⟨rfl, rfl, rfl, fun _ => rfl⟩

/-- C94: a `Waveform` made from samples and a number alone counts as a raw, complete and fresh event starting at cell 0 at time 0. -/
theorem C94_made (a : NdArray δ) (iev : Int) (e : ArrExpr δ) (h : e.leaves = [newWaveform a (defaultAttrs iev)]) :
    ∃ b, e.eval.attrs = .ok b ∧ b.iev = some iev ∧ b.isR1 = some false ∧ b.stale = some false ∧ b.missingPackets = some false ∧
      b.firstCellId = some 0 ∧ b.tTack = some 0 ∧ b.mcTrue = none :=
  ⟨_, (C94_event e a.data (defaultAttrs iev) [] (by rw [h]; exact List.mem_singleton_self _)
    (by intro l hl; rw [h] at hl; exact Or.inl (List.mem_singleton.1 hl))).1, rfl, rfl, rfl, rfl, rfl, rfl, rfl⟩

/-- an event with number 7 -/
def exEvent : NdArray (List ℚ) := .wf [1, 2, 3] ⟨some 7, some false, some 12, some false, some false, some 99, .pair 1500000000 5, none⟩ []

/-- subtracting a baseline and slicing -/
example : (ArrExpr.unary (List.take 2) (.binary (List.zipWith (· - ·)) (.arr exEvent) (.arr (.plain [1, 1, 1])))).eval.attrs = exEvent.attrs ∧
    (ArrExpr.unary (List.take 2) (.binary (List.zipWith (· - ·)) (.arr exEvent) (.arr (.plain [1, 1, 1])))).eval.data = [0, 1] := by decide +kernel
/-- a plain array minus the event -/
example : (ArrExpr.binary (List.zipWith (· - ·)) (.arr (.plain [1, 1, 1])) (.arr exEvent)).eval.tCpu = .ok 1500000000000000005 := by decide +kernel

/-! ### C95 -/

/-- C95, what holds: calibrating an event gives the samples computed by TargetCalib from the raw samples and one first cell per pixel, with all the
attributes of the event. (Missing from the claim: being marked as calibrated.) -/
theorem C95_partial (nPixels : Nat) (toFloat32 : δ → δ) (applyEvent : δ → List Nat → δ) (d : δ) (a : WfAttrs) (x : Dict String Bool) (fci : List Int) :
    (∀ c : Nat, c < 65536 → fci = [(c : Int)] → ∃ out, calibrateWaveform nPixels toFloat32 applyEvent (.wf d a x) fci = .ok out ∧ out.attrs = .ok a ∧
      out.data = applyEvent d (List.replicate nPixels c)) ∧
    (∀ cs : List Nat, (∀ c ∈ cs, c < 65536) → cs.length = nPixels → fci = cs.map (fun (c : Nat) => (c : Int)) →
      ∃ out, calibrateWaveform nPixels toFloat32 applyEvent (.wf d a x) fci = .ok out ∧ out.attrs = .ok a ∧ out.data = applyEvent d cs) ∧
    (fci.length ≠ nPixels → fci.length ≠ 1 → calibrateWaveform nPixels toFloat32 applyEvent (.wf d a x) fci = .error .valueError) := by
  have hcell : ∀ cs : List Nat, (∀ c ∈ cs, c < 65536) → (cs.map fun (c : Nat) => (c : Int)).map (fun x => (x % 65536).toNat) = cs := by
    intro cs h
    rw [List.map_map]
    conv_rhs => rw [← List.map_id cs]
    apply List.map_congr_left
    intro c hc
    have := h c hc
    simp only [Function.comp_apply, id]
    omega
  have hrun : ∀ cells, fullUint16 nPixels fci = .ok cells → ∃ out, calibrateWaveform nPixels toFloat32 applyEvent (.wf d a x) fci = .ok out ∧
      out.attrs = .ok a ∧ out.data = applyEvent d cells := by
    intro cells h
    unfold calibrateWaveform
    rw [h]
    exact ⟨_, rfl, rfl, rfl⟩
  refine ⟨?_, ?_, ?_⟩
  · rintro c hc rfl
    apply hrun
    have : ((c : Int) % 65536).toNat = c := by omega
    unfold fullUint16
    simp only [List.length_singleton, List.map_cons, List.map_nil, this]
    split
    · rename_i h; subst h; rfl
    · rfl
  · rintro cs hcs hl rfl
    apply hrun
    unfold fullUint16
    rw [if_pos (by simpa using hl), hcell cs hcs]
  · intro h1 h2
    unfold calibrateWaveform fullUint16
    rw [if_neg h1]
    match fci, h2 with
    | [], _ => rfl
    | [_], h2 => simp at h2
    | _ :: _ :: _, _ => rfl

/-- C95 is false: the attribute `is_r1` of the calibrated event is the one of the raw event, for every event; what is set is an attribute
`r1` that nothing reads and that is lost with the next operation. -/
theorem C95_false (nPixels : Nat) (toFloat32 : δ → δ) (applyEvent : δ → List Nat → δ) (d : δ) (a : WfAttrs) (x : Dict String Bool) (fci : List Int)
    (out : NdArray δ) (h : calibrateWaveform nPixels toFloat32 applyEvent (.wf d a x) fci = .ok out) (hraw : a.isR1 = some false) :
    ∃ b data marks, out = .wf data b marks ∧ b.isR1 = some false ∧ Dict.get? marks "r1" = some true ∧
      ∀ f, ndUnary f out = .wf (f data) b [] := by
  unfold calibrateWaveform at h
  cases hf : fullUint16 nPixels fci with
  | error e => rw [hf] at h; cases h
  | ok cells =>
    rw [hf] at h
    simp only [ndUnary, setR1, finalize] at h
    injection h with h
    subst h
    exact ⟨a, _, _, rfl, hraw, by rw [Dict.get?_set, if_pos rfl], fun f => rfl⟩

/-- C95: samples given as a plain array cannot be calibrated. -/
theorem C95_plain (nPixels : Nat) (toFloat32 : δ → δ) (applyEvent : δ → List Nat → δ) (d : δ) (c : Int) :
    calibrateWaveform nPixels toFloat32 applyEvent (.plain d) [c] = .error .attributeError := by
  unfold calibrateWaveform fullUint16
  by_cases h : [c].length = nPixels
  · rw [if_pos h]; rfl
  · rw [if_neg h]; rfl

/-- two pixels, pedestal 1, first cell 12 added -/
example : (calibrateWaveform 2 id (fun d cells => List.zipWith (fun x (c : Nat) => x - 1 + c) d cells) (.wf [1, 2] (defaultAttrs 7) []) [12]).toOption.map
    (fun o => (o.data, o.attrs.toOption.map (·.isR1))) = some ([12, 13], some (some false)) := by decide +kernel

/-! ### C96 -/

/-- mean of sample `s` of pixel `p` over the first `n` events -/
def sampleMean (events : List (List (List ℚ))) (n p s : Nat) : ℚ := (∑ k ∈ Finset.range n, (((events.getD k []).getD p []).getD s 0)) / n

theorem list_sum_range {α : Type} (l : List α) (dflt : α) (f : α → ℚ) : (l.map f).sum = ∑ k ∈ Finset.range l.length, f (l.getD k dflt) := by
  induction l with
  | nil => simp
  | cons x l ih =>
    rw [List.length_cons, Finset.sum_range_succ', List.map_cons, List.sum_cons, ih]
    simp [add_comm]

theorem deadLoop_positions (n : Nat) (idx : Nat → Int) (hidx : ∀ k, idx k = k) (done array rest : List (List (List ℚ)))
    (hd : done.length + array.length = n) (hn : n ≤ done.length + rest.length) :
    deadLoop n (some idx) done.length (done ++ array) rest = .ok ((done ++ rest).take n) := by
  induction rest generalizing done array with
  | nil =>
    have : array = [] := List.length_eq_zero_iff.1 (by simp at hn; omega)
    subst this
    simp only [deadLoop, List.append_nil]
    rw [List.take_of_length_le (by simp at hd; omega)]
  | cons wf rest ih =>
    unfold deadLoop
    simp only
    rw [hidx]
    cases array with
    | nil =>
      simp only [List.length_nil, Nat.add_zero] at hd
      rw [if_pos (by omega), List.append_nil, List.take_append_of_le_length (by omega), List.take_of_length_le (by omega)]
    | cons a array =>
      simp only [List.length_cons] at hd hn
      rw [if_neg (by omega), if_neg (by omega), if_neg (by omega)]
      have e1 : (done ++ a :: array).set ((done.length : Int)).toNat wf = (done ++ [wf]) ++ array := by
        rw [Int.toNat_natCast, List.set_append_right _ _ (Nat.le_refl _)]
        simp
      rw [e1]
      have := ih (done ++ [wf]) array (by simp; omega) (by simp; omega)
      rw [List.length_append, List.length_singleton] at this
      rw [this]
      simp

/-- C96, what holds: for a source that has the attribute `index`, the number of the event handed out last, the result are, in ascending order, the pixels
whose average waveform over the first events has its largest sample below the given fraction of the mean of these largest samples. (The readers of the library
have no such attribute.) -/
theorem C96_partial (nPixels nSamples : Nat) (hs : 0 < nSamples) (events : List (List (List ℚ))) (idx : Nat → Int) (hidx : ∀ k, idx k = k) (threshold : ℚ) (maxEvents n : Nat)
    (hn : n = min events.length maxEvents) (hpos : 0 < n) :
    ∃ peak : Nat → ℚ, (∀ p < nPixels, (∃ s < nSamples, peak p = sampleMean events n p s) ∧ ∀ s < nSamples, sampleMean events n p s ≤ peak p) ∧
      deadPixels nPixels nSamples events (some idx) threshold maxEvents =
        .ok ((List.range nPixels).filter fun p => peak p < (∑ q ∈ Finset.range nPixels, peak q) / nPixels * threshold) := by
  have hn' : (if events.length < maxEvents then events.length else maxEvents) = n := by
    rw [hn]
    split <;> omega
  have hloop : deadLoop n (some idx) 0 (List.replicate n (List.replicate nPixels (List.replicate nSamples 0))) events = .ok (events.take n) := by
    have := deadLoop_positions n idx hidx [] (List.replicate n (List.replicate nPixels (List.replicate nSamples 0))) events (by simp) (by simp; omega)
    simpa using this
  have hmean : ∀ p s, ((events.take n).map fun wf => (wf.getD p []).getD s 0).sum / (n : ℚ) = sampleMean events n p s := by
    intro p s
    unfold sampleMean
    rw [list_sum_range _ []]
    rw [List.length_take, show min n events.length = n by omega]
    congr 1
    apply Finset.sum_congr rfl
    intro k hk
    have hk := Finset.mem_range.1 hk
    rw [List.getD_eq_getElem?_getD (l := events.take n), List.getElem?_take_of_lt hk, ← List.getD_eq_getElem?_getD]
  refine ⟨fun p => (wfRowMax ((List.range nSamples).map fun s => sampleMean events n p s)).getD 0, ?_, ?_⟩
  · intro p _
    obtain ⟨m, rfl⟩ : ∃ m, nSamples = m + 1 := ⟨nSamples - 1, by omega⟩
    simp only [List.range_succ_eq_map, List.map_cons, wfRowMax, Option.getD_some]
    set l := List.map (fun s => sampleMean events n p s) (List.map Nat.succ (List.range m)) with hl
    have hmem : ∀ y, y ∈ sampleMean events n p 0 :: l ↔ ∃ s < m + 1, y = sampleMean events n p s := by
      intro y
      rw [hl]
      simp only [List.mem_cons, List.mem_map, List.mem_range]
      constructor
      · rintro (h | ⟨s, ⟨t, ht, rfl⟩, rfl⟩)
        · exact ⟨0, by omega, h⟩
        · exact ⟨t + 1, by omega, rfl⟩
      · rintro ⟨s, hs, rfl⟩
        cases s with
        | zero => exact Or.inl rfl
        | succ s => exact Or.inr ⟨s + 1, ⟨s, by omega, rfl⟩, rfl⟩
    constructor
    · apply (hmem _).1
      rcases foldl_max_mem l (sampleMean events n p 0) with h | h
      · rw [h]; simp
      · exact List.mem_cons_of_mem _ h
    · intro s hs
      have := (hmem (sampleMean events n p s)).2 ⟨s, hs, rfl⟩
      rcases List.mem_cons.1 this with h | h
      · rw [h]; exact (foldl_max_ge l _).1
      · exact (foldl_max_ge l _).2 _ h
  · unfold deadPixels
    simp only
    rw [hn', hloop]
    simp only
    rw [if_neg (by omega)]
    simp only [hmean]
    congr 1
    apply List.filter_congr
    intro p hp
    have hp := List.mem_range.1 hp
    have hsum : ∀ f : Nat → ℚ, ((List.range nPixels).map f).sum = ∑ q ∈ Finset.range nPixels, f q := by
      intro f
      rw [list_sum_range _ 0, List.length_range]
      apply Finset.sum_congr rfl
      intro q hq
      simp [List.getD_eq_getElem?_getD, List.getElem?_range (Finset.mem_range.1 hq)]
    rw [hsum]
    rw [List.getD_eq_getElem?_getD, List.getElem?_map, List.getElem?_range hp, Option.map_some, Option.getD_some]

theorem deadLoop_error (n : Nat) (idx : Nat → Int) (k0 : Nat) (array rest : List (List (List ℚ))) (e : Err) :
    deadLoop n (some idx) k0 array rest = .error e ↔
      e = .indexError ∧ ∃ k, k0 ≤ k ∧ k < k0 + rest.length ∧ idx k < -n ∧ ∀ j, k0 ≤ j → j < k → -(n : Int) ≤ idx j ∧ idx j < n := by
  induction rest generalizing k0 array with
  | nil =>
    simp only [deadLoop, List.length_nil, Nat.add_zero]
    constructor
    · intro h; cases h
    · rintro ⟨-, k, h1, h2, -⟩; omega
  | cons wf rest ih =>
    unfold deadLoop
    simp only [List.length_cons]
    by_cases h1 : idx k0 ≥ n
    · rw [if_pos h1]
      constructor
      · intro h; cases h
      · rintro ⟨-, k, h2, h3, h4, h5⟩
        rcases Nat.eq_or_lt_of_le h2 with rfl | h6
        · omega
        · have := h5 k0 le_rfl h6; omega
    · rw [if_neg h1]
      by_cases h2 : idx k0 < -n
      · rw [if_pos h2]
        constructor
        · intro h
          cases h
          exact ⟨rfl, k0, le_rfl, by omega, h2, fun j h3 h4 => by omega⟩
        · rintro ⟨rfl, -⟩; rfl
      · rw [if_neg h2, ih]
        refine and_congr_right fun _ => exists_congr fun k => ?_
        constructor
        · rintro ⟨h3, h4, h5, h6⟩
          refine ⟨by omega, by omega, h5, fun j h7 h8 => ?_⟩
          rcases Nat.eq_or_lt_of_le h7 with rfl | h9
          · omega
          · exact h6 j (by omega) h8
        · rintro ⟨h3, h4, h5, h6⟩
          have : k0 ≠ k := by rintro rfl; omega
          exact ⟨by omega, by omega, h5, fun j h7 h8 => h6 j (by omega) h8⟩

/-- C96, when it fails, for any source that has the attribute `index`: exactly if an event handed out before the first one with an `index` of at least `n`
has an `index` below `-n`, where `n` is the number of events averaged; the error is `IndexError`. In particular it never fails if no `index` is negative. -/
theorem C96_fails_partial (nPixels nSamples : Nat) (events : List (List (List ℚ))) (idx : Nat → Int) (threshold : ℚ) (maxEvents n : Nat)
    (hn : n = min events.length maxEvents) (e : Err) :
    deadPixels nPixels nSamples events (some idx) threshold maxEvents = .error e ↔
      e = .indexError ∧ ∃ k < events.length, idx k < -n ∧ ∀ j < k, -(n : Int) ≤ idx j ∧ idx j < n := by
  have hn' : (if events.length < maxEvents then events.length else maxEvents) = n := by
    rw [hn]
    split <;> omega
  have hl := deadLoop_error n idx 0 (List.replicate n (List.replicate nPixels (List.replicate nSamples 0))) events e
  unfold deadPixels
  simp only
  rw [hn']
  have hr : (e = .indexError ∧ ∃ k, 0 ≤ k ∧ k < 0 + events.length ∧ idx k < -n ∧ ∀ j, 0 ≤ j → j < k → -(n : Int) ≤ idx j ∧ idx j < n) ↔
      (e = .indexError ∧ ∃ k < events.length, idx k < -n ∧ ∀ j < k, -(n : Int) ≤ idx j ∧ idx j < n) := by simp
  rw [← hr, ← hl]
  cases deadLoop n (some idx) 0 (List.replicate n (List.replicate nPixels (List.replicate nSamples 0))) events with
  | error e' => simp
  | ok a =>
    simp only
    split_ifs <;> simp

/-- an `index` of -1 is the last event averaged, one of -3 does not exist -/
example : (deadPixels 1 1 [[[8]], [[1]]] (some fun k => if k = 0 then -1 else -3) 1 100).toOption = none ∧
    deadPixels 1 1 [[[8]], [[1]]] (some fun _ => -1) 2 100 = .ok [0] := by decide +kernel

/-- C96 is false: with any reader of the library, which has no attribute `index`, every source with an event raises `AttributeError`. -/
theorem C96_false (nPixels nSamples : Nat) (events : List (List (List ℚ))) (threshold : ℚ) (maxEvents : Nat) (h : events ≠ []) :
    deadPixels nPixels nSamples events none threshold maxEvents = .error .attributeError := by
  cases events with
  | nil => exact absurd rfl h
  | cons wf wfs => rfl

/-- three pixels, two events of two samples; pixel 1 is dead -/
example : deadPixels 3 2 [[[8, 1], [1, 0], [6, 2]], [[10, 3], [0, 0], [2, 10]]] (some fun k => k) (1 / 2) 100 = .ok [1] := by decide +kernel
/-- only the first event counts -/
example : deadPixels 3 2 [[[8, 1], [1, 0], [6, 2]], [[10, 3], [0, 0], [2, 10]]] (some fun k => k) (3 / 2) 1 = .ok [1, 2] := by decide +kernel

/-! ### C97 -/

/-- C97, what holds: for numbers that are not negative, the value TargetIO has for that module (and superpixel) if it exists, and `IndexError` otherwise.
(The full claim is for all numbers.) -/
theorem C97_partial {ν : Type} (nModules nSuperpixels : Nat) (get : Int → ν) (get2 : Int → Int → ν) (tm sp : Nat) :
    (tm < nModules → tioModuleValue nModules get tm = .ok (get tm)) ∧ (nModules ≤ tm → tioModuleValue nModules get tm = .error .indexError) ∧
    (tm < nModules → sp < nSuperpixels → tioSuperpixelValue nModules nSuperpixels get2 tm sp = .ok (get2 tm sp)) ∧
    (nModules ≤ tm ∨ nSuperpixels ≤ sp → tioSuperpixelValue nModules nSuperpixels get2 tm sp = .error .indexError) := by
  unfold tioModuleValue tioSuperpixelValue
  refine ⟨fun h => if_neg (by omega), fun h => if_pos (by omega), fun h1 h2 => by rw [if_neg (by omega), if_neg (by omega)], fun h => ?_⟩
  by_cases h1 : nModules ≤ tm
  · rw [if_pos (by omega)]
  · rw [if_neg (by omega), if_pos (by omega)]

/-- C97 is false: a negative module number, or superpixel number, is never refused but handed on to TargetIO. -/
theorem C97_false {ν : Type} (nModules nSuperpixels : Nat) (get : Int → ν) (get2 : Int → Int → ν) (tm sp : Int) (ht : tm < 0) (hs : sp < nSuperpixels) :
    tioModuleValue nModules get tm = .ok (get tm) ∧ tioSuperpixelValue nModules nSuperpixels get2 tm sp = .ok (get2 tm sp) := by
  unfold tioModuleValue tioSuperpixelValue
  exact ⟨if_neg (by omega), by rw [if_neg (by omega), if_neg (by omega)]⟩

/-- C97: `ReaderR1` opens exactly the calibrated files, `ReaderR0` exactly the others, `TIOReader` all; refusal is an `IOError`. -/
theorem C97_level (cls : TioClass) (isR1 : Bool) :
    (openTio cls isR1 = .ok () ↔ cls = .any ∨ (cls = .r1 ∧ isR1 = true) ∨ (cls = .r0 ∧ isR1 = false)) ∧ ∀ e, openTio cls isR1 = .error e → e = .ioError := by
  cases cls <;> cases isR1 <;> refine ⟨by simp [openTio], fun e he => ?_⟩ <;> first | (injection he with he; exact he.symm) | cases he

example : tioModuleValue 32 (fun i => i * 2) 31 = .ok 62 ∧ tioModuleValue 32 (fun i => i * 2) 32 = .error .indexError ∧
    tioModuleValue 32 (fun i => i * 2) (-1) = .ok (-2) := by decide

/-! ### C98 -/

variable {M P H : Type}

/-- C98: each waveform handed out carries the number and time of its own event, and at that moment the reader's dictionaries describe that event. -/
theorem C98_each (s : SimState M P H) (es : List (SimEvent M P H)) (k : Nat) (e : SimEvent M P H) (he : es[k]? = some e) :
    ∃ st, (simAccesses s es).1[k]? = some ((some e.count, some e.gpsTime), st) ∧ st.mc = some ((e.count, e.gpsTime), e.mc) ∧
      st.pointing = some ((e.count, e.gpsTime), e.pointing) ∧ st.runId = e.obsId := by
  induction es generalizing s k with
  | nil => simp at he
  | cons x es ih =>
    cases k with
    | zero =>
      simp only [List.getElem?_cons_zero, Option.some.injEq] at he
      subst he
      exact ⟨_, rfl, rfl, rfl, rfl⟩
    | succ k => exact ih _ k (by simpa using he)

/-- C98: after any accesses the dictionaries describe the last event, and the header is that of the first event accessed since the reader was opened. -/
theorem C98_after (first last : SimEvent M P H) (mid : List (SimEvent M P H)) (es : List (SimEvent M P H)) (hes : es = first :: mid) (hlast : es.getLast? = some last) :
    let st := (simAccesses ({} : SimState M P H) es).2
    st.mc = some ((last.count, last.gpsTime), last.mc) ∧ st.pointing = some ((last.count, last.gpsTime), last.pointing) ∧ st.runId = last.obsId ∧
      st.iev = some last.count ∧ st.mcheader = some (first.obsId, first.header) := by
  have key : ∀ (es : List (SimEvent M P H)) (s : SimState M P H) (last : SimEvent M P H), es.getLast? = some last →
      (simAccesses s es).2.mc = some ((last.count, last.gpsTime), last.mc) ∧ (simAccesses s es).2.pointing = some ((last.count, last.gpsTime), last.pointing) ∧
      (simAccesses s es).2.runId = last.obsId ∧ (simAccesses s es).2.iev = some last.count := by
    intro es
    induction es with
    | nil => intro s last h; cases h
    | cons x es ih =>
      intro s last h
      cases es with
      | nil =>
        simp only [List.getLast?_singleton, Option.some.injEq] at h
        subst h
        exact ⟨rfl, rfl, rfl, rfl⟩
      | cons y es => exact ih _ last (by simpa using h)
  have hhead : ∀ (es : List (SimEvent M P H)) (s : SimState M P H) h, s.mcheader = some h → (simAccesses s es).2.mcheader = some h := by
    intro es
    induction es with
    | nil => intro s h hs; exact hs
    | cons x es ih => intro s h hs; exact ih _ h (by simp [simAccess, fillContainers, hs])
  obtain ⟨h1, h2, h3, h4⟩ := key es {} last hlast
  refine ⟨h1, h2, h3, h4, ?_⟩
  subst hes
  exact hhead mid _ _ rfl

/-- events 3, 0, 3 of a file -/
example : (simAccesses ({} : SimState Nat Nat String) [⟨3, 103, 9, 30, 31, "h3"⟩, ⟨0, 100, 9, 0, 1, "h0"⟩, ⟨3, 103, 9, 30, 31, "h3"⟩]).2.mc = some ((3, 103), 30) ∧
    (simAccesses ({} : SimState Nat Nat String) [⟨3, 103, 9, 30, 31, "h3"⟩, ⟨0, 100, 9, 0, 1, "h0"⟩]).2.mcheader = some (9, "h3") := ⟨rfl, rfl⟩

end Verif.Props
