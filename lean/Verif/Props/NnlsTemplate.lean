import Verif.Model.NnlsTemplate
import Mathlib.Tactic.Ring
import Mathlib.Tactic.FieldSimp
import Mathlib.Tactic.Linarith
import Mathlib.Tactic.Positivity
import Mathlib.Tactic.NormNum

/-! # C113, C114, C115: the reference pulse, the basis and the merging of pulses -/

namespace Verif.Props

open Verif.Py Verif.Model

/-! ### C113 -/

theorem foldl_set_at (p : Nat → Nat → Nat) (g : Nat → ℚ) (l : List Nat) (y : List ℚ) :
    (l.foldl (fun y j => y.set (p y.length j) (g (p y.length j))) y).length = y.length ∧
    ∀ i, (l.foldl (fun y j => y.set (p y.length j) (g (p y.length j))) y)[i]? =
      if i < y.length ∧ ∃ j ∈ l, p y.length j = i then some (g i) else y[i]? := by
  induction l generalizing y with
  | nil => simp
  | cons j l ih =>
    simp only [List.foldl_cons]
    obtain ⟨h1, h2⟩ := ih (y.set (p y.length j) (g (p y.length j)))
    rw [List.length_set] at h1
    refine ⟨h1, fun i => ?_⟩
    rw [h2 i, List.length_set]
    by_cases hi : i < y.length
    · by_cases he : ∃ k ∈ l, p y.length k = i
      · obtain ⟨k, hk, hp⟩ := he
        rw [if_pos ⟨hi, k, hk, hp⟩, if_pos ⟨hi, k, by simp [hk], hp⟩]
      · rw [if_neg fun h => he h.2, List.getElem?_set]
        by_cases hj : p y.length j = i
        · subst hj
          rw [if_pos rfl, if_pos hi, if_pos ⟨hi, j, by simp, rfl⟩]
        · rw [if_neg hj, if_neg]
          rintro ⟨-, k, hk, hp⟩
          rcases List.mem_cons.mp hk with rfl | hk
          · exact hj hp
          · exact he ⟨k, hk, hp⟩
    · rw [if_neg fun h => hi h.1, if_neg fun h => hi h.1, List.getElem?_set]
      by_cases hj : p y.length j = i
      · rw [if_pos hj, if_neg (by rw [hj]; exact hi)]
        simp [List.getElem?_eq_none (by omega : y.length ≤ i)]
      · rw [if_neg hj]

/-- The reference pulse goes to 0 at both ends: what the comments in the code ask for. -/
def EndsAtZero : Prop :=
  ∀ (x y out : List ℚ), x.length = y.length → 14 ≤ x.length → x.Pairwise (· < ·) → x[0]? = some 0 → smoothEnds x y = .ok out →
    out[0]? = some 0 ∧ out[out.length - 1]? = some 0

/-- C113 (part): for at least 14 points at ascending times from 0: the first four points are replaced by a line from 0 through the fifth point; the last ten points by a
line through the tenth last point; all others are kept. The last point is the fraction `1 - (x[-1] - x[-10]) / x[10]` of the tenth last. Missing: that it is 0
(`C113_false`). -/
theorem C113_partial (x y : List ℚ) (hl : x.length = y.length) (hn : 14 ≤ x.length) (hx : x.Pairwise (· < ·)) (h0 : x[0]? = some 0) :
    ∃ out, smoothEnds x y = .ok out ∧ out.length = y.length ∧ out[0]? = some 0 ∧
      (∀ i, 4 ≤ i → i + 10 < y.length → out[i]? = y[i]?) ∧
      (∀ i < 4, ∀ xi x4 y4, x[i]? = some xi → x[4]? = some x4 → y[4]? = some y4 → out[i]? = some (y4 * (xi / x4))) ∧
      ∀ i, y.length - 10 ≤ i → ∀ xi xe ye x10, x[i]? = some xi → x[y.length - 10]? = some xe → y[y.length - 10]? = some ye → x[10]? = some x10 →
        out[i]? = some (ye * (1 - (xi - xe) / x10)) := by
  have hpos : ∀ i, 0 < i → ∀ v, x[i]? = some v → 0 < v := by
    intro i hi v hv
    obtain ⟨h1, h2⟩ := List.getElem?_eq_some_iff.mp hv
    obtain ⟨h3, h4⟩ := List.getElem?_eq_some_iff.mp h0
    have := List.pairwise_iff_getElem.mp hx 0 i h3 h1 hi
    rw [h2, h4] at this
    exact this
  have hget : ∀ (l : List ℚ) i v, l[i]? = some v → l.getD i 0 = v := by
    intro l i v h; rw [List.getD_eq_getElem?_getD, h]; rfl
  obtain ⟨x4, hx4⟩ : ∃ v, x[4]? = some v := ⟨_, List.getElem?_eq_getElem (by omega)⟩
  obtain ⟨y4, hy4⟩ : ∃ v, y[4]? = some v := ⟨_, List.getElem?_eq_getElem (by omega)⟩
  obtain ⟨x10, hx10⟩ : ∃ v, x[10]? = some v := ⟨_, List.getElem?_eq_getElem (by omega)⟩
  obtain ⟨ye, hye⟩ : ∃ v, y[y.length - 10]? = some v := ⟨_, List.getElem?_eq_getElem (by omega)⟩
  obtain ⟨xe, hxe⟩ : ∃ v, x[y.length - 10]? = some v := ⟨_, List.getElem?_eq_getElem (by omega)⟩
  have h4 := hpos 4 (by omega) x4 hx4
  have h10 := hpos 10 (by omega) x10 hx10
  obtain ⟨a1, a2⟩ := foldl_set_at (fun _ j => j) (fun i => y4 / x4 * x.getD i 0) (List.range 4) y
  generalize hA : (List.range 4).foldl (fun y i => y.set i (y4 / x4 * x.getD i 0)) y = A at a1 a2
  have hAe : A.getD (A.length - 10) 0 = ye := by
    refine hget _ _ _ ?_
    rw [a1, a2, if_neg, hye]
    rintro ⟨-, j, hj, he⟩
    simp only [List.mem_range] at hj
    omega
  obtain ⟨b1, b2⟩ := foldl_set_at (fun n j => n - (j + 1)) (fun i => -ye / x10 * x.getD i 0 + (ye - -ye / x10 * xe)) (List.range 10) A
  generalize hB : (List.range 10).foldl (fun y j => y.set (y.length - (j + 1)) (-ye / x10 * x.getD (y.length - (j + 1)) 0 + (ye - -ye / x10 * xe))) A = B at b1 b2
  refine ⟨B, ?_, ?_, ?_, ?_, ?_, ?_⟩
  rotate_left
  · rw [b1, a1]
  · rw [b2, if_neg, a2, if_pos ⟨by omega, 0, by simp, rfl⟩, hget x 0 0 h0, mul_zero]
    rintro ⟨-, j, hj, he⟩
    simp only [List.mem_range] at hj
    omega
  · intro i hi hi'
    rw [b2, if_neg, a2, if_neg]
    · rintro ⟨-, j, hj, he⟩
      simp only [List.mem_range] at hj
      omega
    · rintro ⟨-, j, hj, he⟩
      simp only [List.mem_range] at hj
      omega
  · intro i hi xi x4' y4' hxi e1 e2
    rw [hx4] at e1; cases e1
    rw [hy4] at e2; cases e2
    rw [b2, if_neg, a2, if_pos ⟨by omega, i, by simpa using hi, rfl⟩, hget x i xi hxi]
    · congr 1; ring
    · rintro ⟨-, j, hj, he⟩
      simp only [List.mem_range] at hj
      omega
  · intro i hi xi xe' ye' x10' hxi e1 e2 e3
    rw [hxe] at e1; cases e1
    rw [hye] at e2; cases e2
    rw [hx10] at e3; cases e3
    have hlt := (List.getElem?_eq_some_iff.mp hxi).1
    rw [b2, if_pos ⟨by omega, A.length - (i + 1), by simp; omega, by omega⟩, hget x i xi hxi]
    congr 1; ring
  · unfold smoothEnds
    rw [hx4, hy4, hx10]
    simp only [h4.ne', h10.ne', or_self, if_false, hA, hAe]
    rw [a1, hget x _ _ hxe, hB]

/-- C113: a file of at most ten points raises IndexError; longer ones do not unless the fifth or eleventh time is zero. -/
theorem C113_short (x y : List ℚ) (hl : x.length = y.length) :
    (x.length ≤ 10 → smoothEnds x y = .error .indexError) ∧ (10 < x.length → x[4]? ≠ some 0 → x[10]? ≠ some 0 → ∃ out, smoothEnds x y = .ok out) := by
  refine ⟨fun h => ?_, fun h h4 h10 => ?_⟩
  · unfold smoothEnds
    rw [List.getElem?_eq_none (l := x) (i := 10) h]
    cases x[4]? <;> cases y[4]? <;> rfl
  · unfold smoothEnds
    rw [List.getElem?_eq_getElem (by omega : 4 < x.length), List.getElem?_eq_getElem (by omega : 4 < y.length), List.getElem?_eq_getElem h] at *
    simp only
    rw [if_neg]
    · exact ⟨_, rfl⟩
    · rintro (e | e)
      · exact h4 (by rw [e])
      · exact h10 (by rw [e])

example : smoothEnds [0, 1, 2, 3, 0] [1, 1, 1, 1, 1] = .error .indexError := by decide +kernel

/-- points at 0, 1, …, 19 -/
def evenTimes : List ℚ := (List.range 20).map fun n => (n : ℚ)

/-- a pulse of height 10 -/
def flatPulse : List ℚ := List.replicate 20 10

example := C113_partial evenTimes flatPulse (by decide +kernel) (by decide +kernel) (by decide +kernel) (by decide +kernel)

/-- **C113, exactly**: the template ends at 0 if and only if the last ten points span exactly the time of the eleventh point, or the tenth last point is 0. -/
theorem C113_exactly_partial (x y out : List ℚ) (hl : x.length = y.length) (hn : 14 ≤ x.length) (hx : x.Pairwise (· < ·)) (h0 : x[0]? = some 0)
    (h : smoothEnds x y = .ok out) (xe xl x10 ye : ℚ) (he : x[y.length - 10]? = some xe) (hlast : x[y.length - 1]? = some xl) (h10 : x[10]? = some x10)
    (hye : y[y.length - 10]? = some ye) : out[out.length - 1]? = some 0 ↔ xl - xe = x10 ∨ ye = 0 := by
  obtain ⟨out', ho, hlen, -, -, -, htail⟩ := C113_partial x y hl hn hx h0
  rw [h] at ho
  cases ho
  rw [hlen, htail (y.length - 1) (by omega) xl xe ye x10 hlast he hye h10, Option.some.injEq, mul_eq_zero]
  have hpos : 0 < x10 := by
    obtain ⟨a, ea⟩ := List.getElem?_eq_some_iff.1 h0
    obtain ⟨b, eb⟩ := List.getElem?_eq_some_iff.1 h10
    have := List.pairwise_iff_getElem.1 hx 0 10 a b (by omega)
    rw [ea, eb] at this
    exact this
  constructor
  · rintro (h1 | h1)
    · exact .inr h1
    · left
      have : (xl - xe) / x10 = 1 := by linarith
      rwa [div_eq_one_iff_eq hpos.ne'] at this
  · rintro (h1 | h1)
    · right
      rw [h1, div_self hpos.ne', sub_self]
    · exact .inl h1

/-- C113 fails as stated: with points 1 ns apart the last point is a tenth of the tenth last. -/
theorem C113_false : smoothEnds evenTimes flatPulse = .ok [0, 5/2, 5, 15/2, 10, 10, 10, 10, 10, 10, 10, 9, 8, 7, 6, 5, 4, 3, 2, 1] ∧ ¬ EndsAtZero := by
  have h : smoothEnds evenTimes flatPulse = .ok [0, 5/2, 5, 15/2, 10, 10, 10, 10, 10, 10, 10, 9, 8, 7, 6, 5, 4, 3, 2, 1] := by decide +kernel
  refine ⟨h, fun hc => ?_⟩
  have := (hc evenTimes flatPulse _ (by decide +kernel) (by decide +kernel) (by decide +kernel) (by decide +kernel) h).2
  exact absurd this (by decide +kernel)

/-- C113: on every grid of equal steps from 0 the last point is a tenth of the tenth last. -/
theorem C113_step (x y : List ℚ) (h : ℚ) (hh : 0 < h) (hl : x.length = y.length) (hn : 14 ≤ x.length) (hx : ∀ i < x.length, x[i]? = some (i * h)) (ye : ℚ)
    (hye : y[y.length - 10]? = some ye) : ∃ out, smoothEnds x y = .ok out ∧ out[out.length - 1]? = some (ye / 10) := by
  have hpw : x.Pairwise (· < ·) := by
    rw [List.pairwise_iff_getElem]
    intro i j hi hj hij
    have h1 := List.getElem?_eq_some_iff.mp (hx i hi)
    have h2 := List.getElem?_eq_some_iff.mp (hx j hj)
    rw [h1.2, h2.2]
    have : (i : ℚ) < j := by exact_mod_cast hij
    nlinarith
  obtain ⟨out, h1, h2, -, -, -, h3⟩ := C113_partial x y hl hn hpw (by rw [hx 0 (by omega)]; simp)
  refine ⟨out, h1, ?_⟩
  rw [h2, h3 _ (by omega) _ _ ye _ (hx (y.length - 1) (by omega)) (hx (y.length - 10) (by omega)) hye (hx 10 (by omega))]
  have e1 : ((y.length - 1 : ℕ) : ℚ) = y.length - 1 := by push_cast [Nat.cast_sub (by omega : 1 ≤ y.length)]; ring
  have e2 : ((y.length - 10 : ℕ) : ℚ) = y.length - 10 := by push_cast [Nat.cast_sub (by omega : 10 ≤ y.length)]; ring
  rw [e1, e2]
  congr 1
  push_cast
  field_simp
  ring

example := C113_step evenTimes flatPulse 1 (by norm_num) (by decide +kernel) (by decide +kernel) (by decide +kernel) 10 (by decide +kernel)

/-! ### C114 -/

/-- The basis follows the template, `bases_bin` and the number of samples: at least `bases_bin` pulses for each ns from the first to the last pulse, and waveforms of
`n_samples` samples are accepted. -/
def BasisAsAsked : Prop :=
  ∀ (template : ℚ → ℚ) (basesBin nSamples : Nat) (b : NnlsBasis), 0 < basesBin → nnlsBasis template basesBin nSamples = .ok b →
    (∀ first, b.basisT[0]? = some first → (basesBin : ℚ) * (126 - first) ≤ b.basisT.length) ∧
    ∀ (tolerance : ℚ) (solve : List Nat → List ℚ) (wf : List ℚ), wf.length = nSamples → ∃ pulses, fitWaveform b tolerance solve wf = .ok pulses

theorem templateEnd_spec (template : ℚ → ℚ) (t : ℚ) (h : templateEnd template = .ok t) :
    0 ≤ t ∧ t ≤ 120 ∧ 0 < template t ∧ ∃ k : Nat, k < 1000 ∧ t = k * (120 / 999) ∧ ∀ j : Nat, j < 1000 → k < j → template (j * (120 / 999)) ≤ 0 := by
  have hg : ∀ i : Nat, linspaceAt 0 120 1000 i = i * (120 / 999) := by
    intro i; unfold linspaceAt; norm_num
  unfold templateEnd at h
  cases hf : (List.range 1000).reverse.find? fun i => decide (0 < template (linspaceAt 0 120 1000 i)) with
  | none => rw [hf] at h; cases h
  | some i =>
    rw [hf] at h
    cases h
    obtain ⟨h1, as, bs, h2, h3⟩ := List.find?_eq_some_iff_append.mp hf
    have hi : i < 1000 := by
      have : i ∈ (List.range 1000).reverse := by rw [h2]; simp
      simpa using this
    rw [hg] at h1 ⊢
    have hi' : (i : ℚ) ≤ 999 := by exact_mod_cast (by omega : i ≤ 999)
    have h0 : (0 : ℚ) ≤ i := by positivity
    refine ⟨by positivity, by linarith, by simpa using h1, i, hi, rfl, fun j hj hij => ?_⟩
    have hr : List.range 1000 = bs.reverse ++ i :: as.reverse := by
      have := congrArg List.reverse h2
      simpa using this
    have hm : j ∈ as := by
      have hmem : j ∈ bs.reverse ++ i :: as.reverse := by rw [← hr]; simpa using hj
      have hp : (bs.reverse ++ i :: as.reverse).Pairwise (· < ·) := by rw [← hr]; exact List.pairwise_lt_range
      rw [List.pairwise_append] at hp
      rcases List.mem_append.mp hmem with hb | hb
      · exact absurd (hp.2.2 j hb i (by simp)) (by omega)
      · rcases List.mem_cons.mp hb with rfl | hb
        · omega
        · simpa using hb
    have := h3 j hm
    rw [hg] at this
    simpa using this

/-- C114 (part): the constructor succeeds if and only if the template is positive at one of the 1000 times. Then, with `tEnd` the last of these times: there are `127 * bases_bin`
pulses in equal steps from `-tEnd` to 126 ns; column `i` of the matrix is the template delayed by the time of pulse `i`, at 128 samples 1 ns apart; a waveform is
accepted if and only if it has 128 samples. Missing: the number of pulses for the length of the template, and other numbers of samples (`C114_false`). -/
theorem C114_partial (template : ℚ → ℚ) (basesBin nSamples : Nat) (hb : 0 < basesBin) :
    ((∃ b, nnlsBasis template basesBin nSamples = .ok b) ↔ ∃ k : Nat, k < 1000 ∧ 0 < template (k * (120 / 999))) ∧
    ∀ b, nnlsBasis template basesBin nSamples = .ok b → ∃ tEnd,
      (0 < template tEnd ∧ ∃ k : Nat, k < 1000 ∧ tEnd = k * (120 / 999) ∧ ∀ j : Nat, j < 1000 → k < j → template (j * (120 / 999)) ≤ 0) ∧
      b.basisT.length = 127 * basesBin ∧ b.basisT[0]? = some (-tEnd) ∧ b.basisT[127 * basesBin - 1]? = some 126 ∧
      (∀ (i : Nat) t t', b.basisT[i]? = some t → b.basisT[i + 1]? = some t' → t' - t = (126 + tEnd) / (127 * basesBin - 1)) ∧
      b.matrix.length = 128 ∧ (∀ (s : Nat), s < 128 → ∃ row, b.matrix[s]? = some row ∧ row.length = 127 * basesBin ∧
        ∀ (i : Nat) t, b.basisT[i]? = some t → row[i]? = some (template (s - t))) ∧
      ∀ (tolerance : ℚ) (solve : List Nat → List ℚ) (wf : List ℚ),
        (wf.length ≠ 128 → fitWaveform b tolerance solve wf = .error .valueError) ∧
        (wf.length = 128 → ∃ pulses, fitWaveform b tolerance solve wf = .ok pulses) := by
  constructor
  · constructor
    · rintro ⟨b, h⟩
      unfold nnlsBasis at h
      cases ht : templateEnd template with
      | error e => rw [ht] at h; cases h
      | ok t =>
        obtain ⟨-, -, h1, k, h2, rfl, -⟩ := templateEnd_spec template t ht
        exact ⟨k, h2, h1⟩
    · rintro ⟨k, hk, h⟩
      unfold nnlsBasis templateEnd
      cases hf : (List.range 1000).reverse.find? fun i => decide (0 < template (linspaceAt 0 120 1000 i)) with
      | none =>
        have := List.find?_eq_none.mp hf k (by simpa using hk)
        have hg : linspaceAt 0 120 1000 k = k * (120 / 999) := by unfold linspaceAt; norm_num
        rw [hg] at this
        exact absurd h (by simpa using this)
      | some i => exact ⟨_, rfl⟩
  · intro b h
    unfold nnlsBasis at h
    cases ht : templateEnd template with
    | error e => rw [ht] at h; cases h
    | ok t =>
      rw [ht] at h
      obtain ⟨h0, h120, hs⟩ := templateEnd_spec template t ht
      have hfl : (⌊127 + t / 1000000000⌋).toNat = 127 := by
        have : ⌊127 + t / 1000000000⌋ = 127 := by
          rw [Int.floor_eq_iff]
          constructor
          · have : 0 ≤ t / 1000000000 := by positivity
            push_cast; linarith
          · have : t / 1000000000 < 1 := by rw [div_lt_one (by norm_num)]; linarith
            push_cast; linarith
        rw [this]; rfl
      simp only [hfl, Except.ok.injEq] at h
      subst h
      have hn1 : 127 * basesBin ≠ 1 := by omega
      have hcast : ((127 * basesBin - 1 : ℕ) : ℚ) = 127 * basesBin - 1 := by
        rw [Nat.cast_sub (by omega)]; push_cast; ring
      have hpos : (0 : ℚ) < 127 * basesBin - 1 := by
        have : (1 : ℚ) ≤ basesBin := by exact_mod_cast hb
        linarith
      have hlin : ∀ i : Nat, linspaceAt (0 - t) 126 (127 * basesBin) i = -t + i * ((126 + t) / (127 * basesBin - 1)) := by
        intro i
        unfold linspaceAt
        rw [if_neg hn1, hcast]
        ring
      have hget : ∀ (i : Nat) v, ((List.range (127 * basesBin)).map (linspaceAt (0 - t) 126 (127 * basesBin)))[i]? = some v →
          i < 127 * basesBin ∧ v = -t + i * ((126 + t) / (127 * basesBin - 1)) := by
        intro i v hv
        obtain ⟨hi, hv⟩ := List.getElem?_eq_some_iff.mp hv
        simp only [List.length_map, List.length_range] at hi
        refine ⟨hi, ?_⟩
        rw [← hv, List.getElem_map, hlin]
        simp
      refine ⟨t, hs, by simp, ?_, ?_, ?_, by simp, ?_, ?_⟩
      · rw [List.getElem?_map, List.getElem?_range (by omega), Option.map_some, hlin]
        simp
      · rw [List.getElem?_map, List.getElem?_range (by omega)]
        simp only [Option.map_some, hlin, hcast, Option.some.injEq]
        field_simp
        ring
      · intro i a a' h1 h2
        obtain ⟨-, rfl⟩ := hget _ _ h1
        obtain ⟨-, rfl⟩ := hget _ _ h2
        push_cast
        ring
      · intro s hs
        refine ⟨_, by rw [List.getElem?_map, List.getElem?_range hs]; rfl, by simp, fun i a ha => ?_⟩
        rw [List.getElem?_map, ha]
        rfl
      · intro tol solve wf
        unfold fitWaveform
        simp only [List.length_map, List.length_range]
        exact ⟨fun h => by rw [if_neg h], fun h => ⟨_, by rw [if_pos h]⟩⟩

/-- a triangle of 10 ns -/
def triangle (t : ℚ) : ℚ := if 0 ≤ t ∧ t ≤ 10 then min t (10 - t) else 0

example := C114_partial triangle 4 96 (by decide)

theorem triangle_basis : ∃ b, nnlsBasis triangle 4 96 = .ok b :=
  (C114_partial triangle 4 96 (by decide)).1.mpr ⟨50, by decide, by unfold triangle; norm_num⟩

/-- C114 fails as stated. For the triangle with 4 pulses per ns there are 508 pulses for more than 135 ns; a waveform of 96 samples is refused although the
constructor was told so. For no template longer than 1 ns there are enough pulses. -/
theorem C114_false : ¬ BasisAsAsked ∧
    (∀ (template : ℚ → ℚ) (basesBin nSamples : Nat) (b : NnlsBasis) (k : Nat), 0 < basesBin → nnlsBasis template basesBin nSamples = .ok b → k < 1000 → 9 ≤ k →
      0 < template (k * (120 / 999)) → ∀ first, b.basisT[0]? = some first → (b.basisT.length : ℚ) < basesBin * (126 - first)) ∧
    ∃ b, nnlsBasis triangle 4 96 = .ok b ∧ ∀ tolerance solve, fitWaveform b tolerance solve (List.replicate 96 0) = .error .valueError := by
  have hsamples : ∃ b, nnlsBasis triangle 4 96 = .ok b ∧ ∀ tolerance solve, fitWaveform b tolerance solve (List.replicate 96 0) = .error .valueError := by
    obtain ⟨b, hb⟩ := triangle_basis
    obtain ⟨t, -, -, -, -, -, -, -, h⟩ := (C114_partial triangle 4 96 (by decide)).2 b hb
    exact ⟨b, hb, fun tol solve => (h tol solve _).1 (by simp)⟩
  refine ⟨fun hc => ?_, ?_, hsamples⟩
  · obtain ⟨b, hb, h⟩ := hsamples
    obtain ⟨p, hp⟩ := (hc triangle 4 96 b (by decide) hb).2 0 (fun _ => []) (List.replicate 96 0) (by simp)
    rw [h] at hp
    cases hp
  · intro template bb n b k hbb hb hk hk9 hpos first hf
    obtain ⟨t, ⟨-, j, hj, rfl, hlast⟩, h1, h2, -⟩ := (C114_partial template bb n hbb).2 b hb
    rw [h2] at hf
    cases hf
    have hkj : k ≤ j := by
      by_contra hlt
      exact absurd hpos (not_lt.mpr (hlast k hk (by omega)))
    have hj9 : (9 : ℚ) ≤ j := by exact_mod_cast hk9.trans hkj
    have hbb' : (0 : ℚ) < bb := by exact_mod_cast hbb
    rw [h1]
    push_cast
    nlinarith

/-! ### C115 -/

/-- total charge -/
def pulseCharge (l : List (ℚ × ℚ)) : ℚ := (l.map (·.2)).sum

/-- mean time, weighted with the charges -/
def pulseTime (l : List (ℚ × ℚ)) : ℚ := (l.map fun p => p.1 * p.2).sum / pulseCharge l

/-- the rule: consecutive groups; a pulse joins a group if and only if it comes less than `width` after the mean time of the group so far -/
structure IsMerging (width : ℚ) (l : List (ℚ × ℚ)) (groups : List (List (ℚ × ℚ))) : Prop where
  all : groups.flatten = l
  nonempty : ∀ g ∈ groups, g ≠ []
  joined : ∀ g ∈ groups, ∀ p a s, g = p ++ a :: s → p ≠ [] → a.1 - pulseTime p < width
  apart : groups.IsChain fun g g' => ∀ a, g'.head? = some a → width ≤ a.1 - pulseTime g

theorem pulseCharge_pos (l : List (ℚ × ℚ)) (hl : l ≠ []) (h : ∀ p ∈ l, 0 < p.2) : 0 < pulseCharge l := by
  unfold pulseCharge
  refine List.sum_pos _ ?_ (by simpa using hl)
  simpa using fun b a hab => h (a, b) hab

theorem pulseTime_snoc (l : List (ℚ × ℚ)) (a : ℚ × ℚ) (hl : pulseCharge l ≠ 0) :
    pulseTime (l ++ [a]) = (pulseTime l * pulseCharge l + a.1 * a.2) / (pulseCharge l + a.2) := by
  unfold pulseTime
  rw [div_mul_cancel₀ _ hl]
  congr 1
  · simp
  · unfold pulseCharge; simp

theorem pulseCharge_snoc (l : List (ℚ × ℚ)) (a : ℚ × ℚ) : pulseCharge (l ++ [a]) = pulseCharge l + a.2 := by
  unfold pulseCharge; simp

theorem mergeLoop_spec (width : ℚ) (rest p : List (ℚ × ℚ)) (hp : p ≠ []) (hc : ∀ a ∈ p ++ rest, 0 < a.2)
    (hj : ∀ q a s, p = q ++ a :: s → q ≠ [] → a.1 - pulseTime q < width) :
    ∃ g gs, mergeLoop width (pulseTime p) (pulseCharge p) rest = (g :: gs).map (fun g => (pulseTime g, pulseCharge g)) ∧ IsMerging width (p ++ rest) (g :: gs) ∧
      ∃ s, g = p ++ s := by
  induction rest generalizing p with
  | nil =>
    refine ⟨p, [], rfl, ⟨by simp, by simpa using hp, ?_, by simp⟩, [], by simp⟩
    simpa using fun q a b s => hj q (a, b) s
  | cons a rest ih =>
    obtain ⟨t', c'⟩ := a
    have hpos := pulseCharge_pos p hp fun a ha => hc a (by simp [ha])
    unfold mergeLoop
    split
    · rename_i hlt
      have e1 := pulseTime_snoc p (t', c') hpos.ne'
      have e2 := pulseCharge_snoc p (t', c')
      simp only at e1 e2
      rw [← e1, ← e2]
      obtain ⟨g, gs, h1, h2, s, h3⟩ := ih (p ++ [(t', c')]) (by simp) (by simpa using hc) (by
        intro q a s he hq
        rcases List.eq_nil_or_concat s with rfl | ⟨s', b, rfl⟩
        · have := List.append_inj' he rfl
          rw [← this.1]
          have e := this.2
          simp only [List.cons.injEq, and_true] at e
          rw [← e]
          exact hlt
        · have he' : p ++ [(t', c')] = (q ++ a :: s') ++ [b] := by rw [he]; simp
          exact hj q a s' (List.append_inj' he' rfl).1 hq)
      exact ⟨g, gs, h1, by simpa using h2, (t', c') :: s, by rw [h3]; simp⟩
    · rename_i hge
      have hc' : c' = pulseCharge [(t', c')] := by simp [pulseCharge]
      have hcpos : 0 < c' := hc (t', c') (by simp)
      have ht' : t' = pulseTime [(t', c')] := by
        unfold pulseTime
        rw [← hc']
        simp [mul_div_cancel_right₀ _ hcpos.ne']
      obtain ⟨g, gs, h1, h2, s, h3⟩ := ih [(t', c')] (by simp) (by
        intro a ha
        exact hc a (by simp at ha ⊢; tauto)) (by
        intro q a s he hq
        have := congrArg List.length he
        simp at this
        cases q with
        | nil => exact absurd rfl hq
        | cons x q => simp at this; omega)
      rw [← ht', ← hc'] at h1
      refine ⟨p, g :: gs, by rw [h1]; simp, ⟨?_, ?_, ?_, ?_⟩, [], by simp⟩
      · rw [List.flatten_cons, h2.all]; simp
      · intro x hx
        rcases List.mem_cons.mp hx with rfl | hx
        · exact hp
        · exact h2.nonempty x hx
      · intro x hx
        rcases List.mem_cons.mp hx with rfl | hx
        · exact hj
        · exact h2.joined x hx
      · rw [List.isChain_cons_cons]
        refine ⟨?_, h2.apart⟩
        intro a ha
        rw [h3] at ha
        simp at ha
        rw [← ha]
        exact not_lt.mp hge

/-- C115: merging pulses of positive charge follows the rule: the merged pulses are the groups, each with its total charge and weighted mean time. -/
theorem C115_groups (width : ℚ) (l : List (ℚ × ℚ)) (hc : ∀ a ∈ l, 0 < a.2) :
    ∃ groups, IsMerging width l groups ∧ mergePulses width l = groups.map fun g => (pulseTime g, pulseCharge g) := by
  cases l with
  | nil => exact ⟨[], ⟨rfl, by simp, by simp, by simp⟩, rfl⟩
  | cons a l =>
    obtain ⟨t, c⟩ := a
    have hcpos : 0 < c := hc (t, c) (by simp)
    have hc' : pulseCharge [(t, c)] = c := by simp [pulseCharge]
    have ht' : pulseTime [(t, c)] = t := by
      unfold pulseTime
      rw [hc']
      simp [mul_div_cancel_right₀ _ hcpos.ne']
    obtain ⟨g, gs, h1, h2, -⟩ := mergeLoop_spec width l [(t, c)] (by simp) (by simpa using hc) (by
      intro q a s he hq
      have := congrArg List.length he
      simp at this
      cases q with
      | nil => exact absurd rfl hq
      | cons x q => simp at this; omega)
    rw [ht', hc'] at h1
    exact ⟨g :: gs, by simpa using h2, h1⟩

/-- C115: the total charge is kept, whatever the charges; with positive charges also the weighted mean time. -/
theorem C115_kept (width : ℚ) (l : List (ℚ × ℚ)) :
    pulseCharge (mergePulses width l) = pulseCharge l ∧ ((∀ a ∈ l, 0 < a.2) → pulseTime (mergePulses width l) = pulseTime l) := by
  have hloop : ∀ (rest : List (ℚ × ℚ)) t c, pulseCharge (mergeLoop width t c rest) = c + pulseCharge rest := by
    intro rest
    induction rest with
    | nil => intro t c; simp [mergeLoop, pulseCharge]
    | cons a rest ih =>
      intro t c
      obtain ⟨t', c'⟩ := a
      unfold mergeLoop
      have hcons : ∀ (x : ℚ × ℚ) m, pulseCharge (x :: m) = x.2 + pulseCharge m := by intro x m; simp [pulseCharge]
      split
      · rw [ih, hcons]; ring
      · rw [hcons, ih, hcons]
  have h1 : pulseCharge (mergePulses width l) = pulseCharge l := by
    cases l with
    | nil => rfl
    | cons a l => obtain ⟨t, c⟩ := a; unfold mergePulses; rw [hloop]; simp [pulseCharge]
  refine ⟨h1, fun hc => ?_⟩
  obtain ⟨groups, hm, he⟩ := C115_groups width l hc
  unfold pulseTime
  rw [h1, he]
  congr 1
  rw [← hm.all]
  have hg : ∀ g ∈ groups, pulseCharge g ≠ 0 := fun g hg => (pulseCharge_pos g (hm.nonempty g hg) fun a ha => hc a (by
    rw [← hm.all]; exact List.mem_flatten.mpr ⟨g, hg, ha⟩)).ne'
  clear hm he h1
  induction groups with
  | nil => rfl
  | cons g gs ih =>
    simp only [List.map_cons, List.sum_cons, List.flatten_cons, List.map_append, List.sum_append]
    rw [ih fun g' hg' => hg g' (by simp [hg'])]
    congr 1
    unfold pulseTime
    rw [div_mul_cancel₀ _ (hg g (by simp))]

theorem pulseTime_bounds (g : List (ℚ × ℚ)) (hg : g ≠ []) (hc : ∀ a ∈ g, 0 < a.2) (lo hi : ℚ) (h : ∀ a ∈ g, lo ≤ a.1 ∧ a.1 ≤ hi) :
    lo ≤ pulseTime g ∧ pulseTime g ≤ hi := by
  have hpos := pulseCharge_pos g hg hc
  unfold pulseTime
  rw [le_div_iff₀ hpos, div_le_iff₀ hpos]
  clear hpos hg
  unfold pulseCharge
  induction g with
  | nil => simp
  | cons a g ih =>
    have h1 := hc a (by simp)
    have h2 := h a (by simp)
    have h3 := ih (fun b hb => hc b (by simp [hb])) fun b hb => h b (by simp [hb])
    simp only [List.map_cons, List.sum_cons, mul_add]
    have h4 := mul_le_mul_of_nonneg_right h2.1 h1.le
    have h5 := mul_le_mul_of_nonneg_right h2.2 h1.le
    constructor
    · linarith [h3.1]
    · linarith [h3.2]

/-- C115: merged pulses of ascending times are at least `width` apart, lie between the first and the last time, and are not more than before; merging them again
changes nothing. -/
theorem C115_apart (width : ℚ) (l : List (ℚ × ℚ)) (hc : ∀ a ∈ l, 0 < a.2) (ht : l.Pairwise fun a b => a.1 ≤ b.1) :
    (mergePulses width l).IsChain (fun a b => width ≤ b.1 - a.1) ∧ (∀ lo hi, (∀ a ∈ l, lo ≤ a.1 ∧ a.1 ≤ hi) → ∀ a ∈ mergePulses width l, lo ≤ a.1 ∧ a.1 ≤ hi) ∧
      (mergePulses width l).length ≤ l.length ∧ mergePulses width (mergePulses width l) = mergePulses width l := by
  obtain ⟨groups, hm, he⟩ := C115_groups width l hc
  have hcg : ∀ g ∈ groups, ∀ a ∈ g, 0 < a.2 := fun g hg a ha => hc a (by rw [← hm.all]; exact List.mem_flatten.mpr ⟨g, hg, ha⟩)
  have hasc : ∀ g ∈ groups, ∀ a, g.head? = some a → a.1 ≤ pulseTime g := by
    intro g hg a ha
    have hsub : g.Pairwise fun a b => a.1 ≤ b.1 := by
      refine List.Pairwise.sublist ?_ ht
      rw [← hm.all]
      exact List.sublist_flatten_of_mem hg
    cases g with
    | nil => cases ha
    | cons b g =>
      cases ha
      rw [List.pairwise_cons] at hsub
      have hex : ∃ hi, ∀ x ∈ a :: g, x.1 ≤ hi := by
        generalize a :: g = m
        induction m with
        | nil => exact ⟨0, by simp⟩
        | cons x m ih =>
          obtain ⟨hi, h⟩ := ih
          refine ⟨max x.1 hi, fun y hy => ?_⟩
          rcases List.mem_cons.mp hy with rfl | hy
          · exact le_max_left _ _
          · exact (h y hy).trans (le_max_right _ _)
      obtain ⟨hi, hhi⟩ := hex
      refine (pulseTime_bounds (a :: g) (by simp) (hcg _ hg) a.1 hi fun x hx => ⟨?_, hhi x hx⟩).1
      rcases List.mem_cons.mp hx with rfl | hx
      · exact le_refl _
      · exact hsub.1 x hx
  have hchain : (mergePulses width l).IsChain fun a b => width ≤ b.1 - a.1 := by
    rw [he, List.isChain_map]
    have hap := hm.apart
    have hne := hm.nonempty
    clear hm he hcg
    induction groups with
    | nil => simp
    | cons g gs ih =>
      cases gs with
      | nil => simp
      | cons g' gs =>
        rw [List.isChain_cons_cons] at hap ⊢
        refine ⟨?_, ih (fun x hx => hasc x (by simp at hx ⊢; tauto)) hap.2 fun x hx => hne x (by simp at hx ⊢; tauto)⟩
        have hg' := hne g' (by simp)
        cases hh : g'.head? with
        | none => exact absurd (List.head?_eq_none_iff.mp hh) hg'
        | some a =>
          have h1 := hap.1 a hh
          have h2 := hasc g' (by simp) a hh
          simp only
          linarith
  refine ⟨hchain, ?_, ?_, ?_⟩
  · intro lo hi h a ha
    rw [he] at ha
    obtain ⟨g, hg, rfl⟩ := List.mem_map.mp ha
    exact pulseTime_bounds g (hm.nonempty g hg) (hcg g hg) lo hi fun a ha => h a (by rw [← hm.all]; exact List.mem_flatten.mpr ⟨g, hg, ha⟩)
  · rw [he, List.length_map, ← hm.all, List.length_flatten]
    have hne := hm.nonempty
    clear hm he hcg hasc hchain
    induction groups with
    | nil => simp
    | cons g gs ih =>
      have h1 := ih fun x hx => hne x (by simp [hx])
      have h2 := List.length_pos_iff.mpr (hne g (by simp))
      simp only [List.length_cons, List.map_cons, List.sum_cons]
      omega
  · revert hchain
    generalize mergePulses width l = m
    intro hchain
    cases m with
    | nil => rfl
    | cons a m =>
      obtain ⟨t, c⟩ := a
      show mergeLoop width t c m = (t, c) :: m
      induction m generalizing t c with
      | nil => rfl
      | cons b m ih =>
        obtain ⟨t', c'⟩ := b
        rw [List.isChain_cons_cons] at hchain
        unfold mergeLoop
        rw [if_neg (not_lt.mpr hchain.1), ih t' c' hchain.2]

/-- three pulses, the first two 1 ns apart -/
def threePulses : List (ℚ × ℚ) := [(10, 1), (11, 3), (15, 2)]

example := C115_groups 2 threePulses (by decide +kernel)
example := C115_kept 2 threePulses
example := C115_apart 2 threePulses (by decide +kernel) (by decide +kernel)
example : mergePulses 2 threePulses = [(43 / 4, 4), (15, 2)] := by decide +kernel

end Verif.Props
