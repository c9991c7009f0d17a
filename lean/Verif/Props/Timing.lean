import Verif.Lemmas.Timing

/-! # C68, C75, C76, C77: pulse timing -/

namespace Verif.Props

open Verif.Py Verif.Model Verif.Spec Verif.Lemmas

/-- `i` is `x` rounded to a whole number, halves to the even one -/
def RoundsTo (x : ℚ) (i : Nat) : Prop := |x - i| ≤ 1 / 2 ∧ (|x - i| = 1 / 2 → i % 2 = 0)

/-- what a pixel reports: nothing (all zero), or the crossings of the half, 90 % and 10 % levels around the pulse sample `i` -/
def TimingSpec (row : List ℚ) (beyond : Option ℚ) (p : PulseTiming) : Prop :=
  p = ⟨0, 0, some 0, some 0, 0, 0, 0, 0⟩ ∨
  ((0 ≤ p.tPulse ∧ p.tPulse < row.length) ∧ ∃ i : Nat, RoundsTo p.tPulse i ∧ i ≤ row.length ∧
    FirstFall row (startLevel row + p.hPulse / 2) i p.tR ∧
    LastRise (withBeyond row beyond) (startLevel row + p.hPulse / 2) i p.tL ∧
    LastRise (withBeyond row beyond) (startLevel row + 9 / 10 * p.hPulse) i p.t90 ∧
    LastRise (withBeyond row beyond) (startLevel row + 1 / 10 * p.hPulse) i p.t10 ∧
    p.fwhm = (if p.tR ≠ 0 ∧ p.tL ≠ 0 then some (p.tR - p.tL) else none) ∧
    p.riseTime = (if p.t90 ≠ 0 ∧ p.t10 ≠ 0 then some (p.t90 - p.t10) else none))

theorem startLevel_eq (row : List ℚ) : mean (sliceList row none (some 10)) = startLevel row := by
  unfold mean startLevel sliceList clampIndex
  simp only [List.drop_zero, Nat.sub_zero]
  rw [if_neg (by omega)]
  by_cases h : 10 ≤ row.length
  · rw [show min (Int.toNat 10) row.length = 10 by simp; omega]
  · rw [show min (Int.toNat 10) row.length = row.length by simp; omega, List.take_of_length_le (le_refl _), List.take_of_length_le (by omega)]

theorem pulseShape_spec (beyond : Option ℚ) (row : List ℚ) (h t : ℚ) (ht : 0 ≤ t ∧ t < row.length) (p : PulseTiming)
    (hp : pulseShape beyond row (startLevel row) h t = .ok p) : TimingSpec row beyond p ∧ p.tPulse = t ∧ p.hPulse = h := by
  unfold pulseShape at hp
  simp only at hp
  obtain ⟨r0, r1⟩ := roundEven_bounds t row.length ht.1 ht.2
  cases h1 : forwardLoop row (startLevel row + h / 2) (row.length - 1 - (roundEven t).toNat) (roundEven t).toNat with
  | error e => rw [h1] at hp; cases hp
  | ok r =>
    rw [h1] at hp
    simp only at hp
    cases h2 : backwardLoop beyond row (startLevel row + h / 2) (startLevel row + 9 / 10 * h) (startLevel row + 1 / 10 * h) (roundEven t).toNat (0, 0, 0) with
    | error e => rw [h2] at hp; cases hp
    | ok s =>
      obtain ⟨l, a, b⟩ := s
      rw [h2] at hp
      cases hp
      obtain ⟨⟨-, b1⟩, ⟨-, b2⟩, -, b3⟩ := backwardLoop_spec beyond row _ _ _ _ (by omega) _ _ _ _ _ _ h2
      refine ⟨Or.inr ⟨ht, (roundEven t).toNat, ?_, by omega, forwardLoop_spec row _ _ _ rfl r h1, b1 rfl, b2 rfl, b3 rfl, rfl, rfl⟩, rfl, rfl⟩
      have e : (((roundEven t).toNat : Nat) : ℚ) = ((roundEven t : Int) : ℚ) := by
        have : (((roundEven t).toNat : Nat) : Int) = roundEven t := Int.toNat_of_nonneg r0
        exact_mod_cast congrArg (Int.cast : Int → ℚ) this
      unfold RoundsTo
      simp only [e]
      refine ⟨roundEven_near t, fun hh => ?_⟩
      have := roundEven_tie t hh
      omega

theorem pixelTiming_spec (beyond : Option ℚ) (row : List ℚ) (a b : Int) (p : PulseTiming) (h : pixelTiming beyond row a b = .ok p) :
    TimingSpec row beyond p := by
  unfold pixelTiming at h
  simp only [startLevel_eq] at h
  cases h1 : argmax (sliceList row (some a) (some b)) with
  | error e => rw [h1] at h; cases h
  | ok k =>
    rw [h1] at h
    simp only at h
    cases h2 : readSample beyond row ((k : Int) + a - 1) with
    | none => rw [h2] at h; cases h; exact Or.inl rfl
    | some y0 =>
      cases h3 : readSample beyond row ((k : Int) + a) with
      | none => rw [h2, h3] at h; cases h; exact Or.inl rfl
      | some y1 =>
        cases h4 : readSample beyond row ((k : Int) + a + 1) with
        | none => rw [h2, h3, h4] at h; cases h; exact Or.inl rfl
        | some y2 =>
          rw [h2, h3, h4] at h
          simp only at h
          split_ifs at h with hb ht
          · cases h; exact Or.inl rfl
          · exact (pulseShape_spec beyond row _ _ ht p h).1
          · cases h; exact Or.inl rfl

theorem pixelTimings_get (mem : Nat → Option ℚ) (a b : Int) (i : Nat) (ws : List (List ℚ)) (ps : List PulseTiming)
    (h : pixelTimings mem a b i ws = .ok ps) :
    ps.length = ws.length ∧ ∀ (j : Nat) r, ws[j]? = some r → ∃ p, ps[j]? = some p ∧ pixelTiming (mem (i + j)) r a b = .ok p := by
  induction ws generalizing i ps with
  | nil => cases h; exact ⟨rfl, by simp⟩
  | cons r rs ih =>
    unfold pixelTimings at h
    cases h1 : pixelTiming (mem i) r a b with
    | error e => rw [h1] at h; cases h
    | ok p =>
      rw [h1] at h
      simp only at h
      cases h2 : pixelTimings mem a b (i + 1) rs with
      | error e => rw [h2] at h; cases h
      | ok qs =>
        rw [h2] at h
        cases h
        obtain ⟨hl, hg⟩ := ih (i + 1) qs h2
        refine ⟨by simp [hl], ?_⟩
        intro j r' hj
        cases j with
        | zero =>
          simp only [List.getElem?_cons_zero, Option.some.injEq] at hj
          subst hj
          exact ⟨p, rfl, h1⟩
        | succ j =>
          simp only [List.getElem?_cons_succ] at hj ⊢
          obtain ⟨q, e1, e2⟩ := hg j r' hj
          exact ⟨q, e1, by rw [show i + (j + 1) = i + 1 + j by omega]; exact e2⟩

theorem timing_get (kwargs : Config Setting) (mem : Nat → Option ℚ) (ws : List (List ℚ)) (t : Int) (ps : List PulseTiming)
    (h : timingPrepare kwargs mem ws = .ok (t, ps)) :
    extractionTime kwargs "t_extract" ws = .ok t ∧ ps.length = ws.length ∧ ∀ (j : Nat) r, ws[j]? = some r → ∃ p, ps[j]? = some p ∧
      pixelTiming (mem j) r (t - kwNumber kwargs "window_shift" 4) (t - kwNumber kwargs "window_shift" 4 + kwNumber kwargs "window_size" 8) = .ok p := by
  unfold timingPrepare at h
  cases h1 : extractionTime kwargs "t_extract" ws with
  | error e => rw [h1] at h; cases h
  | ok t' =>
    rw [h1] at h
    simp only at h
    cases h2 : pixelTimings mem (t' - kwNumber kwargs "window_shift" 4) (t' - kwNumber kwargs "window_shift" 4 + kwNumber kwargs "window_size" 8) 0 ws with
    | error e => rw [h2] at h; cases h
    | ok qs =>
      rw [h2] at h
      cases h
      obtain ⟨hl, hg⟩ := pixelTimings_get _ _ _ _ _ _ h2
      refine ⟨rfl, hl, fun j r hj => ?_⟩
      obtain ⟨p, e1, e2⟩ := hg j r hj
      exact ⟨p, e1, by rw [Nat.zero_add] at e2; exact e2⟩

/-! ## C68 -/

/-- C68: for every event and every setting, every pixel reports nothing or the nearest points around the pulse sample, which is within half a
sample of the pulse time, at which the waveform crosses half, 90 % and 10 % of the pulse height; the width and rise time are the differences. -/
theorem C68_crossings (kwargs : Config Setting) (mem : Nat → Option ℚ) (ws : List (List ℚ)) (t : Int) (ps : List PulseTiming)
    (h : timingPrepare kwargs mem ws = .ok (t, ps)) :
    ps.length = ws.length ∧ ∀ (j : Nat) r, ws[j]? = some r → ∃ p, ps[j]? = some p ∧ TimingSpec r (mem j) p := by
  obtain ⟨-, hl, hg⟩ := timing_get kwargs mem ws t ps h
  refine ⟨hl, fun j r hj => ?_⟩
  obtain ⟨p, e1, e2⟩ := hg j r hj
  exact ⟨p, e1, pixelTiming_spec _ _ _ _ _ e2⟩

/-- C68: a reported width is not negative, and the crossings are on the two sides of a sample within half a sample of the pulse time. -/
theorem C68_width (kwargs : Config Setting) (mem : Nat → Option ℚ) (ws : List (List ℚ)) (t : Int) (ps : List PulseTiming)
    (h : timingPrepare kwargs mem ws = .ok (t, ps)) (p : PulseTiming) (hp : p ∈ ps) (w : ℚ) (hw : p.fwhm = some w) :
    0 ≤ w ∧ ∃ i : Nat, RoundsTo p.tPulse i ∧ p.tL ≤ i ∧ (i : ℚ) ≤ p.tR := by
  obtain ⟨hl, hg⟩ := C68_crossings kwargs mem ws t ps h
  obtain ⟨j, hj, he⟩ := List.getElem_of_mem hp
  obtain ⟨q, e1, e2⟩ := hg j (ws[j]'(by omega)) (List.getElem?_eq_getElem _)
  rw [List.getElem?_eq_getElem hj, Option.some.injEq, he] at e1
  subst e1
  rcases e2 with hz | ⟨-, i, hi, -, hR, hL, -, -, hf, -⟩
  · rw [hz] at hw ⊢
    simp only [Option.some.injEq] at hw
    exact ⟨by rw [← hw], 0, ⟨by simp, by simp⟩, by simp, by simp⟩
  · rw [hf] at hw
    split_ifs at hw with h0
    simp only [Option.some.injEq] at hw
    have hRi : (i : ℚ) ≤ p.tR := by
      rcases hR with ⟨k, k1, -, -, k4, -⟩ | ⟨k1, -⟩
      · exact le_trans (by exact_mod_cast k1) k4.2.1
      · exact absurd k1 h0.1
    have hLi : p.tL ≤ i := by
      rcases hL with ⟨k, k1, -, -, k4, -⟩ | ⟨k1, -⟩
      · have : (k : ℚ) + 1 ≤ i := by exact_mod_cast k1
        exact le_trans k4.2.2.1 this
      · exact absurd k1 h0.2
    exact ⟨by rw [← hw]; linarith, i, hi, hLi, hRi⟩

/-- a pulse in one pixel of 30 samples -/
example : ∃ t p, timingPrepare [] (fun _ => none) [List.replicate 14 0 ++ [2, 6, 10, 7, 3, 1] ++ List.replicate 10 0] = .ok (t, [p]) ∧ t = 16 ∧
    p.fwhm = some (615 / 224) ∧ p.riseTime = some (721 / 320) :=
  ⟨16, ⟨225 / 14, 561 / 56, some (615 / 224), some (721 / 320), 6609 / 448, 7839 / 448, 15121 / 1120, 35289 / 2240⟩, by decide +kernel, rfl, rfl, rfl⟩

/-! ## C75 -/

/-- C75 is false: the default reducer raises `ZeroDivisionError` for an event of one pixel and 30 samples, with samples -7, 1, 1. -/
theorem C75_false : timingPrepare [] (fun _ => none) [List.replicate 15 0 ++ [-7, 1, 1] ++ List.replicate 12 0] = .error .zeroDivision := by
  decide +kernel

theorem pulseShape_error (beyond : Option ℚ) (row : List ℚ) (base h t : ℚ) (ht : 0 ≤ t ∧ t < row.length) (e : Err)
    (hp : pulseShape beyond row base h t = .error e) :
    e = .zeroDivision ∧ ∃ k, k + 1 < (withBeyond row beyond).length ∧ (withBeyond row beyond).getD k 0 = (withBeyond row beyond).getD (k + 1) 0 := by
  unfold pulseShape at hp
  simp only at hp
  obtain ⟨r0, r1⟩ := roundEven_bounds t row.length ht.1 ht.2
  cases h1 : forwardLoop row (base + h / 2) (row.length - 1 - (roundEven t).toNat) (roundEven t).toNat with
  | error e' =>
    rw [h1] at hp
    cases hp
    obtain ⟨a, k, k1, k2⟩ := forwardLoop_error _ _ _ _ rfl _ h1
    refine ⟨a, k, ?_, ?_⟩
    · unfold withBeyond; rw [List.length_append]; omega
    · rw [withBeyond_getD _ _ _ (by omega), withBeyond_getD _ _ _ (by omega), k2]
  | ok r =>
    rw [h1] at hp
    simp only at hp
    cases h2 : backwardLoop beyond row (base + h / 2) (base + 9 / 10 * h) (base + 1 / 10 * h) (roundEven t).toNat (0, 0, 0) with
    | error e' =>
      rw [h2] at hp
      cases hp
      exact backwardLoop_error _ _ _ _ _ _ (by omega) _ _ h2
    | ok s => rw [h2] at hp; cases hp

theorem pixelTiming_error (beyond : Option ℚ) (row : List ℚ) (a b : Nat) (hab : a < b) (hb : b ≤ row.length) (e : Err)
    (h : pixelTiming beyond row a b = .error e) :
    e = .zeroDivision ∧ ∃ k, k + 1 < (withBeyond row beyond).length ∧ (withBeyond row beyond).getD k 0 = (withBeyond row beyond).getD (k + 1) 0 := by
  unfold pixelTiming at h
  simp only at h
  cases h1 : argmax (sliceList row (some (a : Int)) (some (b : Int))) with
  | error e' =>
    exfalso
    have hne : sliceList row (some (a : Int)) (some (b : Int)) ≠ [] := by
      rw [sliceList_nat row a b (by omega) hb]
      intro he
      have := congrArg List.length he
      simp at this
      omega
    obtain ⟨i, hi, -⟩ := argmax_ok _ hne
    rw [hi] at h1
    cases h1
  | ok k =>
    rw [h1] at h
    simp only at h
    cases h2 : readSample beyond row ((k : Int) + a - 1) with
    | none => rw [h2] at h; cases h
    | some y0 =>
      cases h3 : readSample beyond row ((k : Int) + a) with
      | none => rw [h2, h3] at h; cases h
      | some y1 =>
        cases h4 : readSample beyond row ((k : Int) + a + 1) with
        | none => rw [h2, h3, h4] at h; cases h
        | some y2 =>
          rw [h2, h3, h4] at h
          simp only at h
          split_ifs at h with hb ht
          exact pulseShape_error beyond row _ _ _ ht e h

/-- C75, what holds (missing: events in which some pixel has two equal neighbouring samples): for the default settings and at least 20 samples,
the reducer succeeds unless some pixel has two equal neighbouring samples (or its last sample equals what is read behind it), and then the
exception is `ZeroDivisionError`. -/
theorem C75_partial (kwargs : Config Setting) (h1 : Dict.get? kwargs "t_extract" = none) (h2 : Dict.get? kwargs "window_shift" = none)
    (h3 : Dict.get? kwargs "window_size" = none) (mem : Nat → Option ℚ) (n : Nat) (hn : 20 ≤ n) (ws : List (List ℚ)) (hw : Event n ws) :
    (∃ t ps, timingPrepare kwargs mem ws = .ok (t, ps)) ∨
    (timingPrepare kwargs mem ws = .error .zeroDivision ∧ ∃ (j : Nat) (r : List ℚ) (k : Nat), ws[j]? = some r ∧ k + 1 < (withBeyond r (mem j)).length ∧
      (withBeyond r (mem j)).getD k 0 = (withBeyond r (mem j)).getD (k + 1) 0) := by
  obtain ⟨p, hp, hdt⟩ := defaultTime_clamped n ws hw hn
  have hx : extractionTime kwargs "t_extract" ws = .ok ((clampedTime n p : Nat) : Int) := by unfold extractionTime; rw [h1]; exact hdt
  have k1 : kwNumber kwargs "window_shift" 4 = 4 := by unfold kwNumber; rw [h2]
  have k2 : kwNumber kwargs "window_size" 8 = 8 := by unfold kwNumber; rw [h3]
  have hc : 10 ≤ clampedTime n p ∧ clampedTime n p + 10 ≤ n := by unfold clampedTime; omega
  have e1 : ((clampedTime n p : Nat) : Int) - 4 = ((clampedTime n p - 4 : Nat) : Int) := by omega
  have e2 : ((clampedTime n p : Nat) : Int) - 4 + 8 = ((clampedTime n p + 4 : Nat) : Int) := by omega
  unfold timingPrepare
  rw [hx]
  simp only [k1, k2]
  rw [e2, e1]
  have key : ∀ (i : Nat) (rs : List (List ℚ)), (∀ r ∈ rs, r.length = n) →
      (∃ ps, pixelTimings mem ((clampedTime n p - 4 : Nat) : Int) ((clampedTime n p + 4 : Nat) : Int) i rs = .ok ps) ∨
      (pixelTimings mem ((clampedTime n p - 4 : Nat) : Int) ((clampedTime n p + 4 : Nat) : Int) i rs = .error .zeroDivision ∧
        ∃ (j : Nat) (r : List ℚ) (k : Nat), rs[j]? = some r ∧ k + 1 < (withBeyond r (mem (i + j))).length ∧
          (withBeyond r (mem (i + j))).getD k 0 = (withBeyond r (mem (i + j))).getD (k + 1) 0) := by
    intro i rs
    induction rs generalizing i with
    | nil => intro _; exact Or.inl ⟨[], rfl⟩
    | cons r rs ih =>
      intro hlen
      unfold pixelTimings
      cases hr : pixelTiming (mem i) r ((clampedTime n p - 4 : Nat) : Int) ((clampedTime n p + 4 : Nat) : Int) with
      | error e =>
        obtain ⟨he, k, q1, q2⟩ := pixelTiming_error (mem i) r _ _ (by omega) (by rw [hlen r (by simp)]; omega) e hr
        subst he
        exact Or.inr ⟨rfl, 0, r, k, rfl, q1, q2⟩
      | ok q =>
        rcases ih (i + 1) (fun x hx => hlen x (by simp [hx])) with ⟨ps, hps⟩ | ⟨he, j, r', k, q0, q1, q2⟩
        · rw [hps]; exact Or.inl ⟨_, rfl⟩
        · rw [he]
          refine Or.inr ⟨rfl, j + 1, r', k, by simpa using q0, ?_⟩
          rw [show i + (j + 1) = i + 1 + j by omega]
          exact ⟨q1, q2⟩
  rcases key 0 ws hw.2 with ⟨ps, hps⟩ | ⟨he, j, r, k, q0, q1, q2⟩
  · rw [hps]; exact Or.inl ⟨_, ps, rfl⟩
  · rw [he]
    rw [Nat.zero_add] at q1 q2
    exact Or.inr ⟨rfl, j, r, k, q0, q1, q2⟩

example : Event 30 [List.replicate 14 0 ++ [2, 6, 10, 7, 3, 1] ++ List.replicate 10 0] := by
  constructor
  · simp
  · intro r hr
    rw [List.mem_singleton.1 hr]
    rfl

/-! ## C76 -/

/-- C76 is false: in the second pixel of this event the rise time is negative. -/
theorem C76_false : ∃ t p q, timingPrepare [] (fun _ => none)
      [List.replicate 17 0 ++ [20] ++ List.replicate 12 0, List.replicate 11 0 ++ [5, 0, 0, 0, 0, -8, 1, 1] ++ List.replicate 11 0] = .ok (t, [p, q]) ∧
    q.riseTime = some (-653 / 100) :=
  ⟨17, ⟨17, 20, some 1, some (4 / 5), 33 / 2, 35 / 2, 161 / 10, 169 / 10⟩,
    ⟨35 / 2, 17 / 8, none, some (-653 / 100), 817 / 80, 0, 1353 / 80, 4153 / 400⟩, by decide +kernel, rfl⟩

theorem lastRise_order (row : List ℚ) (hi lo : ℚ) (hlo : lo ≤ hi) (i : Nat) (hil : i < row.length) (hpk : hi ≤ row.getD i 0) (a b : ℚ)
    (ha : LastRise row hi i a) (hb : LastRise row lo i b) (ha0 : a ≠ 0) (hb0 : b ≠ 0) : b ≤ a := by
  rcases ha with ⟨ka, a1, a2, a3, a4, a5⟩ | ⟨h, -⟩
  · rcases hb with ⟨kb, b1, b2, b3, b4, b5⟩ | ⟨h, -⟩
    · by_cases hlt : ka < kb
      · -- between `kb` and `i` the waveform rises through `hi`
        exfalso
        have hex : ∀ m, kb + m ≤ i → row.getD (kb + m) 0 ≤ hi → ∃ j, kb + m ≤ j ∧ j ≤ i ∧ row.getD j 0 ≤ hi ∧ (j < i → hi < row.getD (j + 1) 0) := by
          intro m hm hv
          obtain ⟨d, hd⟩ : ∃ d, d = i - (kb + m) := ⟨_, rfl⟩
          induction d generalizing m with
          | zero => exact ⟨kb + m, le_refl _, hm, hv, fun h => by omega⟩
          | succ d ih =>
            by_cases hn : row.getD (kb + m + 1) 0 ≤ hi
            · obtain ⟨j, j1, j2, j3, j4⟩ := ih (m + 1) (by omega) (by rw [show kb + (m + 1) = kb + m + 1 by omega]; exact hn) (by omega)
              exact ⟨j, by omega, j2, j3, j4⟩
            · exact ⟨kb + m, le_refl _, hm, hv, fun _ => lt_of_not_ge hn⟩
        obtain ⟨j, j1, j2, j3, j4⟩ := hex 0 (by omega) (le_trans b3.2 hlo)
        by_cases hji : j < i
        · exact a5 j (by omega) hji (by omega) ⟨(j4 hji).le, j3⟩
        · have : j = i := by omega
          subst this
          refine a5 (j - 1) (by omega) (by omega) (by omega) ⟨?_, ?_⟩
          · rw [show j - 1 + 1 = j by omega]; exact hpk
          · by_contra hc
            -- sample `j - 1` is above the level; go down from there
            have hkj : kb < j - 1 ∨ kb = j - 1 := by omega
            rcases hkj with hk | hk
            · have hex2 : ∀ d, kb + d ≤ j - 1 → row.getD (kb + d) 0 ≤ hi → ∃ m, kb + d ≤ m ∧ m < j - 1 ∧ row.getD m 0 ≤ hi ∧ hi < row.getD (m + 1) 0 := by
                intro d hd hv
                obtain ⟨e, he⟩ : ∃ e, e = j - 1 - (kb + d) := ⟨_, rfl⟩
                induction e generalizing d with
                | zero =>
                  exfalso
                  apply hc
                  rw [show j - 1 = kb + d by omega]
                  exact hv
                | succ e ih =>
                  by_cases hn : row.getD (kb + d + 1) 0 ≤ hi
                  · obtain ⟨m, m1, m2, m3, m4⟩ := ih (d + 1) (by omega) (by rw [show kb + (d + 1) = kb + d + 1 by omega]; exact hn) (by omega)
                    exact ⟨m, by omega, m2, m3, m4⟩
                  · exact ⟨kb + d, le_refl _, by omega, hv, lt_of_not_ge hn⟩
              obtain ⟨m, m1, m2, m3, m4⟩ := hex2 0 (by omega) (le_trans b3.2 hlo)
              exact a5 m (by omega) (by omega) (by omega) ⟨m4.le, m3⟩
            · apply hc
              rw [← hk]
              exact le_trans b3.2 hlo
      · by_cases heq : ka = kb
        · subst heq
          have ea := a4.2.2.2
          have eb := b4.2.2.2
          have hd : 0 < row.getD (ka + 1) 0 - row.getD ka 0 :=
            lt_of_le_of_ne (by have := a3.1; have := a3.2; linarith) fun h => a4.1 (by linarith)
          refine le_of_mul_le_mul_right ?_ hd
          linarith
        · have : (kb : ℚ) + 1 ≤ ka := by exact_mod_cast (by omega : kb + 1 ≤ ka)
          linarith [b4.2.2.1, a4.2.1]
    · exact absurd h hb0
  · exact absurd h ha0

/-- C76, what holds (missing: pulses whose pulse sample is below 90 % of the interpolated height, or of negative height): if every sample within
half a sample of the pulse time is at least at 90 % of the pulse height, which is not negative, a reported rise time is not negative. -/
theorem C76_partial (kwargs : Config Setting) (mem : Nat → Option ℚ) (ws : List (List ℚ)) (t : Int) (ps : List PulseTiming)
    (h : timingPrepare kwargs mem ws = .ok (t, ps)) (j : Nat) (r : List ℚ) (hr : ws[j]? = some r) (p : PulseTiming) (hp : ps[j]? = some p)
    (hpos : 0 ≤ p.hPulse) (hpk : ∀ i : Nat, |p.tPulse - i| ≤ 1 / 2 → i < r.length ∧ startLevel r + 9 / 10 * p.hPulse ≤ r.getD i 0)
    (x : ℚ) (hx : p.riseTime = some x) : 0 ≤ x := by
  obtain ⟨q, e1, e2⟩ := (C68_crossings kwargs mem ws t ps h).2 j r hr
  rw [hp, Option.some.injEq] at e1
  subst e1
  rcases e2 with hz | ⟨-, i, hi, -, -, -, h90, h10, -, hrt⟩
  · rw [hz] at hx
    simp only [Option.some.injEq] at hx
    rw [← hx]
  · rw [hrt] at hx
    split_ifs at hx with h0
    simp only [Option.some.injEq] at hx
    obtain ⟨hil, hv⟩ := hpk i hi.1
    have hfull : i < (withBeyond r (mem j)).length := by unfold withBeyond; rw [List.length_append]; omega
    have := lastRise_order (withBeyond r (mem j)) _ _ (by linarith) i hfull (by rw [withBeyond_getD _ _ _ hil]; exact hv) _ _ h90 h10 h0.1 h0.2
    rw [← hx]
    linarith

/-- the event of the example for C68 meets the conditions of `C76_partial` -/
example : ∀ i : Nat, |(225 / 14 : ℚ) - i| ≤ 1 / 2 → i < 30 ∧
    startLevel (List.replicate 14 0 ++ [2, 6, 10, 7, 3, 1] ++ List.replicate 10 0) + 9 / 10 * (561 / 56) ≤
      (List.replicate 14 (0 : ℚ) ++ [2, 6, 10, 7, 3, 1] ++ List.replicate 10 0).getD i 0 := by
  intro i hi
  rw [abs_le] at hi
  have h1 : i = 16 := by
    have a : (15 : ℚ) < i := by linarith
    have b : (i : ℚ) < 17 := by linarith
    have a' : 15 < i := by exact_mod_cast a
    have b' : i < 17 := by exact_mod_cast b
    omega
  subst h1
  decide +kernel

/-! ## C77 -/

/-- C77: if the largest sample in the search window is an interior sample above one and not below the other neighbour, the pulse time is within
half a sample of it, and the height above the mean of the first ten samples is at least that of the sample, exceeding it by at most an eighth
of the difference of its neighbours. -/
theorem C77_peak (kwargs : Config Setting) (mem : Nat → Option ℚ) (ws : List (List ℚ)) (t : Int) (ps : List PulseTiming)
    (h : timingPrepare kwargs mem ws = .ok (t, ps)) (j : Nat) (r : List ℚ) (hr : ws[j]? = some r) (a b k : Nat)
    (ha : t - kwNumber kwargs "window_shift" 4 = a) (hb : (a : Int) + kwNumber kwargs "window_size" 8 = b) (hbl : b ≤ r.length)
    (hk : FirstMax (b - a) (fun i => r.getD (a + i) 0) k) (h0 : 0 < a + k) (h1 : a + k + 1 < r.length)
    (hl : r.getD (a + k - 1) 0 ≤ r.getD (a + k) 0) (hrr : r.getD (a + k + 1) 0 ≤ r.getD (a + k) 0)
    (hne : r.getD (a + k - 1) 0 < r.getD (a + k) 0 ∨ r.getD (a + k + 1) 0 < r.getD (a + k) 0) :
    ∃ p, ps[j]? = some p ∧ |p.tPulse - (a + k : Nat)| ≤ 1 / 2 ∧ r.getD (a + k) 0 - startLevel r ≤ p.hPulse ∧
      p.hPulse ≤ r.getD (a + k) 0 - startLevel r + |r.getD (a + k - 1) 0 - r.getD (a + k + 1) 0| / 8 := by
  obtain ⟨-, -, hg⟩ := timing_get kwargs mem ws t ps h
  obtain ⟨p, e1, e2⟩ := hg j r hr
  refine ⟨p, e1, ?_⟩
  rw [ha, hb] at e2
  unfold pixelTiming at e2
  have hkl := hk.1
  have hslice : argmax (sliceList r (some (a : Int)) (some (b : Int))) = .ok k := by
    rw [sliceList_nat r a b (by omega) hbl]
    have get : ∀ i < b - a, ((r.drop a).take (b - a))[i]? = some (r.getD (a + i) 0) := by
      intro i hi
      rw [List.getElem?_take, if_pos hi, List.getElem?_drop, List.getD_eq_getElem?_getD, List.getElem?_eq_getElem (by omega)]
      rfl
    refine argmax_unique _ k _ (get k hkl) ?_ ?_
    · intro i hi y hy
      rw [get i (by omega), Option.some.injEq] at hy
      rw [← hy]; exact hk.2.2 i hi
    · intro i y hy
      have hi : i < b - a := by
        have := (List.getElem?_eq_some_iff.1 hy).1
        rw [List.length_take] at this
        omega
      rw [get i hi, Option.some.injEq] at hy
      rw [← hy]; exact hk.2.1 i hi
  have rd : ∀ i : Nat, i < r.length → readSample (mem j) r (i : Int) = some (r.getD i 0) := by
    intro i hi
    unfold readSample
    simp only [if_neg (show ¬ (i : Int) < 0 by omega)]
    rw [if_pos (by omega)]
    rfl
  have r0 : readSample (mem j) r ((k : Int) + a - 1) = some (r.getD (a + k - 1) 0) := by
    rw [show (k : Int) + a - 1 = ((a + k - 1 : Nat) : Int) by omega]; exact rd _ (by omega)
  have r1 : readSample (mem j) r ((k : Int) + a) = some (r.getD (a + k) 0) := by
    rw [show (k : Int) + a = ((a + k : Nat) : Int) by omega]; exact rd _ (by omega)
  have r2 : readSample (mem j) r ((k : Int) + a + 1) = some (r.getD (a + k + 1) 0) := by
    rw [show (k : Int) + a + 1 = ((a + k + 1 : Nat) : Int) by omega]; exact rd _ (by omega)
  simp only [startLevel_eq, hslice, r0, r1, r2] at e2
  have hpk : (((k : Int) + a : Int) : ℚ) = ((a + k : Nat) : ℚ) := by push_cast; ring
  rw [hpk] at e2
  have hn1 : ((a + k : Nat) : ℚ) + 1 < r.length := by exact_mod_cast h1
  have hn0 : (1 : ℚ) ≤ ((a + k : Nat) : ℚ) := by exact_mod_cast h0
  generalize r.getD (a + k - 1) 0 = y0 at *
  generalize r.getD (a + k) 0 = y1 at *
  generalize r.getD (a + k + 1) 0 = y2 at *
  have hneg : y0 - 2 * y1 + y2 < 0 := by rcases hne with h | h <;> linarith
  rw [if_neg hneg.ne] at e2
  have ht : |(1 / 2) * (y0 - y2) / (y0 - 2 * y1 + y2)| ≤ 1 / 2 := by
    rw [abs_div, abs_of_neg hneg, div_le_iff₀ (by linarith), abs_le]
    constructor <;> linarith
  obtain ⟨tt, htt⟩ : ∃ tt, tt = (1 / 2) * (y0 - y2) / (y0 - 2 * y1 + y2) := ⟨_, rfl⟩
  have hprod : (y0 - y2) * tt = (y0 - y2) ^ 2 / (2 * (y0 - 2 * y1 + y2)) := by rw [htt]; field_simp
  have hnp : (y0 - y2) * tt ≤ 0 := by
    rw [hprod]
    exact div_nonpos_of_nonneg_of_nonpos (sq_nonneg _) (by linarith)
  rw [← htt] at e2 ht
  have ht' := abs_le.1 ht
  rw [if_pos ⟨by linarith, by linarith⟩] at e2
  obtain ⟨-, q1, q2⟩ := pulseShape_spec (mem j) r _ _ ⟨by linarith, by linarith⟩ p e2
  refine ⟨?_, ?_, ?_⟩
  · rw [q1, add_sub_cancel_right]; exact ht
  · rw [q2]; linarith
  · rw [q2]
    have h3 : -((y0 - y2) * tt) ≤ |y0 - y2| * (1 / 2) := by
      calc -((y0 - y2) * tt) ≤ |(y0 - y2) * tt| := neg_le_abs _
        _ = |y0 - y2| * |tt| := abs_mul _ _
        _ ≤ |y0 - y2| * (1 / 2) := mul_le_mul_of_nonneg_left ht (abs_nonneg _)
    linarith

/-- the event of the example for C68: window 12 … 19, largest sample 16 = 12 + 4 -/
example : FirstMax (20 - 12) (fun i => (List.replicate 14 (0 : ℚ) ++ [2, 6, 10, 7, 3, 1] ++ List.replicate 10 0).getD (12 + i) 0) 4 :=
  ⟨by omega, by decide +kernel, by decide +kernel⟩

end Verif.Props
