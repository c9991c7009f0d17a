import Verif.Props.Timing

/-! # C76: when exactly a rise time is negative -/

namespace Verif.Props

open Verif.Py Verif.Model Verif.Spec Verif.Lemmas

/-- between time `x` and sample `i` the waveform rises through `level` -/
def RisesAfter (row : List ℚ) (level x : ℚ) (i : Nat) : Prop := ∃ k : Nat, x < k ∧ k < i ∧ k + 1 < row.length ∧ Rises row level k

/-- the last rise through the lower of two levels is the later one exactly if the waveform rises through it after the last rise through the upper one; the two
are never at the same time -/
theorem lastRise_compare (row : List ℚ) (hi lo : ℚ) (hlo : lo < hi) (i : Nat) (a b : ℚ) (ha : LastRise row hi i a) (hb : LastRise row lo i b)
    (ha0 : a ≠ 0) (hb0 : b ≠ 0) : (a < b ↔ RisesAfter row lo a i) ∧ a ≠ b := by
  rcases ha with ⟨ka, a1, a2, a3, ⟨a4, a5, a6, a7⟩, a8⟩ | ⟨h, -⟩
  swap; · exact absurd h ha0
  rcases hb with ⟨kb, b1, b2, b3, ⟨b4, b5, b6, b7⟩, b8⟩ | ⟨h, -⟩
  swap; · exact absurd h hb0
  -- on the same line the lower level comes first
  have hsame : ka = kb → b < a := by
    rintro rfl
    have hd : 0 < row.getD (ka + 1) 0 - row.getD ka 0 := lt_of_le_of_ne (by linarith [a3.1, a3.2]) fun h => a4 (by linarith)
    by_contra hc
    have := mul_le_mul_of_nonneg_right (not_lt.1 hc) hd.le
    linarith
  have hbefore : kb < ka → b < a := by
    intro h
    have h' : (kb : ℚ) + 1 ≤ ka := by exact_mod_cast h
    rcases lt_or_eq_of_le (show b ≤ a by linarith) with hl | he
    · exact hl
    · exfalso
      have e1 : b = kb + 1 := by linarith
      have e2 : a = ka := by linarith
      have e3 : ka = kb + 1 := by
        have : (ka : ℚ) = ((kb + 1 : ℕ) : ℚ) := by push_cast; linarith
        exact_mod_cast this
      rw [e1] at b7
      rw [e2] at a7
      rw [e3] at a7
      push_cast at a7
      have e4 : row.getD (kb + 1) 0 = lo := by linarith
      have e5 : row.getD (kb + 1) 0 = hi := by linarith
      linarith
  have hafter : ka < kb → a < kb := by
    intro h
    have h' : (ka : ℚ) + 1 ≤ kb := by exact_mod_cast h
    rcases lt_or_eq_of_le (show a ≤ (kb : ℚ) by linarith) with hl | he
    · exact hl
    · exfalso
      have e1 : a = ka + 1 := by linarith
      have e3 : kb = ka + 1 := by
        have : (kb : ℚ) = ((ka + 1 : ℕ) : ℚ) := by push_cast; linarith
        exact_mod_cast this
      rw [e1] at a7
      have e4 : row.getD (ka + 1) 0 = hi := by linarith
      have e5 := b3.2
      rw [e3] at e5
      linarith
  refine ⟨⟨fun h => ?_, ?_⟩, ?_⟩
  · rcases Nat.lt_trichotomy ka kb with hk | hk | hk
    · exact ⟨kb, hafter hk, b1, b2, b3⟩
    · exact absurd (hsame hk) (not_lt.2 h.le)
    · exact absurd (hbefore hk) (not_lt.2 h.le)
  · rintro ⟨k, k1, k2, k3, k4⟩
    have : k ≤ kb := by
      by_contra hc
      exact b8 k (by omega) k2 k3 k4
    have h' : (k : ℚ) ≤ kb := by exact_mod_cast this
    linarith
  · rcases Nat.lt_trichotomy ka kb with hk | hk | hk
    · exact ((hafter hk).trans_le b5).ne
    · exact (hsame hk).ne'
    · exact (hbefore hk).ne'

/-- C76 (false as claimed, see `C76_false`): when exactly a reported rise time is negative. With a positive height: if after its last rise
through 90 % the waveform rises once more through 10 % before the pulse sample. With a negative height: unless after its last rise through 10 % it rises
through 90 %. Without height it is zero. -/
theorem C76_exactly_partial (kwargs : Config Setting) (mem : Nat → Option ℚ) (ws : List (List ℚ)) (t : Int) (ps : List PulseTiming)
    (h : timingPrepare kwargs mem ws = .ok (t, ps)) (j : Nat) (r : List ℚ) (hr : ws[j]? = some r) (p : PulseTiming) (hp : ps[j]? = some p)
    (x : ℚ) (hx : p.riseTime = some x) :
    (p.hPulse = 0 → x = 0) ∧
    (0 < p.hPulse → ∃ i : Nat, RoundsTo p.tPulse i ∧ x ≠ 0 ∧
      (x < 0 ↔ RisesAfter (withBeyond r (mem j)) (startLevel r + 1 / 10 * p.hPulse) p.t90 i)) ∧
    (p.hPulse < 0 → ∃ i : Nat, RoundsTo p.tPulse i ∧ x ≠ 0 ∧
      (x < 0 ↔ ¬ RisesAfter (withBeyond r (mem j)) (startLevel r + 9 / 10 * p.hPulse) p.t10 i)) := by
  obtain ⟨q, e1, e2⟩ := (C68_crossings kwargs mem ws t ps h).2 j r hr
  rw [hp, Option.some.injEq] at e1
  subst e1
  rcases e2 with hz | ⟨-, i, hi, -, -, -, h90, h10, -, hrt⟩
  · subst hz
    simp only [Option.some.injEq] at hx
    exact ⟨fun _ => hx.symm, fun h => absurd h (lt_irrefl _), fun h => absurd h (lt_irrefl _)⟩
  · rw [hrt] at hx
    split_ifs at hx with h0
    simp only [Option.some.injEq] at hx
    subst hx
    refine ⟨fun hh => ?_, fun hh => ⟨i, hi, ?_⟩, fun hh => ⟨i, hi, ?_⟩⟩
    · rw [hh] at h90 h10
      simp only [mul_zero] at h90 h10
      rcases h90 with ⟨ka, a1, a2, a3, ⟨a4, a5, a6, a7⟩, a8⟩ | ⟨hc, -⟩
      swap; · exact absurd hc h0.1
      rcases h10 with ⟨kb, b1, b2, b3, ⟨b4, b5, b6, b7⟩, b8⟩ | ⟨hc, -⟩
      swap; · exact absurd hc h0.2
      have hk : ka = kb := by
        rcases Nat.lt_trichotomy ka kb with hk | hk | hk
        · exact absurd b3 (a8 kb hk b1 b2)
        · exact hk
        · exact absurd a3 (b8 ka hk a1 a2)
      subst hk
      have := mul_right_cancel₀ (sub_ne_zero.2 a4.symm) (show (p.t90 - ka) * _ = (p.t10 - ka) * ((withBeyond r (mem j)).getD (ka + 1) 0 -
        (withBeyond r (mem j)).getD ka 0) by linarith)
      linarith
    · obtain ⟨c1, c2⟩ := lastRise_compare _ _ _ (by linarith) i _ _ h90 h10 h0.1 h0.2
      refine ⟨sub_ne_zero.2 c2, ?_⟩
      rw [sub_neg]
      exact c1
    · obtain ⟨c1, c2⟩ := lastRise_compare _ _ _ (by linarith) i _ _ h10 h90 h0.2 h0.1
      refine ⟨sub_ne_zero.2 c2.symm, ?_⟩
      rw [sub_neg, ← c1, not_lt]
      exact ⟨le_of_lt, fun hle => lt_of_le_of_ne hle c2.symm⟩

/-- the second pixel of `C76_false`: the waveform rises through 90 % (of 17/8) to the sample 5, and after that from -8 to 1 through 10 % -/
example : RisesAfter (withBeyond (List.replicate 11 0 ++ [5, 0, 0, 0, 0, -8, 1, 1] ++ List.replicate 11 0) none) (1 / 10 * (17 / 8)) (4153 / 400) 18 :=
  ⟨16, by norm_num, by norm_num, by decide +kernel, by
    constructor <;> decide +kernel⟩

/-- the event of the example for C68 does not rise through 10 % again: after its last rise through 90 % it only reaches its largest sample -/
example : ¬ RisesAfter (withBeyond (List.replicate 14 (0 : ℚ) ++ [2, 6, 10, 7, 3, 1] ++ List.replicate 10 0) none) (1 / 10 * (561 / 56)) 15.7 16 := by
  rintro ⟨k, h1, h2, -, -⟩
  have : (15 : ℚ) < k := by linarith
  have : 15 < k := by exact_mod_cast this
  omega

end Verif.Props
