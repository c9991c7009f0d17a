import Verif.Props.MatcherBest
import Mathlib.Tactic.Ring

/-!
# C49: when exactly an amplitude matching completes

For responses that do not increase with the DAC value.
-/

namespace Verif.Props

open Verif.Py Verif.Model Verif.Spec Verif.Lemmas

/-- the response is as far above the aim at `a` as below it at `b` -/
def Tie (aim : ℚ) (f : Int → ℚ) (a b : Int) : Prop := f a - aim = aim - f b

/-- a superpixel that starts at `d0` and is never finished: it meets the aim exactly at an allowed DAC value, or is equally far from the aim on both
sides at two DAC values between which the search goes back and forth: neighbours, or those at the ends or at one end and the middle of a step of 10
from the start on -/
def Stuck (aim : ℚ) (f : Int → ℚ) (d0 : Int) : Prop :=
  (∃ d, 10 ≤ d ∧ d ≤ 255 ∧ f d = aim) ∨ (∃ d, 10 ≤ d ∧ d + 1 ≤ 255 ∧ Tie aim f d (d + 1)) ∨
  ∃ y, (y - d0) % 10 = 0 ∧ 10 ≤ y ∧ y + 10 ≤ 255 ∧ (Tie aim f y (y + 10) ∨ Tie aim f y (y + 5) ∨ Tie aim f (y + 5) (y + 10))

/-- one call for an unmasked superpixel with response `f` -/
def adv (aim : ℚ) (f : Int → ℚ) (it : Nat) (sp : Sp) : Sp :=
  stepSp it false (distanceOf aim (f sp.dac)) (directionOf aim (f sp.dac)) sp

/-- the step of a stage -/
def width (stage : Nat) : Int := if stage = 0 then 10 else if stage = 1 then 5 else 1

theorem distanceOf_le (aim a b : ℚ) (haim : aim ≠ 0) : distanceOf aim a ≤ distanceOf aim b ↔ |a - aim| ≤ |b - aim| := by
  unfold distanceOf
  rw [sq_le_sq, abs_div, abs_div]
  exact div_le_div_iff_of_pos_right (abs_pos.2 haim)

theorem adv_back (aim : ℚ) (f : Int → ℚ) (it : Nat) (sp : Sp) (hs : sp.stage < 3) (hit : it ≠ 0) (h : sp.prevDist < distAt aim f sp.dac) :
    adv aim f it sp = ⟨sp.prevDac, sp.dac, distAt aim f sp.dac, sp.stage + 1⟩ := by
  unfold adv stepSp nextDac
  simp only [if_neg hit, if_neg (show ¬ sp.stage = 3 by omega), Bool.false_eq_true, if_false]
  rw [if_pos (show sp.prevDist < distanceOf aim (f sp.dac) from h)]
  rfl

theorem adv_move (aim : ℚ) (f : Int → ℚ) (it : Nat) (sp : Sp) (hs : sp.stage < 3) (h : it = 0 ∨ distAt aim f sp.dac ≤ sp.prevDist) :
    ((sp.dac + width sp.stage * directionOf aim (f sp.dac) > 255 ∨ sp.dac + width sp.stage * directionOf aim (f sp.dac) < 10) ∧
      (adv aim f it sp).stage = 3) ∨
    (Allowed (sp.dac + width sp.stage * directionOf aim (f sp.dac)) ∧
      adv aim f it sp = ⟨sp.dac + width sp.stage * directionOf aim (f sp.dac), sp.dac, distAt aim f sp.dac, sp.stage⟩) := by
  have hnb : ¬ (if it = 0 then distanceOf aim (f sp.dac) else sp.prevDist) < distanceOf aim (f sp.dac) := by
    split
    · exact lt_irrefl _
    · rename_i h0
      rcases h with h | h
      · exact absurd h h0
      · exact not_lt.2 h
  have hw : (if sp.stage = 0 then sp.dac + 10 * directionOf aim (f sp.dac)
      else if sp.stage = 1 then sp.dac + 5 * directionOf aim (f sp.dac)
      else if sp.stage = 2 then sp.dac + 1 * directionOf aim (f sp.dac) else sp.dac) = sp.dac + width sp.stage * directionOf aim (f sp.dac) := by
    unfold width
    by_cases h0 : sp.stage = 0
    · simp [h0]
    · by_cases h1 : sp.stage = 1
      · simp [h1]
      · have h2 : sp.stage = 2 := by omega
        simp [h2]
  unfold adv stepSp nextDac
  simp only [if_neg (show ¬ sp.stage = 3 by omega), Bool.false_eq_true, if_false]
  rw [if_neg hnb, hw]
  by_cases hhi : sp.dac + width sp.stage * directionOf aim (f sp.dac) > 255
  · rw [if_pos hhi]; exact Or.inl ⟨Or.inl hhi, rfl⟩
  · rw [if_neg hhi]
    by_cases hlo : sp.dac + width sp.stage * directionOf aim (f sp.dac) < 10
    · rw [if_pos hlo]; exact Or.inl ⟨Or.inr hlo, rfl⟩
    · rw [if_neg hlo]
      exact Or.inr ⟨⟨by omega, by omega⟩, rfl⟩

theorem width_pos (s : Nat) : 1 ≤ width s ∧ width s ≤ 10 := by
  unfold width
  split
  · omega
  · split <;> omega

/-! ### completion -/

/-- DAC values the search can reach in a stage -/
def OnLattice (d0 : Int) (stage : Nat) (d : Int) : Prop := (stage = 0 → (d - d0) % 10 = 0) ∧ (stage = 1 → (d - d0) % 5 = 0)

/-- the steps of 10 found the aim between two allowed values -/
def InCell (aim : ℚ) (f : Int → ℚ) (d0 : Int) : Prop := ∃ y, (y - d0) % 10 = 0 ∧ 10 ≤ y ∧ y + 10 ≤ 255 ∧ aim < f y ∧ f (y + 10) < aim

/-- a superpixel in the course of a search started at `d0` -/
def Good (aim : ℚ) (f : Int → ℚ) (d0 : Int) (sp : Sp) : Prop :=
  sp.stage < 3 ∧ Allowed sp.dac ∧ OnLattice d0 sp.stage sp.dac ∧ (sp.stage = 1 → InCell aim f d0)

/-- bound on the steps towards the aim -/
def ahead (aim : ℚ) (f : Int → ℚ) (d : Int) : Nat := (if aim < f d then 265 - d else d).toNat

/-- at most `n` calls are left: on the way to the aim, or just past it -/
def Going (aim : ℚ) (f : Int → ℚ) (d0 : Int) (n : Nat) (sp : Sp) : Prop :=
  Good aim f d0 sp ∧
  ((distAt aim f sp.dac ≤ sp.prevDist ∧ n = (3 - sp.stage) * 1000 + 3 + ahead aim f sp.dac) ∨
   (Allowed sp.prevDac ∧ OnLattice d0 sp.stage sp.prevDac ∧ sp.prevDist = distAt aim f sp.prevDac ∧
     sp.dac = sp.prevDac + width sp.stage * directionOf aim (f sp.prevDac) ∧
     ((aim < f sp.prevDac ∧ f sp.dac < aim) ∨ (f sp.prevDac < aim ∧ aim < f sp.dac)) ∧
     ((distAt aim f sp.dac < sp.prevDist ∧ n = (3 - sp.stage) * 1000 + 2) ∨ (sp.prevDist < distAt aim f sp.dac ∧ n = (3 - sp.stage) * 1000 + 1))))

theorem no_tie (aim : ℚ) (f : Int → ℚ) (d0 : Int) (hns : ¬ Stuck aim f d0) (hf : Falling f) (s : Nat) (hs : s < 3) (hc : s = 1 → InCell aim f d0) (a : Int)
    (ha : 10 ≤ a) (hb : a + width s ≤ 255) (hl : OnLattice d0 s a) (h1 : aim < f a) (h2 : f (a + width s) < aim) : ¬ Tie aim f a (a + width s) := by
  intro ht
  apply hns
  unfold width at *
  by_cases h0 : s = 0
  · simp only [h0, if_true] at *
    exact Or.inr (Or.inr ⟨a, hl.1 rfl, ha, hb, Or.inl ht⟩)
  · by_cases h1' : s = 1
    · subst h1'
      simp only [if_true, one_ne_zero, if_false] at *
      obtain ⟨y, y1, y2, y3, y4, y5⟩ := hc trivial
      have hm := hl.2 rfl
      have l1 : y ≤ a + 4 := by
        by_contra hlt
        have := hf (a + 5) y (by omega) (by omega) (by omega)
        linarith
      have l2 : a < y + 10 := by
        by_contra hlt
        have := hf (y + 10) a (by omega) (by omega) (by omega)
        linarith
      rcases (by omega : a = y ∨ a = y + 5) with e | e
      · exact Or.inr (Or.inr ⟨y, y1, y2, y3, Or.inr (Or.inl (by rw [← e]; exact ht))⟩)
      · refine Or.inr (Or.inr ⟨y, y1, y2, y3, Or.inr (Or.inr ?_)⟩)
        rw [← e, show y + 10 = a + 5 by omega]
        exact ht
    · have : s = 2 := by omega
      subst this
      simp only [OfNat.ofNat_ne_zero, OfNat.ofNat_ne_one, if_false] at *
      exact Or.inr (Or.inl ⟨a, ha, hb, ht⟩)

theorem dist_ne (aim : ℚ) (f : Int → ℚ) (haim : aim ≠ 0) (a b : Int) (h1 : aim < f a) (h2 : f b < aim) (h : ¬ Tie aim f a b) :
    distAt aim f a ≠ distAt aim f b := by
  intro he
  apply h
  have e1 := (distanceOf_le aim (f a) (f b) haim).1 he.le
  have e2 := (distanceOf_le aim (f b) (f a) haim).1 he.ge
  rw [abs_of_pos (by linarith), abs_of_neg (by linarith)] at e1
  rw [abs_of_neg (by linarith), abs_of_pos (by linarith)] at e2
  unfold Tie
  linarith

theorem onLattice_step (d0 : Int) (s : Nat) (d : Int) (e : Int) (h : OnLattice d0 s d) : OnLattice d0 s (d + width s * e) := by
  refine ⟨fun h0 => ?_, fun h1 => ?_⟩
  · have := h.1 h0
    unfold width
    rw [if_pos h0]
    omega
  · have := h.2 h1
    unfold width
    rw [if_neg (by omega), if_pos h1]
    omega

/-- a call that does not turn back -/
theorem going_move (aim : ℚ) (f : Int → ℚ) (haim : aim ≠ 0) (hf : Falling f) (d0 : Int) (hns : ¬ Stuck aim f d0) (it : Nat) (sp : Sp)
    (hg : Good aim f d0 sp) (h : it = 0 ∨ distAt aim f sp.dac ≤ sp.prevDist) :
    (adv aim f it sp).stage = 3 ∨ ∃ n, n < (3 - sp.stage) * 1000 + 3 + ahead aim f sp.dac ∧ Going aim f d0 n (adv aim f it sp) := by
  obtain ⟨hs, ⟨hd1, hd2⟩, hl, hc⟩ := hg
  obtain ⟨w1, w2⟩ := width_pos sp.stage
  rcases adv_move aim f it sp hs h with ⟨-, e⟩ | ⟨ha, e⟩
  · exact Or.inl e
  · refine Or.inr ?_
    have hg' : Good aim f d0 (adv aim f it sp) := by
      rw [e]
      exact ⟨hs, ha, onLattice_step _ _ _ _ hl, hc⟩
    obtain ⟨ha1, ha2⟩ := ha
    have hmiss : ∀ d, 10 ≤ d → d ≤ 255 → f d ≠ aim := fun d a b he => hns (Or.inl ⟨d, a, b, he⟩)
    rcases direction_cases aim (f sp.dac) with ⟨p1, p2⟩ | ⟨p1, p2⟩ | ⟨p1, -⟩
    · rw [p2, mul_one] at ha1 ha2 e
      have hm := hf sp.dac (sp.dac + width sp.stage) hd1 (by omega) ha2
      rcases lt_trichotomy (f (sp.dac + width sp.stage)) aim with q | q | q
      · have hnt := dist_ne aim f haim _ _ p1 q (no_tie aim f d0 hns hf sp.stage hs hc sp.dac hd1 ha2 hl p1 q)
        rcases lt_or_gt_of_ne hnt with hlt | hlt
        · refine ⟨(3 - sp.stage) * 1000 + 1, by omega, hg', Or.inr ?_⟩
          rw [e]
          exact ⟨⟨hd1, hd2⟩, hl, rfl, by simp only [p2, mul_one], Or.inl ⟨p1, q⟩, Or.inr ⟨hlt, rfl⟩⟩
        · refine ⟨(3 - sp.stage) * 1000 + 2, by omega, hg', Or.inr ?_⟩
          rw [e]
          exact ⟨⟨hd1, hd2⟩, hl, rfl, by simp only [p2, mul_one], Or.inl ⟨p1, q⟩, Or.inl ⟨hlt, rfl⟩⟩
      · exact absurd q (hmiss _ ha1 ha2)
      · refine ⟨_, ?_, hg', Or.inl ⟨?_, rfl⟩⟩
        · rw [e]
          unfold ahead
          simp only
          rw [if_pos q, if_pos p1]
          omega
        · rw [e]
          refine (distanceOf_le aim _ _ haim).2 ?_
          simp only
          rw [abs_of_pos (by linarith), abs_of_pos (by linarith)]
          linarith
    · have p3 : width sp.stage * -1 = -width sp.stage := by ring
      rw [p2, p3] at ha1 ha2 e
      have hm := hf (sp.dac + -width sp.stage) sp.dac ha1 (by omega) hd2
      rcases lt_trichotomy (f (sp.dac + -width sp.stage)) aim with q | q | q
      · refine ⟨_, ?_, hg', Or.inl ⟨?_, rfl⟩⟩
        · rw [e]
          unfold ahead
          simp only
          rw [if_neg (not_lt.2 q.le), if_neg (not_lt.2 p1.le)]
          omega
        · rw [e]
          refine (distanceOf_le aim _ _ haim).2 ?_
          simp only
          rw [abs_of_neg (by linarith), abs_of_neg (by linarith)]
          linarith
      · exact absurd q (hmiss _ ha1 ha2)
      · have hl' := hg'.2.2.1
        rw [e] at hl'
        have hback : sp.dac + -width sp.stage + width sp.stage = sp.dac := by ring
        have hnt := dist_ne aim f haim _ _ q p1 (by
          have := no_tie aim f d0 hns hf sp.stage hs hc (sp.dac + -width sp.stage) ha1 (by rw [hback]; exact hd2) hl' q (by rw [hback]; exact p1)
          rwa [hback] at this)
        rcases lt_or_gt_of_ne hnt with hlt | hlt
        · refine ⟨(3 - sp.stage) * 1000 + 2, by omega, hg', Or.inr ?_⟩
          rw [e]
          exact ⟨⟨hd1, hd2⟩, hl, rfl, by simp only [p2, p3], Or.inr ⟨p1, q⟩, Or.inl ⟨hlt, rfl⟩⟩
        · refine ⟨(3 - sp.stage) * 1000 + 1, by omega, hg', Or.inr ?_⟩
          rw [e]
          exact ⟨⟨hd1, hd2⟩, hl, rfl, by simp only [p2, p3], Or.inr ⟨p1, q⟩, Or.inr ⟨hlt, rfl⟩⟩
    · exact absurd p1 (hmiss _ hd1 hd2)

theorem going_step (aim : ℚ) (f : Int → ℚ) (haim : aim ≠ 0) (hf : Falling f) (d0 : Int) (hns : ¬ Stuck aim f d0) (it : Nat) (hit : it ≠ 0) (n : Nat) (sp : Sp)
    (h : Going aim f d0 n sp) : (adv aim f it sp).stage = 3 ∨ ∃ n' < n, Going aim f d0 n' (adv aim f it sp) := by
  obtain ⟨hg, ⟨h1, h2⟩ | ⟨a1, a2, a3, a4, a5, ⟨a6, a7⟩ | ⟨a6, a7⟩⟩⟩ := h
  · rw [h2]
    exact going_move aim f haim hf d0 hns it sp hg (Or.inr h1)
  · -- past the aim and closer: back again
    obtain ⟨hs, ⟨hd1, hd2⟩, hl, hc⟩ := hg
    have hb : sp.dac + width sp.stage * directionOf aim (f sp.dac) = sp.prevDac := by
      rcases a5 with ⟨x1, x2⟩ | ⟨x1, x2⟩
      · rcases direction_cases aim (f sp.prevDac) with ⟨p1, p2⟩ | ⟨p1, p2⟩ | ⟨p1, p2⟩
        · rcases direction_cases aim (f sp.dac) with ⟨q1, q2⟩ | ⟨q1, q2⟩ | ⟨q1, q2⟩
          · linarith
          · rw [q2]; rw [p2] at a4; linarith
          · linarith
        · linarith
        · linarith
      · rcases direction_cases aim (f sp.prevDac) with ⟨p1, p2⟩ | ⟨p1, p2⟩ | ⟨p1, p2⟩
        · linarith
        · rcases direction_cases aim (f sp.dac) with ⟨q1, q2⟩ | ⟨q1, q2⟩ | ⟨q1, q2⟩
          · rw [q2]; rw [p2] at a4; linarith
          · linarith
          · linarith
        · linarith
    rcases adv_move aim f it sp hs (Or.inr a6.le) with ⟨-, e⟩ | ⟨-, e⟩
    · exact Or.inl e
    · rw [hb] at e
      refine Or.inr ⟨(3 - sp.stage) * 1000 + 1, by omega, ?_⟩
      rw [e]
      refine ⟨⟨hs, a1, a2, hc⟩, Or.inr ⟨⟨hd1, hd2⟩, hl, rfl, hb.symm, a5.symm.imp And.symm And.symm, Or.inr ⟨?_, rfl⟩⟩⟩
      simp only
      rw [← a3]
      exact a6
  · obtain ⟨hs, hd, hl, hc⟩ := hg
    have e := adv_back aim f it sp hs hit a6
    by_cases h3 : sp.stage + 1 = 3
    · rw [e]; exact Or.inl h3
    · refine Or.inr ⟨_, ?_, ⟨?_, Or.inl ⟨?_, rfl⟩⟩⟩
      · rw [e]
        simp only
        have : ahead aim f sp.prevDac ≤ 265 := by
          unfold ahead
          have := a1.1
          have := a1.2
          split <;> omega
        omega
      · rw [e]
        refine ⟨by simp only; omega, a1, ⟨fun h0 => by simp only at h0; omega, fun h1 => ?_⟩, fun h1 => ?_⟩
        · simp only at h1 ⊢
          have := a2.1 (by omega)
          omega
        · simp only at h1
          have h0 : sp.stage = 0 := by omega
          have m1 := a2.1 h0
          have m2 := hl.1 h0
          have hw : width sp.stage = 10 := by rw [h0]; rfl
          rw [hw] at a4
          rcases a5 with ⟨x1, x2⟩ | ⟨x1, x2⟩
          · rcases direction_cases aim (f sp.prevDac) with ⟨p1, p2⟩ | ⟨p1, p2⟩ | ⟨p1, p2⟩
            · rw [p2] at a4
              exact ⟨sp.prevDac, m1, a1.1, by have := hd.2; omega, x1, by rw [← show sp.dac = sp.prevDac + 10 by omega]; exact x2⟩
            · linarith
            · linarith
          · rcases direction_cases aim (f sp.prevDac) with ⟨p1, p2⟩ | ⟨p1, p2⟩ | ⟨p1, p2⟩
            · linarith
            · rw [p2] at a4
              exact ⟨sp.dac, m2, hd.1, by have := a1.2; omega, x2, by rw [← show sp.prevDac = sp.dac + 10 by omega]; exact x1⟩
            · linarith
      · rw [e]
        simp only
        rw [← a3]
        exact a6.le

/-! ### no completion -/

/-- a set of DAC values which the search in one stage does not leave -/
def Trap (aim : ℚ) (f : Int → ℚ) (s : Nat) (S : Int → Prop) : Prop :=
  ∀ d, S d → Allowed d ∧ S (d + width s * directionOf aim (f d)) ∧ distAt aim f (d + width s * directionOf aim (f d)) ≤ distAt aim f d

/-- a superpixel in a trap -/
def Trapped (aim : ℚ) (f : Int → ℚ) (s : Nat) (S : Int → Prop) (it : Nat) (sp : Sp) : Prop :=
  sp.stage = s ∧ S sp.dac ∧ (it = 0 ∨ distAt aim f sp.dac ≤ sp.prevDist)

theorem trapped_step (aim : ℚ) (f : Int → ℚ) (s : Nat) (hs : s < 3) (S : Int → Prop) (hS : Trap aim f s S) (it : Nat) (sp : Sp)
    (h : Trapped aim f s S it sp) : Trapped aim f s S (it + 1) (adv aim f it sp) := by
  obtain ⟨h1, h2, h3⟩ := h
  obtain ⟨t1, t2, t3⟩ := hS _ h2
  subst h1
  rcases adv_move aim f it sp hs h3 with ⟨e, -⟩ | ⟨-, e⟩
  · have := (hS _ t2).1
    have := this.1
    have := (hS _ t2).1.2
    omega
  · rw [e]
    exact ⟨rfl, t2, Or.inr t3⟩

theorem trap_tie (aim : ℚ) (f : Int → ℚ) (haim : aim ≠ 0) (hf : Falling f) (s : Nat) (x : Int) (hx : 10 ≤ x) (hx' : x + width s ≤ 255)
    (ht : Tie aim f x (x + width s)) : Trap aim f s fun d => Allowed d ∧ (d - x) % width s = 0 := by
  obtain ⟨w1, w2⟩ := width_pos s
  have hm := hf x (x + width s) hx (by omega) hx'
  unfold Tie at ht
  have hbetween : ∀ d, (d - x) % width s = 0 → x < d → x + width s ≤ d := by
    intro d hd hlt
    obtain ⟨q, hq⟩ := Int.dvd_of_emod_eq_zero hd
    have : 0 < q := by
      by_contra hn
      have : width s * q ≤ 0 := mul_nonpos_of_nonneg_of_nonpos (by omega) (by omega)
      omega
    nlinarith
  have hbetween' : ∀ d, (d - x) % width s = 0 → d < x → d + width s ≤ x := by
    intro d hd hlt
    obtain ⟨q, hq⟩ := Int.dvd_of_emod_eq_zero hd
    have : q < 0 := by
      by_contra hn
      have : 0 ≤ width s * q := mul_nonneg (by omega) (by omega)
      omega
    nlinarith
  have hmod : ∀ d e, (d - x) % width s = 0 → (d + width s * e - x) % width s = 0 := by
    intro d e hd
    rw [show d + width s * e - x = d - x + width s * e by ring, Int.add_mul_emod_self_left]
    exact hd
  rintro d ⟨⟨d1, d2⟩, d3⟩
  refine ⟨⟨d1, d2⟩, ⟨?_, hmod _ _ d3⟩, (distanceOf_le aim _ _ haim).2 ?_⟩
  all_goals
    rcases direction_cases aim (f d) with ⟨p1, p2⟩ | ⟨p1, p2⟩ | ⟨p1, p2⟩ <;> rw [p2]
  · have : d ≤ x := by
      by_contra hlt
      have := hf (x + width s) d (by omega) (hbetween d d3 (by omega)) d2
      linarith
    exact ⟨by omega, by omega⟩
  · have : x + width s ≤ d := by
      by_contra hlt
      have h1 : d ≤ x := by
        by_contra h1
        exact hlt (hbetween d d3 (by omega))
      have := hf d x d1 h1 (by omega)
      linarith
    exact ⟨by omega, by omega⟩
  · exact ⟨by omega, by omega⟩
  · rw [mul_one]
    have hd : d ≤ x := by
      by_contra hlt
      have := hf (x + width s) d (by omega) (hbetween d d3 (by omega)) d2
      linarith
    rcases Int.lt_or_eq_of_le hd with hlt | rfl
    · have h1 := hbetween' d d3 hlt
      have h2 := hf (d + width s) x (by omega) h1 (by omega)
      have h3 := hf d (d + width s) d1 (by omega) (by omega)
      rw [abs_of_nonneg (by linarith), abs_of_pos (by linarith)]
      linarith
    · rw [abs_of_nonpos (by linarith), abs_of_pos (by linarith)]
      linarith
  · rw [show width s * -1 = - width s by ring]
    have hd : x + width s ≤ d := by
      by_contra hlt
      have h1 : d ≤ x := by
        by_contra h1
        exact hlt (hbetween d d3 (by omega))
      have := hf d x d1 h1 (by omega)
      linarith
    rcases Int.lt_or_eq_of_le hd with hlt | rfl
    · have h1 : x + width s ≤ d + -width s := by
        have := hbetween (d + -width s) (by have := hmod d (-1) d3; rwa [show width s * -1 = - width s by ring] at this) (by omega)
        exact this
      have h2 := hf (x + width s) (d + -width s) (by omega) h1 (by omega)
      have h3 := hf (d + -width s) d (by omega) (by omega) d2
      rw [abs_of_nonpos (by linarith), abs_of_neg (by linarith)]
      linarith
    · rw [show x + width s + -width s = x by ring, abs_of_nonneg (by linarith), abs_of_neg (by linarith)]
      linarith
  · simp

theorem trap_hit (aim : ℚ) (f : Int → ℚ) (haim : aim ≠ 0) (hf : Falling f) (x : Int) (hx : 10 ≤ x) (hx' : x ≤ 255) (h : f x = aim) :
    Trap aim f 2 Allowed := by
  have w : width 2 = 1 := rfl
  rintro d ⟨d1, d2⟩
  rw [w]
  refine ⟨⟨d1, d2⟩, ?_, (distanceOf_le aim _ _ haim).2 ?_⟩
  all_goals
    rcases direction_cases aim (f d) with ⟨p1, p2⟩ | ⟨p1, p2⟩ | ⟨p1, p2⟩ <;> rw [p2]
  · have : d < x := by
      by_contra hlt
      have := hf x d hx (by omega) d2
      linarith
    exact ⟨by omega, by omega⟩
  · have : x < d := by
      by_contra hlt
      have := hf d x d1 (by omega) hx'
      linarith
    exact ⟨by omega, by omega⟩
  · exact ⟨by omega, by omega⟩
  · have hd : d < x := by
      by_contra hlt
      have := hf x d hx (by omega) d2
      linarith
    have h2 := hf (d + 1 * 1) x (by omega) (by omega) hx'
    have h3 := hf d (d + 1 * 1) d1 (by omega) (by omega)
    rw [abs_of_nonneg (by linarith), abs_of_pos (by linarith)]
    linarith
  · have hd : x < d := by
      by_contra hlt
      have := hf d x d1 (by omega) hx'
      linarith
    have h2 := hf x (d + 1 * -1) hx (by omega) (by omega)
    have h3 := hf (d + 1 * -1) d (by omega) (by omega) d2
    rw [abs_of_nonpos (by linarith), abs_of_neg (by linarith)]
    linarith
  · simp

/-- a superpixel that is caught in the steps of 10 or, inside the step from `y` to `y + 10`, in those of 5 -/
def Caught (aim : ℚ) (f : Int → ℚ) (y : Int) (it : Nat) (sp : Sp) : Prop :=
  (sp.stage = 0 ∧ Allowed sp.dac ∧ (sp.dac - y) % 10 = 0 ∧
    (it = 0 ∨ distAt aim f sp.dac ≤ sp.prevDist ∨
      (sp.prevDist = distAt aim f sp.prevDac ∧ (sp.prevDac = y ∨ sp.prevDac = y + 10)))) ∨
  (it ≠ 0 ∧ Trapped aim f 1 (fun d => d = y ∨ d = y + 5 ∨ d = y + 10) it sp)

theorem caught_step (aim : ℚ) (f : Int → ℚ) (haim : aim ≠ 0) (hf : Falling f) (y : Int) (hy : 10 ≤ y) (hy' : y + 10 ≤ 255)
    (ht : Tie aim f y (y + 5) ∨ Tie aim f (y + 5) (y + 10)) (it : Nat) (sp : Sp) (h : Caught aim f y it sp) :
    Caught aim f y (it + 1) (adv aim f it sp) := by
  have m1 := hf y (y + 5) hy (by omega) (by omega)
  have m2 := hf (y + 5) (y + 10) (by omega) (by omega) (by omega)
  have hya : aim ≤ f y := by unfold Tie at ht; rcases ht with ht | ht <;> linarith
  have hyb : f (y + 10) ≤ aim := by unfold Tie at ht; rcases ht with ht | ht <;> linarith
  have htrap : Trap aim f 1 (fun d => d = y ∨ d = y + 5 ∨ d = y + 10) := by
    have w : width 1 = 5 := rfl
    intro d hd
    rw [w]
    have hal : Allowed d := by unfold Allowed; omega
    rcases direction_cases aim (f d) with ⟨p1, p2⟩ | ⟨p1, p2⟩ | ⟨p1, p2⟩ <;> rw [p2]
    · have hne : d ≠ y + 10 := by rintro rfl; linarith
      refine ⟨hal, by omega, (distanceOf_le aim _ _ haim).2 ?_⟩
      unfold Tie at ht
      rcases hd with rfl | rfl | rfl
      · rw [show d + 5 * 1 = d + 5 by ring, abs_of_pos (show 0 < f d - aim by linarith), abs_le]
        constructor <;> rcases ht with ht | ht <;> linarith
      · rw [show y + 5 + 5 * 1 = y + 10 by ring, abs_of_pos (show 0 < f (y + 5) - aim by linarith), abs_le]
        constructor <;> rcases ht with ht | ht <;> linarith
      · exact absurd rfl hne
    · have hne : d ≠ y := by rintro rfl; linarith
      refine ⟨hal, by omega, (distanceOf_le aim _ _ haim).2 ?_⟩
      unfold Tie at ht
      rcases hd with rfl | rfl | rfl
      · exact absurd rfl hne
      · rw [show y + 5 + 5 * -1 = y by ring, abs_of_neg (show f (y + 5) - aim < 0 by linarith), abs_le]
        constructor <;> rcases ht with ht | ht <;> linarith
      · rw [show y + 10 + 5 * -1 = y + 5 by ring, abs_of_neg (show f (y + 10) - aim < 0 by linarith), abs_le]
        constructor <;> rcases ht with ht | ht <;> linarith
    · refine ⟨hal, by simpa using hd, ?_⟩
      simp
  rcases h with ⟨h0, ⟨a1, a2⟩, a3, a4⟩ | ⟨h0, h1⟩
  · by_cases hb : it = 0 ∨ distAt aim f sp.dac ≤ sp.prevDist
    · rcases adv_move aim f it sp (by omega) hb with ⟨e, -⟩ | ⟨e1, e⟩
      · exfalso
        rw [h0, show width 0 = 10 from rfl] at e
        rcases direction_cases aim (f sp.dac) with ⟨p1, p2⟩ | ⟨p1, p2⟩ | ⟨p1, p2⟩ <;> rw [p2] at e
        · have : sp.dac < y + 10 := by
            by_contra hlt
            have := hf (y + 10) sp.dac (by omega) (by omega) a2
            linarith
          omega
        · have : y < sp.dac := by
            by_contra hlt
            have := hf sp.dac y a1 (by omega) (by omega)
            linarith
          omega
        · omega
      · rw [e]
        have hw : width sp.stage = 10 := by rw [h0]; rfl
        rw [hw] at e1 ⊢
        refine Or.inl ⟨h0, e1, by simp only; omega, Or.inr ?_⟩
        simp only
        by_cases hy2 : sp.dac = y ∨ sp.dac = y + 10
        · exact Or.inr ⟨trivial, hy2⟩
        · left
          refine (distanceOf_le aim _ _ haim).2 ?_
          obtain ⟨b1, b2⟩ := e1
          rcases direction_cases aim (f sp.dac) with ⟨p1, p2⟩ | ⟨p1, p2⟩ | ⟨p1, p2⟩ <;> rw [p2] at b1 b2 ⊢
          · have : sp.dac < y + 10 := by
              by_contra hlt
              have := hf (y + 10) sp.dac (by omega) (by omega) a2
              linarith
            have g1 := hf (sp.dac + 10 * 1) y b1 (by omega) (by omega)
            have g2 := hf sp.dac (sp.dac + 10 * 1) a1 (by omega) b2
            rw [abs_of_nonneg (by linarith), abs_of_pos (by linarith)]
            linarith
          · have : y < sp.dac := by
              by_contra hlt
              have := hf sp.dac y a1 (by omega) (by omega)
              linarith
            have g1 := hf (y + 10) (sp.dac + 10 * -1) (by omega) (by omega) b2
            have g2 := hf (sp.dac + 10 * -1) sp.dac b1 (by omega) a2
            rw [abs_of_nonpos (by linarith), abs_of_neg (by linarith)]
            linarith
          · simp
    · push Not at hb
      obtain ⟨b1, b2⟩ := hb
      rcases a4 with a4 | a4 | ⟨a4, a5⟩
      · exact absurd a4 b1
      · exact absurd b2 (not_lt.2 a4)
      · rw [adv_back aim f it sp (by omega) b1 b2]
        refine Or.inr ⟨by omega, by simp only; omega, ?_, Or.inr ?_⟩
        · simp only; omega
        · simp only
          rw [← a4]
          exact b2.le
  · exact Or.inr ⟨by omega, trapped_step aim f 1 (by omega) _ htrap it sp h1⟩

/-! ### all superpixels -/

/-- a pass ends if every superpixel has a bound on the calls it needs -/
theorem pass_ends_of (nPixels : Nat) (aim : ℚ) (amp : Nat → List (List ℚ)) (st : Nat → Matcher) (resp : Nat → Int → ℚ)
    (hst : ∀ k, st (k + 1) = (process (st k) nPixels (amp k)).1) (hne : ∀ k, amp k ≠ []) (hpix : nPixels % 4 = 0)
    (hresp : ∀ k i sp, (st k).sps[i]? = some sp → spAverage (amp k) i = resp i sp.dac)
    (haim : ∀ k, (st k).aim = aim) (mask : List Bool) (hmaskc : ∀ k, (st k).mask = mask)
    (hlen : ∀ k, (st k).sps.length ≤ nPixels / 4) (hmask : ∀ k, (st k).sps.length ≤ (st k).mask.length)
    (k0 : Nat) (hg : (resetIfDue (st k0)).globalStage = 0 ∨ (resetIfDue (st k0)).globalStage = 2)
    (hit : (resetIfDue (st k0)).iteration = 0) (N : Nat) (G : Nat → Nat → Sp → Prop)
    (hfirst : ∀ i sp, (st k0).sps[i]? = some sp → mask.getD i false = false →
      (adv aim (resp i) 0 (seen (st k0) sp)).stage = 3 ∨ ∃ n ≤ N, G i n (adv aim (resp i) 0 (seen (st k0) sp)))
    (hstep : ∀ i it n sp, it ≠ 0 → i < nPixels / 4 → mask.getD i false = false → G i n sp → (adv aim (resp i) it sp).stage = 3 ∨ ∃ n' < n, G i n' (adv aim (resp i) it sp)) :
    ∃ k, (st k).globalStage = (resetIfDue (st k0)).globalStage + 1 := by
  obtain ⟨g, hgdef⟩ : ∃ g, g = (resetIfDue (st k0)).globalStage := ⟨_, rfl⟩
  rw [← hgdef] at hg ⊢
  have hne3 : (st k0).globalStage ≠ 3 := by
    intro h
    rw [(resetIfDue_const (st k0)).2.2.2.1 (by omega)] at hgdef
    omega
  have hmasked : ∀ it d e sp, (stepSp it true d e sp).stage = 3 := by
    intro it d e sp
    unfold stepSp nextDac
    by_cases h : sp.stage = 3
    · simp [h]
    · simp [h]
  have hdone : ∀ it b d e sp, sp.stage = 3 → (stepSp it b d e sp).stage = 3 := by
    intro it b d e sp h
    unfold stepSp nextDac
    simp [h]
  by_contra hno
  push Not at hno
  have key : ∀ j, (st (k0 + 1 + j)).globalStage = g ∧ (st (k0 + 1 + j)).iteration = j + 1 ∧
      ∀ i sp, (st (k0 + 1 + j)).sps[i]? = some sp → sp.stage = 3 ∨ (mask.getD i false = false ∧ ∃ n, n + j ≤ N ∧ G i n sp) := by
    intro j
    induction j with
    | zero =>
      have hp := process_steps (st k0) nPixels (amp k0) (hne _) hpix hne3 (hmask k0) (hlen k0)
      have e : st (k0 + 1) = stepped (st k0) (amp k0) := by rw [hst, hp]
      obtain ⟨-, g2, g3⟩ := stepped_global (st k0) (amp k0)
      refine ⟨?_, ?_, ?_⟩
      · rw [Nat.add_zero]
        rcases g2 with g2 | g2
        · rw [e, g2, hgdef]
        · exact absurd (by rw [e, g2, hgdef]) (hno (k0 + 1))
      · rw [Nat.add_zero, e, g3, hit]
      · intro i sp hsp
        rw [Nat.add_zero, e, stepped_get] at hsp
        cases hs : (st k0).sps[i]? with
        | none => rw [hs] at hsp; cases hsp
        | some sp0 =>
          rw [hs, Option.map_some, Option.some.injEq] at hsp
          have hd : (seen (st k0) sp0).dac = sp0.dac := by unfold seen; split <;> rfl
          have hmk : (resetIfDue (st k0)).mask = mask := by rw [(resetIfDue_const (st k0)).1, hmaskc]
          have haim' : (resetIfDue (st k0)).aim = aim := by rw [(resetIfDue_const (st k0)).2.1, haim]
          unfold stepAt at hsp
          rw [hit, haim', hmk, hresp k0 i sp0 hs, ← hd] at hsp
          cases hb : mask.getD i false with
          | true => rw [hb] at hsp; left; rw [← hsp]; exact hmasked _ _ _ _
          | false =>
            rw [hb] at hsp
            have := hfirst i sp0 hs hb
            unfold adv at this
            rw [hsp] at this
            rcases this with h | ⟨n, n1, n2⟩
            · exact Or.inl h
            · exact Or.inr ⟨by trivial, n, by omega, n2⟩
    | succ j ih =>
      obtain ⟨i1, i2, i3⟩ := ih
      obtain ⟨m, hm⟩ : ∃ m, m = st (k0 + 1 + j) := ⟨_, rfl⟩
      rw [← hm] at i1 i2 i3
      have hreset : resetIfDue m = m := (resetIfDue_const m).2.2.2.1 (by omega)
      have hp := process_steps m nPixels (amp (k0 + 1 + j)) (hne _) hpix (by omega) (by rw [hm]; exact hmask _) (by rw [hm]; exact hlen _)
      have e : st (k0 + 1 + (j + 1)) = stepped m (amp (k0 + 1 + j)) := by
        rw [show k0 + 1 + (j + 1) = k0 + 1 + j + 1 by omega, hst, ← hm, hp]
      obtain ⟨-, g2, g3⟩ := stepped_global m (amp (k0 + 1 + j))
      rw [hreset] at g2 g3
      refine ⟨?_, ?_, ?_⟩
      · rcases g2 with g2 | g2
        · rw [e, g2, i1]
        · exact absurd (by rw [e, g2, i1]) (hno (k0 + 1 + (j + 1)))
      · rw [e, g3, i2]
      · intro i sp hsp
        rw [e, stepped_get] at hsp
        cases hs : m.sps[i]? with
        | none => rw [hs] at hsp; cases hsp
        | some sp0 =>
          rw [hs, Option.map_some, Option.some.injEq, hreset] at hsp
          have hseen : seen m sp0 = sp0 := by unfold seen; rw [if_neg (by omega)]
          have hil : i < nPixels / 4 := by
            have h1 := (List.getElem?_eq_some_iff.1 hs).1
            have h2 := hlen (k0 + 1 + j)
            rw [← hm] at h2
            omega
          have hs' := hs
          rw [hm] at hs'
          rw [hseen] at hsp
          unfold stepAt at hsp
          have haim' : m.aim = aim := by rw [hm]; exact haim _
          have hmk : m.mask = mask := by rw [hm]; exact hmaskc _
          rw [haim', hmk, hresp (k0 + 1 + j) i sp0 hs'] at hsp
          rcases i3 i sp0 hs with h3 | ⟨h3, n, n1, n2⟩
          · left; rw [← hsp]; exact hdone _ _ _ _ _ h3
          · rw [h3] at hsp
            have := hstep i m.iteration n sp0 (by omega) hil h3 n2
            unfold adv at this
            rw [hsp] at this
            rcases this with h | ⟨n', n3, n4⟩
            · exact Or.inl h
            · exact Or.inr ⟨h3, n', by omega, n4⟩
  obtain ⟨b1, b2, b3⟩ := key (N + 1)
  obtain ⟨a1, a2, a3⟩ := key N
  obtain ⟨m, hm⟩ : ∃ m, m = st (k0 + 1 + N) := ⟨_, rfl⟩
  rw [← hm] at a1 a2 a3
  have hreset : resetIfDue m = m := (resetIfDue_const m).2.2.2.1 (by omega)
  have hp := process_steps m nPixels (amp (k0 + 1 + N)) (hne _) hpix (by omega) (by rw [hm]; exact hmask _) (by rw [hm]; exact hlen _)
  have e : st (k0 + 1 + (N + 1)) = stepped m (amp (k0 + 1 + N)) := by
    rw [show k0 + 1 + (N + 1) = k0 + 1 + N + 1 by omega, hst, ← hm, hp]
  have hfin : ∀ sp ∈ (stepped m (amp (k0 + 1 + N))).sps, sp.stage = 3 := by
    intro sp hsp
    obtain ⟨i, hi⟩ := List.getElem?_of_mem hsp
    rw [← e] at hi
    rcases b3 i sp hi with h | ⟨-, n, n1, -⟩
    · exact h
    · omega
  have := (stepped_global m (amp (k0 + 1 + N))).1 hfin
  rw [hreset, ← e, b1, a1] at this
  omega

/-- a pass does not end if a superpixel never finishes -/
theorem pass_stays (nPixels : Nat) (aim : ℚ) (amp : Nat → List (List ℚ)) (st : Nat → Matcher) (resp : Nat → Int → ℚ)
    (hst : ∀ k, st (k + 1) = (process (st k) nPixels (amp k)).1) (hne : ∀ k, amp k ≠ []) (hpix : nPixels % 4 = 0)
    (hresp : ∀ k i sp, (st k).sps[i]? = some sp → spAverage (amp k) i = resp i sp.dac)
    (haim : ∀ k, (st k).aim = aim) (mask : List Bool) (hmaskc : ∀ k, (st k).mask = mask)
    (hlen : ∀ k, (st k).sps.length ≤ nPixels / 4) (hmask : ∀ k, (st k).sps.length ≤ (st k).mask.length)
    (k0 : Nat) (hg : (resetIfDue (st k0)).globalStage = 0 ∨ (resetIfDue (st k0)).globalStage = 2)
    (hit : (resetIfDue (st k0)).iteration = 0) (i : Nat) (hi : mask.getD i false = false) (sp0 : Sp) (hs0 : (st k0).sps[i]? = some sp0)
    (P : Nat → Sp → Prop) (hP0 : P 0 (seen (st k0) sp0)) (hstep : ∀ it sp, P it sp → P (it + 1) (adv aim (resp i) it sp))
    (hnf : ∀ it sp, P it sp → sp.stage ≠ 3) (j : Nat) : (st (k0 + 1 + j)).globalStage = (resetIfDue (st k0)).globalStage := by
  obtain ⟨g, hgdef⟩ : ∃ g, g = (resetIfDue (st k0)).globalStage := ⟨_, rfl⟩
  rw [← hgdef] at hg ⊢
  have hne3 : (st k0).globalStage ≠ 3 := by
    intro h
    rw [(resetIfDue_const (st k0)).2.2.2.1 (by omega)] at hgdef
    omega
  have key : ∀ j, (st (k0 + 1 + j)).globalStage = g ∧ (st (k0 + 1 + j)).iteration = j + 1 ∧ ∃ sp, (st (k0 + 1 + j)).sps[i]? = some sp ∧ P (j + 1) sp := by
    intro j
    induction j with
    | zero =>
      have hp := process_steps (st k0) nPixels (amp k0) (hne _) hpix hne3 (hmask k0) (hlen k0)
      have e : st (k0 + 1) = stepped (st k0) (amp k0) := by rw [hst, hp]
      obtain ⟨-, g2, g3⟩ := stepped_global (st k0) (amp k0)
      have hd : (seen (st k0) sp0).dac = sp0.dac := by unfold seen; split <;> rfl
      have hmk : (resetIfDue (st k0)).mask = mask := by rw [(resetIfDue_const (st k0)).1, hmaskc]
      have haim' : (resetIfDue (st k0)).aim = aim := by rw [(resetIfDue_const (st k0)).2.1, haim]
      have hsp : (stepped (st k0) (amp k0)).sps[i]? = some (adv aim (resp i) 0 (seen (st k0) sp0)) := by
        rw [stepped_get, hs0, Option.map_some]
        unfold stepAt adv
        rw [hit, haim', hmk, hresp k0 i sp0 hs0, hd, hi]
      have hPn := hstep 0 _ hP0
      rw [Nat.add_zero, e]
      refine ⟨?_, by rw [g3, hit], _, hsp, hPn⟩
      rw [hgdef]
      by_contra hneq
      exact hnf _ _ hPn (stepped_done (st k0) (amp k0) hneq _ (List.mem_of_getElem? hsp))
    | succ j ih =>
      obtain ⟨i1, i2, sp, i3, i4⟩ := ih
      obtain ⟨m, hm⟩ : ∃ m, m = st (k0 + 1 + j) := ⟨_, rfl⟩
      have i3' := i3
      rw [← hm] at i1 i2 i3
      have hreset : resetIfDue m = m := (resetIfDue_const m).2.2.2.1 (by omega)
      have hp := process_steps m nPixels (amp (k0 + 1 + j)) (hne _) hpix (by omega) (by rw [hm]; exact hmask _) (by rw [hm]; exact hlen _)
      have e : st (k0 + 1 + (j + 1)) = stepped m (amp (k0 + 1 + j)) := by
        rw [show k0 + 1 + (j + 1) = k0 + 1 + j + 1 by omega, hst, ← hm, hp]
      obtain ⟨-, g2, g3⟩ := stepped_global m (amp (k0 + 1 + j))
      rw [hreset] at g2 g3
      have hseen : seen m sp = sp := by unfold seen; rw [if_neg (by omega)]
      have haim' : m.aim = aim := by rw [hm]; exact haim _
      have hmk : m.mask = mask := by rw [hm]; exact hmaskc _
      have hsp : (stepped m (amp (k0 + 1 + j))).sps[i]? = some (adv aim (resp i) (j + 1) sp) := by
        rw [stepped_get, i3, Option.map_some, hreset, hseen]
        unfold stepAt adv
        rw [haim', hmk, hresp (k0 + 1 + j) i sp i3', hi, i2]
      have hPn := hstep (j + 1) _ i4
      rw [e]
      refine ⟨?_, by rw [g3, i2], _, hsp, hPn⟩
      by_contra hneq
      exact hnf _ _ hPn (stepped_done m (amp (k0 + 1 + j)) (by rw [hreset, i1]; exact hneq) _ (List.mem_of_getElem? hsp))
  exact (key j).1

/-- C49, exactly for responses that do not increase with the DAC value (missing from C49: the stuck ones; other responses): with starting values in the
allowed range and amplitudes that depend on the DAC value only, completion is reported after finitely many calls exactly if no unflagged
superpixel is stuck. -/
theorem C49_exactly_partial (nPixels : Nat) (aim : ℚ) (starting : Option (List Int)) (badHv : Option (List Bool)) (amp : Nat → List (List ℚ))
    (st : Nat → Matcher) (resp : Nat → Int → ℚ) (h0 : st 0 = newMatcher nPixels aim starting badHv)
    (hst : ∀ k, st (k + 1) = (process (st k) nPixels (amp k)).1) (hne : ∀ k, amp k ≠ []) (hpix : nPixels % 4 = 0)
    (hstart : ∀ dacs, starting = some dacs → dacs.length = nPixels / 4 ∧ ∀ d ∈ dacs, 10 ≤ d ∧ d ≤ 255)
    (hmask : ∀ bad, badHv = some bad → nPixels / 4 ≤ bad.length)
    (hresp : ∀ k i sp, (st k).sps[i]? = some sp → MeanAmplitude (amp k) i (resp i sp.dac)) (haim : aim ≠ 0)
    (hfall : ∀ i d d', 10 ≤ d → d ≤ d' → d' ≤ 255 → resp i d' ≤ resp i d) :
    (∃ k dacs, (process (st k) nPixels (amp k)).2 = .ok (dacs, true)) ↔
    ∀ i d0, (starting.getD (List.replicate (nPixels / 4) 100))[i]? = some d0 → (∀ bad, badHv = some bad → bad[i]? ≠ some true) →
      ¬ Stuck aim (resp i) d0 := by
  replace hresp := fun k i sp h => (spAverage_mean _ (hne k) _ _).2 (hresp k i sp h)
  have hlen0 : (st 0).sps.length = nPixels / 4 := by
    rw [h0]
    cases starting with
    | none => simp [newMatcher]
    | some dacs => simp [newMatcher, (hstart dacs rfl).1]
  have hmask0 : nPixels / 4 ≤ (st 0).mask.length := by
    rw [h0]
    cases badHv with
    | none => simp [newMatcher, matcherMask]
    | some bad => exact hmask bad rfl
  have hlen : ∀ k, (st k).sps.length = nPixels / 4 := by
    intro k
    induction k with
    | zero => exact hlen0
    | succ k ih => rw [hst, process_length, ih]
  have hconst : ∀ k, (st k).mask = (st 0).mask ∧ (st k).aim = aim := by
    intro k
    induction k with
    | zero => exact ⟨rfl, by rw [h0]; rfl⟩
    | succ k ih =>
      obtain ⟨c1, c2⟩ := process_const (st k) nPixels (amp k)
      rw [hst]
      exact ⟨by rw [c1, ih.1], by rw [c2, ih.2]⟩
  have hall : ∀ k, DacsAllowed (st k) := by
    intro k
    induction k with
    | zero =>
      rw [h0]
      intro sp hsp
      obtain ⟨d, hd, rfl⟩ := List.mem_map.1 hsp
      have : Allowed d := by
        cases starting with
        | none => rw [Option.getD_none, List.mem_replicate] at hd; rw [hd.2]; unfold Allowed; omega
        | some l => exact (hstart l rfl).2 d hd
      exact ⟨this, this⟩
    | succ k ih => rw [hst]; exact process_allowed _ _ _ ih
  have hflag : ∀ i, i < nPixels / 4 → ((st 0).mask.getD i false = false ↔ ∀ bad, badHv = some bad → bad[i]? ≠ some true) := by
    intro i hi
    rw [h0]
    cases badHv with
    | none =>
      simp only [newMatcher, matcherMask]
      constructor
      · intro _ bad h; cases h
      · intro _
        rw [List.getD_eq_getElem?_getD, List.getElem?_replicate_of_lt hi]
        rfl
    | some bad =>
      have hl := hmask bad rfl
      simp only [newMatcher, matcherMask]
      rw [List.getD_eq_getElem?_getD, List.getElem?_eq_getElem (by omega)]
      constructor
      · rintro h b hb
        cases hb
        rw [List.getElem?_eq_getElem (by omega)]
        intro hc
        rw [Option.some.injEq] at hc
        simp only [Option.getD_some] at h
        rw [hc] at h
        cases h
      · intro h
        have := h bad rfl
        rw [List.getElem?_eq_getElem (by omega)] at this
        simp only [Option.getD_some]
        cases hb : bad[i] with
        | false => rfl
        | true => rw [hb] at this; exact absurd rfl this
  have hsp0 : ∀ i : Nat, (st 0).sps[i]? = ((starting.getD (List.replicate (nPixels / 4) 100))[i]?).map fun d => ⟨d, d, 0, 0⟩ := by
    intro i
    rw [h0]
    exact List.getElem?_map
  have hpos := fun k0 => pass_ends_of nPixels aim amp st resp hst hne hpix hresp (fun k => (hconst k).2) (st 0).mask (fun k => (hconst k).1)
    (fun k => (hlen k).le) (fun k => by rw [hlen k, (hconst k).1]; exact hmask0) k0
  have hneg := fun k0 => pass_stays nPixels aim amp st resp hst hne hpix hresp (fun k => (hconst k).2) (st 0).mask (fun k => (hconst k).1)
    (fun k => (hlen k).le) (fun k => by rw [hlen k, (hconst k).1]; exact hmask0) k0
  obtain ⟨s0, g0⟩ := new_stage nPixels aim starting badHv
  rw [← h0] at g0
  have hr0 : resetIfDue (st 0) = st 0 := (resetIfDue_const (st 0)).2.2.2.1 (by omega)
  have hit0 : (resetIfDue (st 0)).iteration = 0 := by rw [hr0, h0]; rfl
  have hseen0 : ∀ sp, seen (st 0) sp = sp := fun sp => by unfold seen; rw [if_neg (by omega)]
  constructor
  · rintro ⟨k, dacs, hk⟩ i d0 hd0 hgood hstuck
    have hg3 : (st k).globalStage = 3 := by
      rcases process_ok_inv _ _ _ _ hk with ⟨hg, -, -⟩ | ⟨-, -, hr⟩
      · exact hg
      · injection hr with h1 h2; cases h2
    have hi : i < nPixels / 4 := by
      have h1 := hsp0 i
      rw [hd0, Option.map_some] at h1
      have := (List.getElem?_eq_some_iff.1 h1).1
      omega
    have hm := (hflag i hi).2 hgood
    have hs := hsp0 i
    rw [hd0, Option.map_some] at hs
    have hd0a : Allowed d0 := (hall 0 _ (List.mem_of_getElem? hs)).1
    -- the first pass does not end if the steps of 10 or 5 are caught
    have hfirst : ∀ P : Nat → Sp → Prop, P 0 ⟨d0, d0, 0, 0⟩ → (∀ it sp, P it sp → P (it + 1) (adv aim (resp i) it sp)) →
        (∀ it sp, P it sp → sp.stage ≠ 3) → False := by
      intro P p1 p2 p3
      have := hneg 0 (Or.inl (by rw [hr0, g0])) hit0 i hm _ hs P (by rw [hseen0]; exact p1) p2 p3
      cases k with
      | zero => omega
      | succ k =>
        have h := this k
        rw [hr0, g0, Nat.zero_add, Nat.add_comm] at h
        omega
    -- the second pass does not end if the steps of 1 are caught
    have hsecond : ∀ S : Int → Prop, (∀ d, Allowed d → S d) → Trap aim (resp i) 2 S → False := by
      intro S hS hT
      -- the first pass ended
      have hex : ∃ k, (st k).globalStage = 1 := by
        by_contra hno
        push Not at hno
        have : ∀ k, (st k).globalStage = 0 := by
          intro k
          induction k with
          | zero => exact g0
          | succ k ih =>
            have := process_global (st k) nPixels (amp k) (by omega)
            rw [← hst] at this
            have := hno (k + 1)
            omega
        have := this k
        omega
      have hfind : ∃ k1, (st k1).globalStage = 1 ∧ ∀ j < k1, (st j).globalStage ≠ 1 := by
        classical
        exact ⟨Nat.find hex, Nat.find_spec hex, fun j hj => Nat.find_min hex hj⟩
      obtain ⟨k1, e1, hmin⟩ := hfind
      have hbefore : ∀ j < k1, (st j).globalStage = 0 := by
        intro j
        induction j with
        | zero => intro _; exact g0
        | succ j ih =>
          intro hj
          have hj0 := ih (by omega)
          have := process_global (st j) nPixels (amp j) (by omega)
          rw [← hst] at this
          have := hmin (j + 1) hj
          omega
      obtain ⟨-, -, -, -, c5⟩ := resetIfDue_const (st k1)
      obtain ⟨r1, r2⟩ := c5 e1
      have hik : i < (st k1).sps.length := by rw [hlen]; exact hi
      have hsk : (st k1).sps[i]? = some (st k1).sps[i] := List.getElem?_eq_getElem hik
      have := hneg k1 (Or.inr r1) r2 i hm _ hsk (Trapped aim (resp i) 2 S) (by
          unfold seen
          rw [if_pos e1]
          exact ⟨rfl, hS _ (hall k1 _ (List.mem_of_getElem? hsk)).1, Or.inl rfl⟩)
        (fun it sp h => trapped_step aim (resp i) 2 (by omega) S hT it sp h) (fun it sp h => by rw [h.1]; omega)
      rcases Nat.lt_trichotomy k k1 with hlt | heq | hlt
      · have := hbefore k hlt; omega
      · rw [heq] at hg3; omega
      · have h := this (k - k1 - 1)
        rw [r1, show k1 + 1 + (k - k1 - 1) = k by omega] at h
        omega
    have hf : Falling (resp i) := hfall i
    rcases hstuck with ⟨d, d1, d2, d3⟩ | ⟨d, d1, d2, d3⟩ | ⟨y, y1, y2, y3, y4⟩
    · exact hsecond Allowed (fun _ h => h) (trap_hit aim (resp i) haim hf d d1 d2 d3)
    · have hT := trap_tie aim (resp i) haim hf 2 d d1 d2 d3
      refine hsecond _ (fun e he => ⟨he, ?_⟩) hT
      rw [show width 2 = 1 from rfl]
      omega
    · rcases y4 with y4 | y4
      · have hT := trap_tie aim (resp i) haim hf 0 y y2 y3 y4
        refine hfirst (Trapped aim (resp i) 0 _) ⟨rfl, ⟨hd0a, ?_⟩, Or.inl rfl⟩ (fun it sp h => trapped_step aim (resp i) 0 (by omega) _ hT it sp h)
          (fun it sp h => by rw [h.1]; omega)
        rw [show width 0 = 10 from rfl]
        simp only
        omega
      · refine hfirst (Caught aim (resp i) y) (Or.inl ⟨rfl, hd0a, by simp only; omega, Or.inl rfl⟩)
          (fun it sp h => caught_step aim (resp i) haim hf y y2 y3 y4 it sp h) ?_
        rintro it sp (h | ⟨-, h⟩)
        · rw [h.1]; omega
        · rw [h.1]; omega
  · intro hgood
    have hstart0 : ∀ i, i < nPixels / 4 → ∃ d0, (starting.getD (List.replicate (nPixels / 4) 100))[i]? = some d0 := by
      intro i hi
      have := hsp0 i
      rw [List.getElem?_eq_getElem (by omega)] at this
      cases hd : (starting.getD (List.replicate (nPixels / 4) 100))[i]? with
      | none => rw [hd] at this; cases this
      | some d => exact ⟨d, rfl⟩
    -- the search of superpixel `i`
    have G : ∃ G : Nat → Nat → Sp → Prop, ∀ i n sp, G i n sp ↔ ∃ d0, (starting.getD (List.replicate (nPixels / 4) 100))[i]? = some d0 ∧ Going aim (resp i) d0 n sp :=
      ⟨fun i n sp => _, fun i n sp => Iff.rfl⟩
    obtain ⟨G, hG⟩ := G
    have hstep : ∀ i it n sp, it ≠ 0 → i < nPixels / 4 → (st 0).mask.getD i false = false → G i n sp →
        (adv aim (resp i) it sp).stage = 3 ∨ ∃ n' < n, G i n' (adv aim (resp i) it sp) := by
      intro i it n sp hit hi hm h
      obtain ⟨d0, e0, e1⟩ := (hG i n sp).1 h
      rcases going_step aim (resp i) haim (hfall i) d0 (hgood i d0 e0 ((hflag i hi).1 hm)) it hit n sp e1 with h | ⟨n', n1, n2⟩
      · exact Or.inl h
      · exact Or.inr ⟨n', n1, (hG _ _ _).2 ⟨d0, e0, n2⟩⟩
    have hfirst : ∀ k0, (∀ i sp d0, (st k0).sps[i]? = some sp → (starting.getD (List.replicate (nPixels / 4) 100))[i]? = some d0 →
          Good aim (resp i) d0 (seen (st k0) sp)) → ∀ i sp, (st k0).sps[i]? = some sp → (st 0).mask.getD i false = false →
        (adv aim (resp i) 0 (seen (st k0) sp)).stage = 3 ∨ ∃ n ≤ 4000, G i n (adv aim (resp i) 0 (seen (st k0) sp)) := by
      intro k0 hk i sp hs hm
      have hi : i < nPixels / 4 := by
        have h1 := (List.getElem?_eq_some_iff.1 hs).1
        rw [hlen] at h1
        exact h1
      obtain ⟨d0, e0⟩ := hstart0 i hi
      have hgd := hk i sp d0 hs e0
      rcases going_move aim (resp i) haim (hfall i) d0 (hgood i d0 e0 ((hflag i hi).1 hm)) 0 _ hgd (Or.inl rfl) with h | ⟨n', n1, n2⟩
      · exact Or.inl h
      · refine Or.inr ⟨n', ?_, (hG _ _ _).2 ⟨d0, e0, n2⟩⟩
        have : ahead aim (resp i) (seen (st k0) sp).dac ≤ 265 := by
          have h1 := hgd.2.1.1
          have h2 := hgd.2.1.2
          unfold ahead
          split <;> omega
        omega
    obtain ⟨k1, e1⟩ := hpos 0 (Or.inl (by rw [hr0, g0])) hit0 4000 G (hfirst 0 (by
        intro i sp d0 hs e0
        have := hsp0 i
        rw [e0, hs, Option.map_some, Option.some.injEq] at this
        have ha := (hall 0 sp (List.mem_of_getElem? hs)).1
        rw [hseen0]
        subst this
        exact ⟨by simp, ha, ⟨fun _ => by simp, fun h => by simp at h⟩, fun h => by simp at h⟩)) hstep
    rw [hr0, g0] at e1
    obtain ⟨-, -, -, -, c5⟩ := resetIfDue_const (st k1)
    obtain ⟨r1, r2⟩ := c5 e1
    obtain ⟨k2, e2⟩ := hpos k1 (Or.inr r1) r2 4000 G (hfirst k1 (by
        intro i sp d0 hs e0
        have ha := (hall k1 sp (List.mem_of_getElem? hs)).1
        unfold seen
        rw [if_pos e1]
        exact ⟨by simp, ha, ⟨fun h => by simp at h, fun h => by simp at h⟩, fun h => by simp at h⟩)) hstep
    rw [r1] at e2
    refine ⟨k2, (st k2).sps.map Sp.dac, ?_⟩
    unfold process
    rw [if_neg (by omega)]
    have : resetIfDue (st k2) = st k2 := (resetIfDue_const (st k2)).2.2.2.1 (by omega)
    simp only [this, if_pos e2]

/-- the response of `C49_false` is stuck from 100 on, one that is a little larger is not -/
example : Stuck 5 (fun d => 5 + (105 - d) / 5) 100 ∧ ¬ Stuck 5 (fun d => 5 + (105 + 1 / 4 - d) / 5) 100 := by
  constructor
  · refine Or.inr (Or.inr ⟨100, by norm_num, by norm_num, by norm_num, Or.inl ?_⟩)
    unfold Tie
    norm_num
  · rintro (⟨d, -, -, h⟩ | ⟨d, -, -, h⟩ | ⟨y, -, -, -, h | h | h⟩)
    · have h4 : ((421 : ℤ) : ℚ) = ((4 * d : ℤ) : ℚ) := by push_cast; linarith
      have := Int.cast_injective h4
      omega
    · unfold Tie at h
      push_cast at h
      have h4 : ((421 : ℤ) : ℚ) = ((4 * d + 2 : ℤ) : ℚ) := by push_cast; linarith
      have := Int.cast_injective h4
      omega
    all_goals
      unfold Tie at h
      push_cast at h
    · have h4 : ((421 : ℤ) : ℚ) = ((4 * y + 20 : ℤ) : ℚ) := by push_cast; linarith
      have := Int.cast_injective h4
      omega
    · have h4 : ((421 : ℤ) : ℚ) = ((4 * y + 10 : ℤ) : ℚ) := by push_cast; linarith
      have := Int.cast_injective h4
      omega
    · have h4 : ((421 : ℤ) : ℚ) = ((4 * y + 30 : ℤ) : ℚ) := by push_cast; linarith
      have := Int.cast_injective h4
      omega

end Verif.Props
