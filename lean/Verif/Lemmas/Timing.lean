import Verif.Spec.Timing
import Verif.Lemmas.Reducers
import Mathlib.Tactic.Ring
import Mathlib.Tactic.Linarith
import Mathlib.Tactic.FieldSimp
import Mathlib.Tactic.Positivity
import Mathlib.Tactic.NormNum
import Mathlib.Algebra.Order.Field.Basic

namespace Verif.Lemmas

open Verif.Py Verif.Model Verif.Spec

theorem roundEven_near (x : ℚ) : |x - roundEven x| ≤ 1 / 2 := by
  have h1 := Int.floor_le x
  have h2 := Int.lt_floor_add_one x
  unfold roundEven
  simp only
  rw [abs_le]
  split_ifs <;> push_cast <;> constructor <;> linarith

theorem roundEven_tie (x : ℚ) (h : |x - roundEven x| = 1 / 2) : roundEven x % 2 = 0 := by
  have h1 := Int.floor_le x
  have h2 := Int.lt_floor_add_one x
  revert h
  unfold roundEven
  simp only
  split_ifs with a b c
  · intro h
    rw [abs_of_nonneg (by linarith)] at h
    linarith
  · intro h
    push_cast at h
    rw [abs_of_nonpos (by linarith)] at h
    linarith
  · exact fun _ => c
  · intro _
    omega

theorem roundEven_bounds (x : ℚ) (n : Nat) (h0 : 0 ≤ x) (hn : x < n) : 0 ≤ roundEven x ∧ roundEven x ≤ n := by
  have hf : 0 ≤ ⌊x⌋ := Int.floor_nonneg.2 h0
  have hl : ⌊x⌋ < n := Int.floor_lt.2 (by exact_mod_cast hn)
  unfold roundEven
  simp only
  split_ifs <;> constructor <;> omega

theorem crossing_fall (level yi yj : ℚ) (xi : Nat) (x : ℚ) (h1 : yi ≥ level) (h2 : level ≥ yj)
    (h : crossing level yi yj (xi : Int) ((xi : Int) + 1) = .ok x) : yi ≠ yj ∧ (xi : ℚ) ≤ x ∧ x ≤ xi + 1 ∧ yi + (x - xi) * (yj - yi) = level := by
  unfold crossing at h
  split_ifs at h with h0
  simp only [Except.ok.injEq] at h
  subst h
  have hneg : yj - yi < 0 := lt_of_le_of_ne (by linarith) h0
  push_cast
  have e : (level - yi) * ((xi : ℚ) + 1 - xi) / (yj - yi) = (yi - level) / (yi - yj) := by
    rw [div_eq_div_iff h0 (by intro hh; apply h0; linarith)]; ring
  rw [e]
  have hp : 0 < yi - yj := by linarith
  refine ⟨fun hh => by linarith, ?_, ?_, ?_⟩
  · have : 0 ≤ (yi - level) / (yi - yj) := div_nonneg (by linarith) hp.le
    linarith
  · have : (yi - level) / (yi - yj) ≤ 1 := (div_le_one hp).2 (by linarith)
    linarith
  · have hp' := hp.ne'
    have : ((xi : ℚ) + (yi - level) / (yi - yj) - xi) * (yj - yi) = level - yi := by
      rw [add_sub_cancel_left, show yj - yi = -(yi - yj) by ring, mul_neg, div_mul_cancel₀ _ hp']; ring
    linarith

theorem crossing_rise (level yi yj : ℚ) (xj : Nat) (x : ℚ) (h1 : yi ≥ level) (h2 : level ≥ yj)
    (h : crossing level yi yj ((xj + 1 : Nat) : Int) (((xj + 1 : Nat) : Int) - 1) = .ok x) :
    yj ≠ yi ∧ (xj : ℚ) ≤ x ∧ x ≤ xj + 1 ∧ yj + (x - xj) * (yi - yj) = level := by
  unfold crossing at h
  split_ifs at h with h0
  simp only [Except.ok.injEq] at h
  subst h
  have hneg : yj - yi < 0 := lt_of_le_of_ne (by linarith) h0
  have hp : 0 < yi - yj := by linarith
  push_cast
  have e : (level - yi) * ((xj : ℚ) + 1 - 1 - (xj + 1)) / (yj - yi) = -((yi - level) / (yi - yj)) := by
    rw [← neg_div, div_eq_div_iff h0 hp.ne']; ring
  rw [e]
  refine ⟨fun hh => by linarith, ?_, ?_, ?_⟩
  · have : (yi - level) / (yi - yj) ≤ 1 := (div_le_one hp).2 (by linarith)
    linarith
  · have : 0 ≤ (yi - level) / (yi - yj) := div_nonneg (by linarith) hp.le
    linarith
  · have : (yi - level) / (yi - yj) * (yi - yj) = yi - level := div_mul_cancel₀ _ hp.ne'
    have e2 : yj + ((xj : ℚ) + 1 + -((yi - level) / (yi - yj)) - xj) * (yi - yj) = yj + (yi - yj) - (yi - level) / (yi - yj) * (yi - yj) := by ring
    rw [e2, this]
    ring

theorem crossing_error (level yi yj : ℚ) (xi xj : Int) (e : Err) (h : crossing level yi yj xi xj = .error e) : e = .zeroDivision ∧ yi = yj := by
  unfold crossing at h
  split_ifs at h with h0
  cases h
  exact ⟨rfl, by linarith⟩

theorem forwardLoop_spec (row : List ℚ) (level : ℚ) (steps xi : Nat) (hs : steps = row.length - 1 - xi) (x : ℚ)
    (h : forwardLoop row level steps xi = .ok x) : FirstFall row level xi x := by
  induction steps generalizing xi with
  | zero =>
    cases h
    exact Or.inr ⟨rfl, fun k hk hl => by omega⟩
  | succ steps ih =>
    unfold forwardLoop at h
    split_ifs at h with hc
    · exact Or.inl ⟨xi, le_refl _, by omega, hc, crossing_fall level _ _ xi x hc.1 hc.2 h, fun j hj hl => by omega⟩
    · rcases ih (xi + 1) (by omega) h with ⟨k, h1, h2, h3, h4, h5⟩ | ⟨h1, h2⟩
      · refine Or.inl ⟨k, by omega, h2, h3, h4, fun j hj hl => ?_⟩
        by_cases he : j = xi
        · subst he; exact hc
        · exact h5 j (by omega) hl
      · refine Or.inr ⟨h1, fun k hk hl => ?_⟩
        by_cases he : k = xi
        · subst he; exact hc
        · exact h2 k (by omega) hl

theorem forwardLoop_error (row : List ℚ) (level : ℚ) (steps xi : Nat) (hs : steps = row.length - 1 - xi) (e : Err)
    (h : forwardLoop row level steps xi = .error e) : e = .zeroDivision ∧ ∃ k, k + 1 < row.length ∧ row.getD k 0 = row.getD (k + 1) 0 := by
  induction steps generalizing xi with
  | zero => cases h
  | succ steps ih =>
    unfold forwardLoop at h
    split_ifs at h with hc
    · obtain ⟨a, b⟩ := crossing_error _ _ _ _ _ _ h
      exact ⟨a, xi, by omega, b⟩
    · exact ih (xi + 1) (by omega) h

theorem readSample_withBeyond (beyond : Option ℚ) (row : List ℚ) (j : Nat) (hj : j ≤ row.length) :
    readSample beyond row (j : Int) = (withBeyond row beyond)[j]? := by
  unfold readSample withBeyond
  simp only [if_neg (show ¬ (j : Int) < 0 by omega)]
  by_cases h : j < row.length
  · rw [if_pos (by omega), List.getElem?_append_left h, List.getD_eq_getElem?_getD, Int.toNat_natCast, List.getElem?_eq_getElem h]
    rfl
  · have : j = row.length := by omega
    subst this
    rw [if_neg (by omega), List.getElem?_append_right (le_refl _), Nat.sub_self]
    cases beyond <;> rfl

theorem withBeyond_getD (beyond : Option ℚ) (row : List ℚ) (j : Nat) (hj : j < row.length) : (withBeyond row beyond).getD j 0 = row.getD j 0 := by
  unfold withBeyond
  rw [List.getD_eq_getElem?_getD, List.getElem?_append_left hj, List.getD_eq_getElem?_getD]

theorem updateCrossing_spec (beyond : Option ℚ) (row : List ℚ) (level : ℚ) (xj : Nat) (hx : xj + 1 ≤ row.length) (t t' : ℚ)
    (h : updateCrossing level (readSample beyond row ((xj : Int) + 1)) (row.getD xj 0) (xj + 1) t = .ok t') :
    (t ≠ 0 → t' = t) ∧ (t = 0 → (xj + 1 < (withBeyond row beyond).length ∧ Rises (withBeyond row beyond) level xj ∧
      OnLine (withBeyond row beyond) level xj t') ∨ (t' = 0 ∧ ¬ (xj + 1 < (withBeyond row beyond).length ∧ Rises (withBeyond row beyond) level xj))) := by
  have hr := readSample_withBeyond beyond row (xj + 1) hx
  push_cast at hr
  rw [hr] at h
  have hj := withBeyond_getD beyond row xj (by omega)
  unfold updateCrossing at h
  cases hy : (withBeyond row beyond)[xj + 1]? with
  | none =>
    rw [hy] at h
    cases h
    have : (withBeyond row beyond).length ≤ xj + 1 := List.getElem?_eq_none_iff.1 hy
    exact ⟨fun _ => rfl, fun h0 => Or.inr ⟨h0, fun hc => by omega⟩⟩
  | some yi =>
    rw [hy] at h
    simp only at h
    have hlen : xj + 1 < (withBeyond row beyond).length := (List.getElem?_eq_some_iff.1 hy).1
    have hyi : (withBeyond row beyond).getD (xj + 1) 0 = yi := by rw [List.getD_eq_getElem?_getD, hy]; rfl
    split_ifs at h with hc
    · refine ⟨fun h0 => absurd hc.2.2 h0, fun _ => Or.inl ⟨hlen, ?_, ?_⟩⟩
      · unfold Rises; rw [hyi, hj]; exact ⟨hc.1, hc.2.1⟩
      · unfold OnLine; rw [hyi, hj]; exact crossing_rise level yi _ xj t' hc.1 hc.2.1 h
    · cases h
      refine ⟨fun _ => rfl, fun h0 => Or.inr ⟨h0, fun hr => hc ?_⟩⟩
      have := hr.2
      unfold Rises at this
      rw [hyi, hj] at this
      exact ⟨this.1, this.2, h0⟩

theorem updateCrossing_error (beyond : Option ℚ) (row : List ℚ) (level : ℚ) (xj : Nat) (hx : xj + 1 ≤ row.length) (t : ℚ) (e : Err)
    (h : updateCrossing level (readSample beyond row ((xj : Int) + 1)) (row.getD xj 0) (xj + 1) t = .error e) :
    e = .zeroDivision ∧ ∃ k, k + 1 < (withBeyond row beyond).length ∧ (withBeyond row beyond).getD k 0 = (withBeyond row beyond).getD (k + 1) 0 := by
  have hr := readSample_withBeyond beyond row (xj + 1) hx
  push_cast at hr
  rw [hr] at h
  have hj := withBeyond_getD beyond row xj (by omega)
  unfold updateCrossing at h
  cases hy : (withBeyond row beyond)[xj + 1]? with
  | none => rw [hy] at h; cases h
  | some yi =>
    rw [hy] at h
    simp only at h
    have hlen : xj + 1 < (withBeyond row beyond).length := (List.getElem?_eq_some_iff.1 hy).1
    have hyi : (withBeyond row beyond).getD (xj + 1) 0 = yi := by rw [List.getD_eq_getElem?_getD, hy]; rfl
    split_ifs at h with hc
    obtain ⟨a, b⟩ := crossing_error _ _ _ _ _ _ h
    exact ⟨a, xj, hlen, by rw [hj, hyi, b]⟩

/-- one component of the backward loop -/
theorem component (full : List ℚ) (level : ℚ) (xj : Nat) (t t' t'' : ℚ)
    (hu : (t ≠ 0 → t' = t) ∧ (t = 0 → (xj + 1 < full.length ∧ Rises full level xj ∧ OnLine full level xj t') ∨
      (t' = 0 ∧ ¬ (xj + 1 < full.length ∧ Rises full level xj))))
    (hr : (t' ≠ 0 → t'' = t') ∧ (t' = 0 → LastRise full level xj t'')) :
    (t ≠ 0 → t'' = t) ∧ (t = 0 → LastRise full level (xj + 1) t'') := by
  refine ⟨fun h0 => ?_, fun h0 => ?_⟩
  · have := hu.1 h0
    rw [hr.1 (by rw [this]; exact h0), this]
  · rcases hu.2 h0 with ⟨h1, h2, h3⟩ | ⟨h1, h2⟩
    · by_cases ht : t' = 0
      · rw [ht] at h3
        have hx0 : xj = 0 := by
          have := h3.2.1
          exact_mod_cast le_antisymm (by exact_mod_cast this) (Nat.zero_le xj)
        subst hx0
        rcases hr.2 ht with ⟨k, hk, -⟩ | ⟨he, -⟩
        · omega
        · rw [he]
          exact Or.inl ⟨0, by omega, h1, h2, h3, fun j hj hl => by omega⟩
      · rw [hr.1 ht]
        exact Or.inl ⟨xj, by omega, h1, h2, h3, fun j hj hl => by omega⟩
    · rcases hr.2 h1 with ⟨k, k1, k2, k3, k4, k5⟩ | ⟨he, hn⟩
      · refine Or.inl ⟨k, by omega, k2, k3, k4, fun j hj hl hlen => ?_⟩
        by_cases hjx : j = xj
        · subst hjx; exact fun hh => h2 ⟨hlen, hh⟩
        · exact k5 j hj (by omega) hlen
      · refine Or.inr ⟨he, fun k hk hlen => ?_⟩
        by_cases hkx : k = xj
        · subst hkx; exact fun hh => h2 ⟨hlen, hh⟩
        · exact hn k (by omega) hlen

theorem backwardLoop_spec (beyond : Option ℚ) (row : List ℚ) (half p90 p10 : ℚ) (xi : Nat) (hx : xi ≤ row.length) (l a b l' a' b' : ℚ)
    (h : backwardLoop beyond row half p90 p10 xi (l, a, b) = .ok (l', a', b')) :
    ((l ≠ 0 → l' = l) ∧ (l = 0 → LastRise (withBeyond row beyond) half xi l')) ∧
    ((a ≠ 0 → a' = a) ∧ (a = 0 → LastRise (withBeyond row beyond) p90 xi a')) ∧
    ((b ≠ 0 → b' = b) ∧ (b = 0 → LastRise (withBeyond row beyond) p10 xi b')) := by
  induction xi generalizing l a b with
  | zero =>
    cases h
    refine ⟨⟨fun _ => rfl, fun h => Or.inr ⟨h, fun k hk => by omega⟩⟩, ⟨fun _ => rfl, fun h => Or.inr ⟨h, fun k hk => by omega⟩⟩,
      ⟨fun _ => rfl, fun h => Or.inr ⟨h, fun k hk => by omega⟩⟩⟩
  | succ xj ih =>
    unfold backwardLoop at h
    simp only at h
    cases h1 : updateCrossing half (readSample beyond row ((xj : Int) + 1)) (row.getD xj 0) (xj + 1) l with
    | error e => rw [h1] at h; cases h
    | ok l1 =>
      rw [h1] at h
      simp only at h
      cases h2 : updateCrossing p90 (readSample beyond row ((xj : Int) + 1)) (row.getD xj 0) (xj + 1) a with
      | error e => rw [h2] at h; cases h
      | ok a1 =>
        rw [h2] at h
        simp only at h
        cases h3 : updateCrossing p10 (readSample beyond row ((xj : Int) + 1)) (row.getD xj 0) (xj + 1) b with
        | error e => rw [h3] at h; cases h
        | ok b1 =>
          rw [h3] at h
          simp only at h
          have u1 := updateCrossing_spec beyond row half xj hx l l1 h1
          have u2 := updateCrossing_spec beyond row p90 xj hx a a1 h2
          have u3 := updateCrossing_spec beyond row p10 xj hx b b1 h3
          split_ifs at h with hall
          · cases h
            exact ⟨component _ _ _ _ _ _ u1 ⟨fun _ => rfl, fun h0 => absurd h0 hall.1⟩,
              component _ _ _ _ _ _ u2 ⟨fun _ => rfl, fun h0 => absurd h0 hall.2.1⟩,
              component _ _ _ _ _ _ u3 ⟨fun _ => rfl, fun h0 => absurd h0 hall.2.2⟩⟩
          · obtain ⟨r1, r2, r3⟩ := ih (by omega) l1 a1 b1 h
            exact ⟨component _ _ _ _ _ _ u1 r1, component _ _ _ _ _ _ u2 r2, component _ _ _ _ _ _ u3 r3⟩

theorem backwardLoop_error (beyond : Option ℚ) (row : List ℚ) (half p90 p10 : ℚ) (xi : Nat) (hx : xi ≤ row.length) (s : ℚ × ℚ × ℚ) (e : Err)
    (h : backwardLoop beyond row half p90 p10 xi s = .error e) :
    e = .zeroDivision ∧ ∃ k, k + 1 < (withBeyond row beyond).length ∧ (withBeyond row beyond).getD k 0 = (withBeyond row beyond).getD (k + 1) 0 := by
  induction xi generalizing s with
  | zero => cases h
  | succ xj ih =>
    obtain ⟨l, a, b⟩ := s
    unfold backwardLoop at h
    simp only at h
    cases h1 : updateCrossing half (readSample beyond row ((xj : Int) + 1)) (row.getD xj 0) (xj + 1) l with
    | error e' => rw [h1] at h; cases h; exact updateCrossing_error _ _ _ _ hx _ _ h1
    | ok l1 =>
      rw [h1] at h
      simp only at h
      cases h2 : updateCrossing p90 (readSample beyond row ((xj : Int) + 1)) (row.getD xj 0) (xj + 1) a with
      | error e' => rw [h2] at h; cases h; exact updateCrossing_error _ _ _ _ hx _ _ h2
      | ok a1 =>
        rw [h2] at h
        simp only at h
        cases h3 : updateCrossing p10 (readSample beyond row ((xj : Int) + 1)) (row.getD xj 0) (xj + 1) b with
        | error e' => rw [h3] at h; cases h; exact updateCrossing_error _ _ _ _ hx _ _ h3
        | ok b1 =>
          rw [h3] at h
          simp only at h
          split_ifs at h
          exact ih (by omega) _ h

end Verif.Lemmas
