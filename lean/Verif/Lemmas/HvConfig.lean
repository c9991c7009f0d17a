import Verif.Model.Files
import Verif.Spec.Files

namespace Verif.Lemmas

open Verif.Py Verif.Model Verif.Spec

theorem digitRun_iff (s d r : List Char) : digitRun s = some (d, r) ↔ s = d ++ r ∧ Digits d ∧ NoDigitAhead r := by
  rw [digits_iff, noDigitAhead_iff]
  unfold digitRun
  constructor
  · intro h
    simp only at h
    split at h
    · cases h
    · rename_i hne
      injection h with h
      injection h with h1 h2
      subst h1 h2
      refine ⟨(List.takeWhile_append_dropWhile).symm, ⟨?_, fun c hc => List.all_eq_true.1 (List.all_takeWhile (l := s)) c hc⟩, ?_⟩
      · intro h; rw [h] at hne; exact hne rfl
      · intro c hc
        have := List.head?_dropWhile_not isDigitChar s
        rw [hc] at this
        simpa using this
  · rintro ⟨rfl, ⟨hne, hd⟩, hr⟩
    have h1 : (d ++ r).takeWhile isDigitChar = d := by
      rw [List.takeWhile_append_of_pos hd]
      cases r with
      | nil => simp
      | cons c r => simp [hr c rfl]
    have h2 : (d ++ r).dropWhile isDigitChar = r := by
      rw [List.dropWhile_append_of_pos hd]
      cases r with
      | nil => rfl
      | cons c r => simp [hr c rfl]
    simp only [h1, h2]
    rw [if_neg]
    simpa using hne

theorem literal_iff (lit s r : List Char) : literal lit s = some r ↔ s = lit ++ r := by
  unfold literal
  constructor
  · intro h
    split at h
    · rename_i hp
      injection h with h
      obtain ⟨t, ht⟩ := List.isPrefixOf_iff_prefix.1 hp
      rw [← ht] at h ⊢
      rw [List.drop_left] at h
      rw [h]
    · cases h
  · rintro rfl
    rw [if_pos (List.isPrefixOf_iff_prefix.2 (List.prefix_append _ _)), List.drop_left]

theorem matchHere_iff (tag s : List Char) (m sp v : Nat) :
    matchHere tag s = some (m, sp, v) ↔ AssignmentAt tag s 0 m sp v := by
  constructor
  · intro h
    unfold matchHere at h
    cases h1 : literal ['M', ':'] s with
    | none => rw [h1] at h; cases h
    | some s1 =>
      rw [h1] at h
      simp only at h
      cases h2 : digitRun s1 with
      | none => rw [h2] at h; cases h
      | some p2 =>
        obtain ⟨dm, s2⟩ := p2
        rw [h2] at h
        simp only at h
        cases h3 : literal ['/', 'F', '/', 'S', ':'] s2 with
        | none => rw [h3] at h; cases h
        | some s3 =>
          rw [h3] at h
          simp only at h
          cases h4 : digitRun s3 with
          | none => rw [h4] at h; cases h
          | some p4 =>
            obtain ⟨ds, s4⟩ := p4
            rw [h4] at h
            simp only at h
            cases h5 : literal ('|' :: tag ++ ['=']) s4 with
            | none => rw [h5] at h; cases h
            | some s5 =>
              rw [h5] at h
              simp only at h
              cases h6 : digitRun s5 with
              | none => rw [h6] at h; cases h
              | some p6 =>
                obtain ⟨dv, post⟩ := p6
                rw [h6] at h
                simp only [Option.some.injEq, Prod.mk.injEq] at h
                obtain ⟨e1, e2, e3⟩ := h
                rw [literal_iff] at h1 h3 h5
                rw [digitRun_iff] at h2 h4 h6
                refine ⟨dm, ds, dv, post, ?_, h2.2.1, h4.2.1, h6.2.1, h6.2.2, e1.symm, e2.symm, e3.symm⟩
                rw [List.drop_zero, h1, h2.1, h3, h4.1, h5, h6.1]
                simp
  · rintro ⟨dm, ds, dv, post, h, hm, hs, hv, hp, rfl, rfl, rfl⟩
    rw [List.drop_zero] at h
    unfold matchHere
    rw [(literal_iff ['M', ':'] s (dm ++ ('/' :: 'F' :: '/' :: 'S' :: ':' :: (ds ++ ('|' :: (tag ++ ('=' :: (dv ++ post)))))))).2 h]
    simp only
    rw [(digitRun_iff _ _ _).2 ⟨rfl, hm, ?_⟩]
    · simp only
      have h3 : literal ['/', 'F', '/', 'S', ':'] ('/' :: 'F' :: '/' :: 'S' :: ':' :: (ds ++ ('|' :: (tag ++ ('=' :: (dv ++ post)))))) =
          some (ds ++ ('|' :: (tag ++ ('=' :: (dv ++ post))))) := (literal_iff _ _ _).2 rfl
      rw [h3]
      simp only
      rw [(digitRun_iff _ _ _).2 ⟨rfl, hs, ?_⟩]
      · simp only
        have h5 : literal ('|' :: tag ++ ['=']) ('|' :: (tag ++ ('=' :: (dv ++ post)))) = some (dv ++ post) :=
          (literal_iff _ _ _).2 (by simp)
        rw [h5]
        simp only
        rw [(digitRun_iff _ _ _).2 ⟨rfl, hv, hp⟩]
      · intro c hc
        injection hc with hc
        subst hc; decide
    · intro c hc
      injection hc with hc
      subst hc; decide

theorem assignmentAt_succ (tag : List Char) (c : Char) (cs : List Char) (i m s v : Nat) :
    AssignmentAt tag (c :: cs) (i + 1) m s v ↔ AssignmentAt tag cs i m s v := by
  unfold AssignmentAt
  rw [List.drop_succ_cons]

theorem search_iff (tag line : List Char) (m s v : Nat) : search tag line = some (m, s, v) ↔ Assigns tag line m s v := by
  induction line with
  | nil =>
    constructor
    · intro h; cases h
    · rintro ⟨i, ⟨dm, ds, dv, post, h, _⟩, _⟩
      rw [List.drop_nil] at h; cases h
  | cons c cs ih =>
    rw [search]
    cases hm : matchHere tag (c :: cs) with
    | some r =>
      obtain ⟨a, b, d⟩ := r
      constructor
      · intro h
        injection h with h
        rw [h, matchHere_iff] at hm
        exact ⟨0, hm, by simp⟩
      · rintro ⟨i, h1, h2⟩
        rw [matchHere_iff] at hm
        have hi : i = 0 := by
          rcases Nat.eq_zero_or_pos i with h | h
          · exact h
          · exact absurd hm (h2 0 h a b d)
        subst hi
        rw [← matchHere_iff] at h1 hm
        rw [← h1, hm]
    | none =>
      have h0 : ∀ a b d, ¬ AssignmentAt tag (c :: cs) 0 a b d := by
        intro a b d h
        rw [← matchHere_iff, hm] at h; cases h
      simp only
      rw [ih]
      constructor
      · rintro ⟨i, h1, h2⟩
        refine ⟨i + 1, (assignmentAt_succ ..).2 h1, fun j hj a b d h => ?_⟩
        cases j with
        | zero => exact h0 a b d h
        | succ j => exact h2 j (by omega) a b d ((assignmentAt_succ ..).1 h)
      · rintro ⟨i, h1, h2⟩
        cases i with
        | zero => exact absurd h1 (h0 m s v)
        | succ i =>
          refine ⟨i, (assignmentAt_succ ..).1 h1, fun j hj a b d h => ?_⟩
          exact h2 (j + 1) (by omega) a b d ((assignmentAt_succ ..).2 h)

theorem containsSub_iff (sub s : List Char) : containsSub sub s = true ↔ sub <:+: s := by
  induction s with
  | nil => simp [containsSub]
  | cons c cs ih =>
    rw [containsSub, Bool.or_eq_true, ih, List.isPrefixOf_iff_prefix, List.infix_cons_iff]

/-- what a line sets in one of the tables -/
def lineSets (on : Bool) (line : List Char) : Option (Nat × Nat × Nat) :=
  if containsSub ['H', 'V', 'O', 'n'] line = on then search (if on then ['H', 'V', 'O', 'n'] else ['H', 'V']) line else none

theorem lineSets_iff (on : Bool) (line : List Char) (m s v : Nat) : lineSets on line = some (m, s, v) ↔ SetsHv on line m s v := by
  unfold lineSets SetsHv
  rw [← containsSub_iff]
  cases h : containsSub ['H', 'V', 'O', 'n'] line <;> cases on <;> simp [search_iff]

/-- one line, seen from both tables -/
theorem hvLine_eq (dac hvon : HvTable) (line : List Char) :
    hvLine dac hvon line = match lineSets true line with
      | some (tm, sp, v) => (match hvSet hvon tm sp v with
        | .error e => .error e
        | .ok hvon => .ok (dac, hvon))
      | none => match lineSets false line with
        | some (tm, sp, v) => (match hvSet dac tm sp v with
          | .error e => .error e
          | .ok dac => .ok (dac, hvon))
        | none => .ok (dac, hvon) := by
  unfold hvLine lineSets
  cases containsSub ['H', 'V', 'O', 'n'] line with
  | true =>
    simp only [if_true]
    cases search ['H', 'V', 'O', 'n'] line with
    | none => simp
    | some r => rfl
  | false =>
    simp only [Bool.false_eq_true, if_false, if_true]
    cases search ['H', 'V'] line with
    | none => rfl
    | some r => rfl

theorem lineSets_not_both (line : List Char) (r : Nat × Nat × Nat) (h : lineSets true line = some r) : lineSets false line = none := by
  unfold lineSets at *
  cases hc : containsSub ['H', 'V', 'O', 'n'] line with
  | true => simp
  | false => rw [hc] at h; simp at h

/-- the last entry of a list of settings for one position, or the start value -/
def lastSet (on : Bool) (t0 : Int) (tm sp : Nat) : List (List Char) → Int
  | [] => t0
  | l :: ls => lastSet on (match lineSets on l with
      | some (m, s, v) => if m = tm ∧ s = sp then toInt16 v else t0
      | none => t0) tm sp ls

theorem hvLoop_spec (lines : List (List Char)) (dac hvon : HvTable) :
    (∀ l ∈ lines, ∀ on m s v, lineSets on l = some (m, s, v) → m < 32 ∧ s < 16) →
    ∃ dac' hvon', hvLoop dac hvon lines = .ok (dac', hvon') ∧ (∀ tm sp, dac' tm sp = lastSet false (dac tm sp) tm sp lines) ∧
      (∀ tm sp, hvon' tm sp = lastSet true (hvon tm sp) tm sp lines) := by
  induction lines generalizing dac hvon with
  | nil => intro _; exact ⟨dac, hvon, rfl, fun _ _ => rfl, fun _ _ => rfl⟩
  | cons l ls ih =>
    intro h
    rw [hvLoop, hvLine_eq]
    have hls : ∀ l ∈ ls, ∀ on m s v, lineSets on l = some (m, s, v) → m < 32 ∧ s < 16 := fun x hx => h x (by simp [hx])
    cases ht : lineSets true l with
    | some r =>
      obtain ⟨m, s, v⟩ := r
      have hms := h l (by simp) true m s v ht
      simp only [hvSet, if_pos hms]
      obtain ⟨d, o, h1, h2, h3⟩ := ih dac (fun i j => if i = m ∧ j = s then toInt16 v else hvon i j) hls
      refine ⟨d, o, h1, fun tm sp => ?_, fun tm sp => ?_⟩
      · rw [h2, lastSet, lineSets_not_both l _ ht]
      · rw [h3, lastSet, ht]
        simp only [eq_comm]
    | none =>
      simp only
      cases hf : lineSets false l with
      | some r =>
        obtain ⟨m, s, v⟩ := r
        have hms := h l (by simp) false m s v hf
        simp only [hvSet, if_pos hms]
        obtain ⟨d, o, h1, h2, h3⟩ := ih (fun i j => if i = m ∧ j = s then toInt16 v else dac i j) hvon hls
        refine ⟨d, o, h1, fun tm sp => ?_, fun tm sp => ?_⟩
        · rw [h2, lastSet, hf]
          simp only [eq_comm]
        · rw [h3, lastSet, ht]
      | none =>
        simp only
        obtain ⟨d, o, h1, h2, h3⟩ := ih dac hvon hls
        refine ⟨d, o, h1, fun tm sp => ?_, fun tm sp => ?_⟩
        · rw [h2, lastSet, hf]
        · rw [h3, lastSet, ht]

theorem hvLoop_error (lines : List (List Char)) (dac hvon : HvTable)
    (h : ∃ l ∈ lines, ∃ on m s v, lineSets on l = some (m, s, v) ∧ ¬ (m < 32 ∧ s < 16)) :
    hvLoop dac hvon lines = .error .indexError := by
  induction lines generalizing dac hvon with
  | nil => simp at h
  | cons l ls ih =>
    rw [hvLoop]
    by_cases hl : ∃ on m s v, lineSets on l = some (m, s, v) ∧ ¬ (m < 32 ∧ s < 16)
    · obtain ⟨on, m, s, v, h1, h2⟩ := hl
      have : hvLine dac hvon l = .error .indexError := by
        rw [hvLine_eq]
        cases on with
        | true => simp only [h1, hvSet, if_neg h2]
        | false =>
          have : lineSets true l = none := by
            cases ht : lineSets true l with
            | none => rfl
            | some r => rw [lineSets_not_both l r ht] at h1; cases h1
          simp only [this, h1, hvSet, if_neg h2]
      rw [this]
    · have hrest : ∃ l ∈ ls, ∃ on m s v, lineSets on l = some (m, s, v) ∧ ¬ (m < 32 ∧ s < 16) := by
        obtain ⟨x, hx, on, m, s, v, h1, h2⟩ := h
        rcases List.mem_cons.1 hx with rfl | hx
        · exact absurd ⟨on, m, s, v, h1, h2⟩ hl
        · exact ⟨x, hx, on, m, s, v, h1, h2⟩
      cases hv : hvLine dac hvon l with
      | ok p =>
        obtain ⟨d, o⟩ := p
        exact ih d o hrest
      | error e =>
        exfalso
        rw [hvLine_eq] at hv
        cases ht : lineSets true l with
        | some r =>
          obtain ⟨m, s, v⟩ := r
          have : m < 32 ∧ s < 16 := by
            by_contra hc; exact hl ⟨true, m, s, v, ht, hc⟩
          simp only [ht, hvSet, if_pos this] at hv
          cases hv
        | none =>
          cases hf : lineSets false l with
          | some r =>
            obtain ⟨m, s, v⟩ := r
            have : m < 32 ∧ s < 16 := by
              by_contra hc; exact hl ⟨false, m, s, v, hf, hc⟩
            simp only [ht, hf, hvSet, if_pos this] at hv
            cases hv
          | none => simp only [ht, hf] at hv; cases hv

theorem lastSet_cases (on : Bool) (t0 : Int) (tm sp : Nat) (lines : List (List Char)) :
    ((∀ l ∈ lines, ∀ v, lineSets on l ≠ some (tm, sp, v)) ∧ lastSet on t0 tm sp lines = t0) ∨
    ∃ pre l post v, lines = pre ++ l :: post ∧ lineSets on l = some (tm, sp, v) ∧ (∀ l' ∈ post, ∀ v', lineSets on l' ≠ some (tm, sp, v')) ∧
      lastSet on t0 tm sp lines = toInt16 v := by
  induction lines generalizing t0 with
  | nil => exact Or.inl ⟨by simp, rfl⟩
  | cons l ls ih =>
    rw [lastSet]
    rcases ih (match lineSets on l with
      | some (m, s, v) => if m = tm ∧ s = sp then toInt16 v else t0
      | none => t0) with ⟨h1, h2⟩ | ⟨pre, l', post, v, h1, h2, h3, h4⟩
    · rw [h2]
      cases hl : lineSets on l with
      | none =>
        refine Or.inl ⟨fun x hx v => ?_, rfl⟩
        rcases List.mem_cons.1 hx with rfl | hx
        · rw [hl]; simp
        · exact h1 x hx v
      | some r =>
        obtain ⟨m, s, v⟩ := r
        simp only
        by_cases hc : m = tm ∧ s = sp
        · rw [if_pos hc]
          obtain ⟨rfl, rfl⟩ := hc
          exact Or.inr ⟨[], l, ls, v, rfl, hl, h1, rfl⟩
        · rw [if_neg hc]
          refine Or.inl ⟨fun x hx v' => ?_, rfl⟩
          rcases List.mem_cons.1 hx with rfl | hx
          · rw [hl]
            intro h
            injection h with h
            injection h with e1 h
            injection h with e2 _
            exact hc ⟨e1, e2⟩
          · exact h1 x hx v'
    · exact Or.inr ⟨l :: pre, l', post, v, by rw [h1]; rfl, h2, h3, h4⟩

end Verif.Lemmas
