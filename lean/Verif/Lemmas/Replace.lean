import Verif.Model.Dl1
import Mathlib.Data.List.Infix
import Mathlib.Data.List.Count

namespace Verif.Lemmas

open Verif.Py Verif.Model

theorem replaceChars_of_not_infix (old new : List Char) (fuel : Nat) (s : List Char) (h : ¬ old <:+: s) :
    replaceChars old new fuel s = s := by
  induction fuel generalizing s with
  | zero => rfl
  | succ fuel ih =>
    cases s with
    | nil => rfl
    | cons c rest =>
      unfold replaceChars
      have h1 : ¬ old <+: (c :: rest) := fun h' => h h'.isInfix
      have h2 : ¬ old <:+: rest := fun h' => h (h'.trans (List.suffix_cons c rest).isInfix)
      simp only [List.isPrefixOf_iff_prefix, h1, if_false]
      rw [ih rest h2]

theorem count_replaceChars_le (old new : List Char) (x : Char) (hx : new.count x ≤ old.count x) (fuel : Nat)
    (s : List Char) : (replaceChars old new fuel s).count x ≤ s.count x := by
  induction fuel generalizing s with
  | zero => exact Nat.le_refl _
  | succ fuel ih =>
    cases s with
    | nil => exact Nat.le_refl _
    | cons c rest =>
      unfold replaceChars
      simp only
      split
      · rename_i hp
        rw [List.isPrefixOf_iff_prefix] at hp
        obtain ⟨t, ht⟩ := hp
        rw [← ht]
        rw [List.drop_left, List.count_append, List.count_append]
        have := ih t
        omega
      · rw [List.count_cons, List.count_cons]
        have := ih rest
        omega

theorem count_replaceChars_lt (old new : List Char) (x : Char) (hx : new.count x < old.count x) (fuel : Nat)
    (s : List Char) (hf : s.length ≤ fuel) (hi : old <:+: s) :
    (replaceChars old new fuel s).count x < s.count x := by
  induction fuel generalizing s with
  | zero =>
    have : s = [] := List.length_eq_zero_iff.1 (by omega)
    subst this
    have : old = [] := List.infix_nil.1 hi
    subst this
    simp at hx
  | succ fuel ih =>
    cases s with
    | nil =>
      have : old = [] := List.infix_nil.1 hi
      subst this
      simp at hx
    | cons c rest =>
      unfold replaceChars
      simp only
      split
      · rename_i hp
        rw [List.isPrefixOf_iff_prefix] at hp
        obtain ⟨t, ht⟩ := hp
        rw [← ht]
        rw [List.drop_left, List.count_append, List.count_append]
        have := count_replaceChars_le old new x (by omega) fuel t
        omega
      · rename_i hp
        rw [List.isPrefixOf_iff_prefix] at hp
        have hi' : old <:+: rest := by
          rcases List.infix_cons_iff.1 hi with h | h
          · exact absurd h hp
          · exact h
        rw [List.count_cons, List.count_cons]
        have := ih rest (by simp at hf; omega) hi'
        omega

theorem replaceChars_fuel (old new : List Char) (hne : old ≠ []) (f g : Nat) (s : List Char) (hf : s.length ≤ f)
    (hg : s.length ≤ g) : replaceChars old new f s = replaceChars old new g s := by
  induction f generalizing g s with
  | zero =>
    have : s = [] := List.length_eq_zero_iff.1 (by omega)
    subst this
    cases g <;> rfl
  | succ f ih =>
    cases s with
    | nil => cases g <;> rfl
    | cons c rest =>
      cases g with
      | zero => simp at hg
      | succ g =>
        simp only [List.length_cons] at hf hg
        unfold replaceChars
        simp only
        have hl : 0 < old.length := List.length_pos_iff.2 hne
        rw [ih g rest (by omega) (by omega), ih g ((c :: rest).drop old.length) (by simp; omega) (by simp; omega)]

theorem replaceChars_first (old new a b : List Char) (hne : old ≠ []) (hfirst : ¬ old <:+: a ++ old.dropLast) :
    replaceChars old new (a ++ old ++ b).length (a ++ old ++ b) = a ++ new ++ replaceChars old new b.length b := by
  induction a with
  | nil =>
    cases old with
    | nil => exact absurd rfl hne
    | cons o os =>
      have e : ([] ++ (o :: os) ++ b).length = (os ++ b).length + 1 := by simp
      rw [e, List.nil_append, List.cons_append, replaceChars]
      have hp : (o :: os).isPrefixOf (o :: (os ++ b)) = true :=
        List.isPrefixOf_iff_prefix.2 ⟨b, rfl⟩
      rw [if_pos hp]
      have hd : (o :: (os ++ b)).drop (o :: os).length = b := List.drop_left (l₁ := o :: os) (l₂ := b)
      rw [hd, List.nil_append]
      rw [replaceChars_fuel (o :: os) new hne _ b.length b (by simp) (Nat.le_refl _)]
  | cons c a ih =>
    have hnp : ¬ old.isPrefixOf (c :: (a ++ old ++ b)) = true := by
      intro h
      rw [List.isPrefixOf_iff_prefix] at h
      apply hfirst
      have h2 : c :: a ++ old.dropLast <+: c :: (a ++ old ++ b) := by
        rw [List.cons_append]
        refine List.cons_prefix_cons.2 ⟨rfl, ?_⟩
        rw [List.append_assoc]
        exact List.prefix_append_right_inj a |>.2 ((List.dropLast_prefix old).trans (List.prefix_append _ _))
      refine (List.prefix_of_prefix_length_le h h2 ?_).isInfix
      simp only [List.cons_append, List.length_cons, List.length_append, List.length_dropLast]
      have : 0 < old.length := List.length_pos_iff.2 hne
      omega
    have e : (c :: a ++ old ++ b).length = (a ++ old ++ b).length + 1 := by simp
    rw [e, List.cons_append, List.cons_append, replaceChars]
    rw [if_neg hnp, ih]
    · rfl
    · intro h
      exact hfirst (h.trans (List.suffix_cons c _).isInfix)

/-- the beginning of the replaced text up to the first replacement is that of the text -/
theorem replaceChars_prefix (f : Char) (xs ys p : List Char) (hp : f ∉ p) (fuel : Nat) (s : List Char) (h : p <+: replaceChars (f :: xs) (f :: ys) fuel s) : p <+: s := by
  induction fuel generalizing s p with
  | zero => exact h
  | succ fuel ih =>
    cases s with
    | nil => exact h
    | cons c rest =>
      cases p with
      | nil => exact List.nil_prefix
      | cons a p =>
        unfold replaceChars at h
        simp only at h
        split at h
        · obtain ⟨q, hq⟩ := h
          rw [List.cons_append, List.cons_append, List.cons.injEq] at hq
          exact absurd (by rw [hq.1]; simp) hp
        · obtain ⟨q, hq⟩ := h
          rw [List.cons_append, List.cons.injEq] at hq
          obtain ⟨q', hq'⟩ := ih p (fun hm => hp (by simp [hm])) rest ⟨q, hq.2⟩
          exact ⟨q', by rw [List.cons_append, hq', hq.1]⟩

theorem infix_append_of_not_mem (f : Char) (xs ys z : List Char) (hy : f ∉ ys) (h : f :: xs <:+: ys ++ z) : f :: xs <:+: z := by
  induction ys with
  | nil => exact h
  | cons y ys ih =>
    rw [List.cons_append, List.infix_cons_iff] at h
    rcases h with ⟨q, hq⟩ | h
    · rw [List.cons_append, List.cons.injEq] at hq
      exact absurd (by rw [hq.1]; simp) hy
    · exact ih (fun hm => hy (by simp [hm])) h

/-- after the replacement the replaced text does not occur any more -/
theorem replaceChars_gone (f : Char) (xs ys : List Char) (hx : f ∉ xs) (hy : f ∉ ys) (hd : ∀ z, ¬ xs <+: ys ++ z) (fuel : Nat) (s : List Char) (hf : s.length ≤ fuel) :
    ¬ f :: xs <:+: replaceChars (f :: xs) (f :: ys) fuel s := by
  induction fuel generalizing s with
  | zero =>
    rw [List.eq_nil_of_length_eq_zero (Nat.le_zero.1 hf)]
    simp [replaceChars]
  | succ fuel ih =>
    cases s with
    | nil => simp [replaceChars]
    | cons c rest =>
      unfold replaceChars
      simp only
      split
      · intro h
        rw [List.cons_append, List.infix_cons_iff] at h
        rcases h with ⟨q, hq⟩ | h
        · rw [List.cons_append, List.cons.injEq] at hq
          exact hd _ ⟨q, hq.2⟩
        · exact ih _ (by simp only [List.length_drop, List.length_cons] at hf ⊢; omega) (infix_append_of_not_mem f xs ys _ hy h)
      · rename_i hnp
        intro h
        rw [List.infix_cons_iff] at h
        rcases h with ⟨q, hq⟩ | h
        · rw [List.cons_append, List.cons.injEq] at hq
          obtain ⟨q', hq'⟩ := replaceChars_prefix f xs ys xs hx fuel rest ⟨q, hq.2⟩
          exact hnp (List.isPrefixOf_iff_prefix.2 ⟨q', by rw [List.cons_append, hq', hq.1]⟩)
        · exact ih rest (by simpa using hf) h

/-- a text without characters of the replacement was there before -/
theorem replaceChars_infix (f g : Char) (xs ys p : List Char) (hp : f ∉ g :: p) (hg : g ∉ f :: ys) (fuel : Nat) (s : List Char)
    (h : g :: p <:+: replaceChars (f :: xs) (f :: ys) fuel s) : g :: p <:+: s := by
  induction fuel generalizing s with
  | zero => exact h
  | succ fuel ih =>
    cases s with
    | nil => exact h
    | cons c rest =>
      unfold replaceChars at h
      simp only at h
      split at h
      · obtain ⟨a, b, e⟩ := ih _ (infix_append_of_not_mem g p (f :: ys) _ hg h)
        exact (List.IsInfix.trans ⟨a, b, e⟩ (List.drop_suffix _ _).isInfix)
      · rw [List.infix_cons_iff] at h
        rcases h with ⟨q, hq⟩ | h
        · rw [List.cons_append, List.cons.injEq] at hq
          obtain ⟨q', hq'⟩ := replaceChars_prefix f xs ys p (fun hm => hp (by simp [hm])) fuel rest ⟨q, hq.2⟩
          exact List.IsPrefix.isInfix ⟨q', by rw [List.cons_append, hq', hq.1]⟩
        · exact List.IsInfix.trans (ih rest h) (List.suffix_cons _ _).isInfix

end Verif.Lemmas
