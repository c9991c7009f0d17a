import Verif.Py.Basic
import Mathlib.Algebra.Order.Field.Rat
import Mathlib.Algebra.BigOperators.Group.List.Basic

/-!
# numpy operations on one-dimensional arrays (lists)

Numbers are exact rationals; a division by zero gives 0 where numpy gives NaN or an infinity (the theorems state the
hypotheses that exclude it, or the model raises explicitly).
-/

namespace Verif.Py

variable {α : Type}

/-- lower bound of a basic slice on a sequence of length `n` -/
def sliceLo (n : Nat) (a : Option Int) : Nat := match a with | none => 0 | some v => clampIndex n v

/-- upper bound of a basic slice on a sequence of length `n` -/
def sliceHi (n : Nat) (b : Option Int) : Nat := match b with | none => n | some v => clampIndex n v

/-- `row[a:b] = x` for a scalar `x` -/
def fillSlice (row : List α) (a b : Option Int) (x : α) : List α :=
  let i := sliceLo row.length a
  let w := sliceHi row.length b - i
  row.take i ++ List.replicate w x ++ row.drop (i + w)

/-- numpy broadcasting of a one-dimensional right-hand side to `w` elements -/
def broadcastTo (w : Nat) (v : List α) : Except Err (List α) :=
  if v.length = w then .ok v
  else match v with
    | [x] => .ok (List.replicate w x)
    | _ => .error .valueError

/-- `row[a:b] = v` for an array `v` -/
def assignSlice (row : List α) (a b : Option Int) (v : List α) : Except Err (List α) :=
  let i := sliceLo row.length a
  let w := sliceHi row.length b - i
  match broadcastTo w v with
  | .error e => .error e
  | .ok v => .ok (row.take i ++ v ++ row.drop (i + w))

/-- index of the first maximum, given the best index and value so far and the next index -/
def argmaxFrom : Nat → ℚ → Nat → List ℚ → Nat
  | best, _, _, [] => best
  | best, m, i, x :: xs => if m < x then argmaxFrom i x (i + 1) xs else argmaxFrom best m (i + 1) xs

/-- `np.argmax`: the first position of the maximum; `ValueError` on an empty array -/
def argmax (xs : List ℚ) : Except Err Nat :=
  match xs with
  | [] => .error .valueError
  | x :: xs => .ok (argmaxFrom 0 x 1 xs)

/-- `np.mean` of a one-dimensional array -/
def mean (xs : List ℚ) : ℚ := xs.sum / xs.length

/-- column `j` of a two-dimensional array (regular shape) -/
def column (rows : List (List ℚ)) (j : Nat) : List ℚ := rows.map fun r => r.getD j 0

/-- `np.mean(rows, 0)` for rows of `n` columns -/
def colMeans (n : Nat) (rows : List (List ℚ)) : List ℚ := (List.range n).map fun j => mean (column rows j)

/-! ### facts about these primitives -/

theorem argmaxFrom_spec (xs : List ℚ) (all : List ℚ) (best i : Nat) (m : ℚ) (hb : best < i) (hm : all[best]? = some m)
    (hlt : ∀ k < best, ∀ y, all[k]? = some y → y < m) (hle : ∀ k < i, ∀ y, all[k]? = some y → y ≤ m)
    (hxs : all.drop i = xs) :
    ∃ m', all[argmaxFrom best m i xs]? = some m' ∧ (∀ k < argmaxFrom best m i xs, ∀ y, all[k]? = some y → y < m') ∧
      ∀ (k : Nat) y, all[k]? = some y → y ≤ m' := by
  induction xs generalizing best i m with
  | nil =>
    refine ⟨m, hm, hlt, fun k y hk => hle k ?_ y hk⟩
    have h1 : k < all.length := (List.getElem?_eq_some_iff.1 hk).1
    have h2 : all.length ≤ i := List.drop_eq_nil_iff.1 hxs
    omega
  | cons x xs ih =>
    have hx : all[i]? = some x := by
      have := congrArg List.head? hxs
      simpa [List.head?_drop] using this
    have hd : all.drop (i + 1) = xs := by
      rw [← List.drop_drop, hxs]; rfl
    unfold argmaxFrom
    split
    · rename_i hmx
      refine ih i (i + 1) x (by omega) hx ?_ ?_ hd
      · intro k hk y hy
        exact lt_of_le_of_lt (hle k hk y hy) hmx
      · intro k hk y hy
        rcases Nat.lt_succ_iff_lt_or_eq.1 hk with hk | rfl
        · exact le_of_lt (lt_of_le_of_lt (hle k hk y hy) hmx)
        · rw [hx] at hy; cases hy; exact le_refl _
    · rename_i hmx
      refine ih best (i + 1) m (by omega) hm hlt ?_ hd
      intro k hk y hy
      rcases Nat.lt_succ_iff_lt_or_eq.1 hk with hk | rfl
      · exact hle k hk y hy
      · rw [hx] at hy; cases hy; exact not_lt.1 hmx

/-- `np.argmax` returns the first position of the largest value -/
theorem argmax_spec (xs : List ℚ) (i : Nat) (h : argmax xs = .ok i) :
    ∃ m, xs[i]? = some m ∧ (∀ k < i, ∀ y, xs[k]? = some y → y < m) ∧ ∀ (k : Nat) y, xs[k]? = some y → y ≤ m := by
  cases xs with
  | nil => cases h
  | cons x xs =>
    simp only [argmax, Except.ok.injEq] at h
    subst h
    refine argmaxFrom_spec xs (x :: xs) 0 1 x (by omega) rfl (by omega) ?_ rfl
    intro k hk y hy
    have : k = 0 := by omega
    subst this
    simp at hy; exact le_of_eq hy.symm

theorem argmax_unique (xs : List ℚ) (i : Nat) (m : ℚ) (h1 : xs[i]? = some m) (h2 : ∀ k < i, ∀ y, xs[k]? = some y → y < m)
    (h3 : ∀ (k : Nat) y, xs[k]? = some y → y ≤ m) : argmax xs = .ok i := by
  cases hx : xs with
  | nil => subst hx; simp at h1
  | cons x rest =>
    have hok : argmax xs = .ok (argmaxFrom 0 x 1 rest) := by rw [hx]; rfl
    obtain ⟨m', a, b, c⟩ := argmax_spec xs _ hok
    rw [← hx, hok]
    congr 1
    rcases Nat.lt_trichotomy (argmaxFrom 0 x 1 rest) i with hlt | heq | hgt
    · have d1 := h2 _ hlt m' a
      have d2 := c i m h1
      exact absurd d2 (not_le.2 d1)
    · exact heq
    · have d1 := b i hgt m h1
      have d2 := h3 _ m' a
      exact absurd d2 (not_le.2 d1)

theorem argmax_ok (xs : List ℚ) (h : xs ≠ []) : ∃ i, argmax xs = .ok i ∧ i < xs.length := by
  cases hx : xs with
  | nil => exact absurd hx h
  | cons x rest =>
    refine ⟨_, rfl, ?_⟩
    obtain ⟨m, a, -⟩ := argmax_spec (x :: rest) (argmaxFrom 0 x 1 rest) rfl
    exact (List.getElem?_eq_some_iff.1 a).1

end Verif.Py
