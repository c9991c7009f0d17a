import Verif.Py.Basic

/-!
# Two-dimensional numpy arrays with integer-array indices

An array of shape `(nr, nc)` is a function of row and column; only the entries inside the shape matter.
-/

namespace Verif.Py

variable {α : Type}

/-- one integer index into an axis of length `n`: negative values count from the end, otherwise `IndexError` -/
def normIndex (n : Nat) (i : Int) : Except Err Nat :=
  if 0 ≤ i ∧ i < n then .ok i.toNat
  else if -(n : Int) ≤ i ∧ i < 0 then .ok (i + n).toNat
  else .error .indexError

/-- the pairs of positions addressed by two index arrays of the same length -/
def gridPositions (nr nc : Nat) : List (Int × Int) → Except Err (List (Nat × Nat))
  | [] => .ok []
  | (r, c) :: rest => match normIndex nr r, normIndex nc c with
    | .ok r, .ok c => match gridPositions nr nc rest with
      | .ok ps => .ok ((r, c) :: ps)
      | .error e => .error e
    | .error e, _ => .error e
    | _, .error e => .error e

/-- writing values one after another -/
def writeAll (g : Nat → Nat → α) : List ((Nat × Nat) × α) → Nat → Nat → α
  | [] => g
  | (p, v) :: rest => writeAll (fun r c => if (r, c) = p then v else g r c) rest

/-- `g[rows, cols] = vals` (`vals` of the length of the index arrays): all indices are checked first, then the values are
written in order -/
def fancySet (nr nc : Nat) (g : Nat → Nat → α) (rows cols : List Int) (vals : List α) : Except Err (Nat → Nat → α) :=
  match gridPositions nr nc (rows.zip cols) with
  | .error e => .error e
  | .ok ps => .ok (writeAll g (ps.zip vals))

/-- `g[rows, cols]` -/
def fancyGet (nr nc : Nat) (g : Nat → Nat → α) (rows cols : List Int) : Except Err (List α) :=
  match gridPositions nr nc (rows.zip cols) with
  | .error e => .error e
  | .ok ps => .ok (ps.map fun p => g p.1 p.2)

/-- `xs[idx]` for an integer index array -/
def takeAll (xs : List α) : List Int → Except Err (List α)
  | [] => .ok []
  | i :: is => match getIndex xs i, takeAll xs is with
    | .ok x, .ok rest => .ok (x :: rest)
    | .error e, _ => .error e
    | _, .error e => .error e

theorem normIndex_nat (n : Nat) (k : Nat) (h : k < n) : normIndex n (k : Int) = .ok k := by
  unfold normIndex; rw [if_pos (by omega)]; simp

theorem gridPositions_nat (nr nc : Nat) (ps : List (Nat × Nat)) (h : ∀ p ∈ ps, p.1 < nr ∧ p.2 < nc) :
    gridPositions nr nc (ps.map fun p => ((p.1 : Int), (p.2 : Int))) = .ok ps := by
  induction ps with
  | nil => rfl
  | cons p ps ih =>
    obtain ⟨h1, h2⟩ := h p (by simp)
    rw [List.map_cons]
    unfold gridPositions
    rw [normIndex_nat nr p.1 h1, normIndex_nat nc p.2 h2, ih (fun q hq => h q (by simp [hq]))]

/-- a position inside an axis, or the same counted from the end -/
def Wraps (n : Nat) (i : Int) (k : Nat) : Prop := k < n ∧ (i = k ∨ i = (k : Int) - n)

theorem normIndex_wraps (n : Nat) (i : Int) (k : Nat) (h : Wraps n i k) : normIndex n i = .ok k := by
  obtain ⟨hk, rfl | rfl⟩ := h
  · exact normIndex_nat n k hk
  · unfold normIndex
    rw [if_neg (by omega), if_pos (by omega)]
    congr 1
    omega

theorem gridPositions_wraps (nr nc : Nat) (ps : List ((Int × Int) × (Nat × Nat))) (h : ∀ p ∈ ps, Wraps nr p.1.1 p.2.1 ∧ Wraps nc p.1.2 p.2.2) :
    gridPositions nr nc (ps.map (·.1)) = .ok (ps.map (·.2)) := by
  induction ps with
  | nil => rfl
  | cons p ps ih =>
    obtain ⟨h1, h2⟩ := h p (by simp)
    rw [List.map_cons]
    unfold gridPositions
    rw [normIndex_wraps nr _ _ h1, normIndex_wraps nc _ _ h2, ih (fun q hq => h q (by simp [hq]))]
    rfl

theorem normIndex_outside (n : Nat) (i : Int) (h : i < -(n : Int) ∨ (n : Int) ≤ i) : normIndex n i = .error .indexError := by
  unfold normIndex
  rw [if_neg (by omega), if_neg (by omega)]

theorem normIndex_error (n : Nat) (i : Int) (e : Err) (h : normIndex n i = .error e) : e = .indexError := by
  unfold normIndex at h
  split at h
  · cases h
  · split at h
    · cases h
    · exact (Except.error.inj h).symm

theorem gridPositions_outside (nr nc : Nat) (ps : List (Int × Int))
    (h : ∃ p ∈ ps, p.1 < -(nr : Int) ∨ (nr : Int) ≤ p.1 ∨ p.2 < -(nc : Int) ∨ (nc : Int) ≤ p.2) : gridPositions nr nc ps = .error .indexError := by
  induction ps with
  | nil => simp at h
  | cons p ps ih =>
    unfold gridPositions
    cases h1 : normIndex nr p.1 with
    | error e => rw [normIndex_error _ _ _ h1]
    | ok r =>
      cases h2 : normIndex nc p.2 with
      | error e => rw [normIndex_error _ _ _ h2]
      | ok c =>
        have hin : ¬ (p.1 < -(nr : Int) ∨ (nr : Int) ≤ p.1 ∨ p.2 < -(nc : Int) ∨ (nc : Int) ≤ p.2) := by
          intro hx
          rcases hx with hx | hx | hx | hx
          · rw [normIndex_outside _ _ (Or.inl hx)] at h1; cases h1
          · rw [normIndex_outside _ _ (Or.inr hx)] at h1; cases h1
          · rw [normIndex_outside _ _ (Or.inl hx)] at h2; cases h2
          · rw [normIndex_outside _ _ (Or.inr hx)] at h2; cases h2
        rw [ih (by
          obtain ⟨q, hq, hx⟩ := h
          rcases List.mem_cons.1 hq with rfl | hq
          · exact absurd hx hin
          · exact ⟨q, hq, hx⟩)]

theorem writeAll_not_mem (g : Nat → Nat → α) (ws : List ((Nat × Nat) × α)) (r c : Nat) (h : ∀ w ∈ ws, w.1 ≠ (r, c)) :
    writeAll g ws r c = g r c := by
  induction ws generalizing g with
  | nil => rfl
  | cons w ws ih =>
    unfold writeAll
    rw [ih _ (fun w' hw' => h w' (by simp [hw'])), if_neg]
    exact fun he => h w (by simp) he.symm

theorem writeAll_mem (g : Nat → Nat → α) (ws : List ((Nat × Nat) × α)) (hnd : (ws.map Prod.fst).Nodup) (r c : Nat) (v : α)
    (h : ((r, c), v) ∈ ws) : writeAll g ws r c = v := by
  induction ws generalizing g with
  | nil => simp at h
  | cons w ws ih =>
    rw [List.map_cons, List.nodup_cons] at hnd
    unfold writeAll
    rcases List.mem_cons.1 h with h | h
    · subst h
      rw [writeAll_not_mem _ _ r c]
      · simp
      · intro w' hw' he
        exact hnd.1 (List.mem_map.2 ⟨w', hw', he⟩)
    · exact ih _ hnd.2 h

theorem takeAll_ok (xs : List α) (ks : List Nat) (h : ∀ k ∈ ks, k < xs.length) :
    ∃ ys, takeAll xs (ks.map fun (k : Nat) => (k : Int)) = .ok ys ∧ ys.length = ks.length ∧
      ∀ (i k : Nat), ks[i]? = some k → ys[i]? = xs[k]? := by
  induction ks with
  | nil => exact ⟨[], rfl, rfl, by simp⟩
  | cons k ks ih =>
    obtain ⟨ys, h1, h2, h3⟩ := ih (fun k' hk' => h k' (by simp [hk']))
    have hk := h k (by simp)
    refine ⟨xs[k] :: ys, ?_, by simp [h2], ?_⟩
    · rw [List.map_cons]
      unfold takeAll
      rw [h1]
      have : getIndex xs (k : Int) = .ok xs[k] := by
        unfold getIndex
        rw [if_neg (by omega), if_neg (by omega)]
        simp [hk]
      rw [this]
    · intro i k' hi
      cases i with
      | zero => simp at hi; subst hi; simp [hk]
      | succ i => exact h3 i k' hi

end Verif.Py
