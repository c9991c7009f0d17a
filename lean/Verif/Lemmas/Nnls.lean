import Verif.Model.Nnls
import Mathlib.Tactic.Linarith
import Mathlib.Tactic.Ring
import Mathlib.Tactic.FieldSimp
import Mathlib.Algebra.Order.Field.Basic
import Mathlib.Data.List.Perm.Basic

namespace Verif.Lemmas

open Verif.Py Verif.Model

theorem exists_min (l : List (Option ℚ)) (h : l ≠ []) : ∃ v ∈ l, ∀ w ∈ l, v.getD 0 ≤ w.getD 0 := by
  induction l with
  | nil => exact absurd rfl h
  | cons a l ih =>
    by_cases hl : l = []
    · subst hl; exact ⟨a, by simp, by simp⟩
    · obtain ⟨v, hv, hm⟩ := ih hl
      by_cases hav : a.getD 0 ≤ v.getD 0
      · refine ⟨a, by simp, ?_⟩
        intro w hw
        rcases List.mem_cons.1 hw with rfl | hw
        · exact le_refl _
        · exact le_trans hav (hm w hw)
      · refine ⟨v, by simp [hv], ?_⟩
        intro w hw
        rcases List.mem_cons.1 hw with rfl | hw
        · exact (lt_of_not_ge hav).le
        · exact hm w hw

theorem argminNaN_none (l : List (Option ℚ)) : argminNaN l = none ↔ l = [] := by
  constructor
  · intro h
    unfold argminNaN at h
    split at h
    · rfl
    · split at h <;> cases h
  · rintro rfl; rfl

theorem argminNaN_spec (l : List (Option ℚ)) (k : Nat) (h : argminNaN l = some k) :
    k < l.length ∧ (l[k]? = some none ∨ ((∀ w ∈ l, w ≠ none) ∧ ∃ v, l[k]? = some (some v) ∧ ∀ w, some w ∈ l → v ≤ w)) := by
  unfold argminNaN at h
  split at h
  · cases h
  · rename_i hne
    have hne' : l ≠ [] := fun he => hne he
    split at h
    · rename_i i hi
      cases h
      obtain ⟨hlt, hp, -⟩ := List.findIdx?_eq_some_iff_getElem.1 hi
      refine ⟨hlt, Or.inl ?_⟩
      rw [List.getElem?_eq_getElem hlt]
      simpa using hp
    · rename_i hi
      cases h
      have hall : ∀ w ∈ l, w ≠ none := by
        intro w hw he
        have := List.findIdx?_eq_none_iff.1 hi w hw
        simp [he] at this
      obtain ⟨v, hv, hm⟩ := exists_min l hne'
      have hlt : l.findIdx (fun v => l.all fun w => decide (v.getD 0 ≤ w.getD 0)) < l.length :=
        List.findIdx_lt_length_of_exists ⟨v, hv, by simpa using hm⟩
      refine ⟨hlt, Or.inr ⟨hall, ?_⟩⟩
      have hp : (l.all fun w => decide ((l[l.findIdx (fun v => l.all fun w => decide (v.getD 0 ≤ w.getD 0))]'hlt).getD 0 ≤ w.getD 0)) = true :=
        List.findIdx_getElem (w := hlt)
      have hu : l[l.findIdx (fun v => l.all fun w => decide (v.getD 0 ≤ w.getD 0))]'hlt ∈ l := List.getElem_mem hlt
      rw [List.getElem?_eq_getElem hlt]
      generalize l[l.findIdx (fun v => l.all fun w => decide (v.getD 0 ≤ w.getD 0))]'hlt = u at hp hu ⊢
      cases u with
      | none => exact absurd rfl (hall none hu)
      | some q =>
        refine ⟨q, rfl, fun w hw => ?_⟩
        have := List.all_eq_true.1 hp (some w) hw
        simpa using this

/-- what holds of the state of the solver at all times: the two sets are sorted and split all positions, entries are NaN or not negative, and
entries outside the solved-for set are NaN or zero -/
structure NnlsInv (n : Nat) (s : NnlsState) : Prop where
  perm : (s.F ++ s.G).Perm (List.range n)
  sortF : s.F.Pairwise (· ≤ ·)
  sortG : s.G.Pairwise (· ≤ ·)
  nonneg : ∀ i q, s.x i = some q → 0 ≤ q
  zero : ∀ i, i ∉ s.F → s.x i = none ∨ s.x i = some 0

theorem sortNat_perm (l : List Nat) : (sortNat l).Perm l := List.perm_insertionSort _ _

theorem sortNat_sorted (l : List Nat) : (sortNat l).Pairwise (· ≤ ·) := List.pairwise_insertionSort _ _

theorem nodup_F (n : Nat) (s : NnlsState) (h : NnlsInv n s) : s.F.Nodup :=
  (List.nodup_append.1 (h.perm.nodup_iff.2 List.nodup_range)).1

theorem solved_get (F : List Nat) (hF : F.Nodup) (xF : List ℚ) (hl : xF.length = F.length) (i : Nat) (v : ℚ) (hv : xF[i]? = some v) :
    ∃ f, F[i]? = some f ∧ f ∈ F ∧ solved F xF f = v := by
  have hi : i < F.length := by rw [← hl]; exact (List.getElem?_eq_some_iff.1 hv).1
  refine ⟨F[i], List.getElem?_eq_getElem hi, List.getElem_mem hi, ?_⟩
  unfold solved
  rw [hF.idxOf_getElem i hi, List.getD_eq_getElem?_getD, hv]
  rfl

theorem solved_mem (F : List Nat) (xF : List ℚ) (hl : xF.length = F.length) (f : Nat) (hf : f ∈ F) : solved F xF f ∈ xF := by
  unfold solved
  have h : F.idxOf f < xF.length := by rw [hl]; exact List.idxOf_lt_length_of_mem hf
  rw [List.getD_eq_getElem?_getD, List.getElem?_eq_getElem h]
  exact List.getElem_mem h

/-- one pass of the inner loop: feasible, or one position is removed from the solved-for set -/
theorem innerStep_cases (solve : List Nat → List ℚ) (hs : ∀ F, (solve F).length = F.length) (n : Nat) (s : NnlsState) (h : NnlsInv n s) :
    (innerStep solve s).2 = true ∧ (∀ v ∈ solve s.F, 0 ≤ v) ∧
      (innerStep solve s).1 = ⟨s.F, s.G, fun i => if i ∈ s.F then some (solved s.F (solve s.F) i) else s.x i⟩ ∨
    (innerStep solve s).2 = false ∧ ∃ r alpha, r ∈ s.F ∧ solved s.F (solve s.F) r ≤ 0 ∧ alpha = theta (s.x r) (solved s.F (solve s.F) r) ∧
      (∀ al, alpha = some al → ∀ f ∈ s.F, solved s.F (solve s.F) f ≤ 0 → ∃ th, theta (s.x f) (solved s.F (solve s.F) f) = some th ∧ al ≤ th) ∧
      (innerStep solve s).1 = ⟨s.F.erase r, sortNat (s.G ++ [r]),
        fun i => if i ∈ s.F then blend (s.x i) alpha (solved s.F (solve s.F) i) else s.x i⟩ := by
  unfold innerStep
  simp only
  by_cases hall : (solve s.F).all (fun v => decide (0 ≤ v)) = true
  · rw [if_pos hall]
    refine Or.inl ⟨rfl, ?_, rfl⟩
    intro v hv
    simpa using List.all_eq_true.1 hall v hv
  · rw [if_neg hall]
    right
    have hex : ∃ f ∈ s.F, solved s.F (solve s.F) f ≤ 0 := by
      simp only [List.all_eq_true, decide_eq_true_eq] at hall
      push Not at hall
      obtain ⟨v, hv, hneg⟩ := hall
      obtain ⟨i, hi⟩ := List.getElem?_of_mem hv
      obtain ⟨f, -, hf, he⟩ := solved_get s.F (nodup_F n s h) _ (hs _) i v hi
      exact ⟨f, hf, by rw [he]; exact hneg.le⟩
    obtain ⟨masked, hm⟩ : ∃ masked, masked = s.F.filter fun f => decide (solved s.F (solve s.F) f ≤ 0) := ⟨_, rfl⟩
    rw [← hm]
    have hmem : ∀ f, f ∈ masked ↔ f ∈ s.F ∧ solved s.F (solve s.F) f ≤ 0 := by intro f; rw [hm, List.mem_filter]; simp
    cases hk : argminNaN (masked.map fun f => theta (s.x f) (solved s.F (solve s.F) f)) with
    | none =>
      exfalso
      have := (argminNaN_none _).1 hk
      rw [List.map_eq_nil_iff] at this
      obtain ⟨f, h1, h2⟩ := hex
      have := (hmem f).2 ⟨h1, h2⟩
      simp_all
    | some k =>
      simp only
      obtain ⟨hlt, hval⟩ := argminNaN_spec _ _ hk
      rw [List.length_map] at hlt
      have hr : masked.getD k 0 = masked[k] := by rw [List.getD_eq_getElem?_getD, List.getElem?_eq_getElem hlt]; rfl
      have hal : (masked.map fun f => theta (s.x f) (solved s.F (solve s.F) f)).getD k none =
          theta (s.x masked[k]) (solved s.F (solve s.F) masked[k]) := by
        rw [List.getD_eq_getElem?_getD, List.getElem?_map, List.getElem?_eq_getElem hlt]; rfl
      rw [hr, hal]
      obtain ⟨q1, q2⟩ := (hmem _).1 (List.getElem_mem hlt)
      refine ⟨trivial, masked[k], _, q1, q2, rfl, ?_, rfl⟩
      intro al halpha f hf hle
      have hget : (masked.map fun f => theta (s.x f) (solved s.F (solve s.F) f))[k]? = some (some al) := by
        rw [List.getElem?_map, List.getElem?_eq_getElem hlt, Option.map_some, halpha]
      rcases hval with hn | ⟨hnn, v, hv, hmin⟩
      · rw [hget] at hn; cases hn
      · rw [hget] at hv
        cases hv
        have hfm : theta (s.x f) (solved s.F (solve s.F) f) ∈ masked.map fun f => theta (s.x f) (solved s.F (solve s.F) f) :=
          List.mem_map.2 ⟨f, (hmem f).2 ⟨hf, hle⟩, rfl⟩
        cases hth : theta (s.x f) (solved s.F (solve s.F) f) with
        | none => exact absurd hth (hnn _ hfm)
        | some th => rw [hth] at hfm; exact ⟨th, rfl, hmin th hfm⟩

theorem theta_some (a v th : ℚ) (h : theta (some a) v = some th) : a - v ≠ 0 ∧ th = a / (a - v) := by
  unfold theta at h
  simp only at h
  split_ifs at h with h0
  cases h
  exact ⟨h0, rfl⟩

theorem innerStep_inv (solve : List Nat → List ℚ) (hs : ∀ F, (solve F).length = F.length) (n : Nat) (s : NnlsState) (h : NnlsInv n s) :
    NnlsInv n (innerStep solve s).1 ∧ ((innerStep solve s).2 = false → (innerStep solve s).1.F.length + 1 = s.F.length) := by
  rcases innerStep_cases solve hs n s h with ⟨hf, hnn, he⟩ | ⟨hf, r, alpha, hr, hle, ha, hmin, he⟩
  · rw [he, hf]
    refine ⟨⟨h.perm, h.sortF, h.sortG, ?_, ?_⟩, fun hh => by cases hh⟩
    · intro i q hi
      simp only at hi
      split_ifs at hi with hF
      · cases hi; exact hnn _ (solved_mem _ _ (hs _) _ hF)
      · exact h.nonneg i q hi
    · intro i hi
      simp only at hi ⊢
      rw [if_neg hi]
      exact h.zero i hi
  · rw [he, hf]
    have hnd := nodup_F n s h
    refine ⟨⟨?_, ?_, sortNat_sorted _, ?_, ?_⟩, fun _ => ?_⟩
    · have p1 : (s.F.erase r ++ sortNat (s.G ++ [r])).Perm (s.F.erase r ++ (s.G ++ [r])) := List.Perm.append_left _ (sortNat_perm _)
      have p2 : (s.F.erase r ++ (s.G ++ [r])).Perm (r :: s.F.erase r ++ s.G) := by
        rw [← List.append_assoc]
        exact (List.perm_append_comm).trans (by simp)
      exact p1.trans (p2.trans (((List.perm_cons_erase hr).symm.append_right _).trans h.perm))
    · exact h.sortF.sublist List.erase_sublist
    · intro i q hi
      simp only at hi
      split_ifs at hi with hF
      · cases hx : s.x i with
        | none => rw [hx] at hi; cases hi
        | some a =>
          cases hal : alpha with
          | none => rw [hx, hal] at hi; cases hi
          | some al =>
            rw [hx, hal] at hi
            simp only [blend, Option.some.injEq] at hi
            have ha0 := h.nonneg i a hx
            cases hxr : s.x r with
            | none => rw [hxr] at ha; simp [theta, hal] at ha
            | some c =>
              rw [hxr, hal] at ha
              obtain ⟨hc0, hc⟩ := theta_some c _ _ ha.symm
              have hcn := h.nonneg r c hxr
              have hcp : 0 < c - solved s.F (solve s.F) r := lt_of_le_of_ne (by linarith) (Ne.symm hc0)
              have al0 : 0 ≤ al := by rw [hc]; exact div_nonneg hcn hcp.le
              have al1 : al ≤ 1 := by rw [hc]; exact (div_le_one hcp).2 (by linarith)
              rw [← hi]
              by_cases hv : solved s.F (solve s.F) i ≤ 0
              · obtain ⟨th, hth, hle'⟩ := hmin al hal i hF hv
                rw [hx] at hth
                obtain ⟨hd0, hd⟩ := theta_some a _ _ hth
                have hdp : 0 < a - solved s.F (solve s.F) i := lt_of_le_of_ne (by linarith) (Ne.symm hd0)
                rw [hd, le_div_iff₀ hdp] at hle'
                linarith
              · push Not at hv
                have h1 : 0 ≤ (1 - al) * a := mul_nonneg (by linarith) ha0
                have h2 : 0 ≤ al * solved s.F (solve s.F) i := mul_nonneg al0 hv.le
                linarith
      · exact h.nonneg i q hi
    · intro i hi
      simp only at hi ⊢
      by_cases hF : i ∈ s.F
      · rw [if_pos hF]
        have hir : i = r := by
          by_contra hne
          exact hi ((List.mem_erase_of_ne hne).2 hF)
        subst hir
        cases hx : s.x i with
        | none => exact Or.inl rfl
        | some a =>
          rw [hx] at ha
          cases hal : alpha with
          | none => exact Or.inl rfl
          | some al =>
            rw [hal] at ha
            obtain ⟨hd0, hd⟩ := theta_some a _ _ ha.symm
            right
            simp only [blend, Option.some.injEq]
            rw [hd]
            have : a / (a - solved s.F (solve s.F) i) * (a - solved s.F (solve s.F) i) = a := div_mul_cancel₀ _ hd0
            linarith
      · rw [if_neg hF]
        exact h.zero i hF
    · simp only
      rw [List.length_erase_of_mem hr]
      have := List.length_pos_of_mem hr
      omega

theorem innerLoop_inv (solve : List Nat → List ℚ) (hs : ∀ F, (solve F).length = F.length) (n fuel : Nat) (s : NnlsState) (h : NnlsInv n s) :
    NnlsInv n (innerLoop solve fuel s).1 := by
  induction fuel generalizing s with
  | zero => exact h
  | succ fuel ih =>
    unfold innerLoop
    have hi := (innerStep_inv solve hs n s h).1
    generalize innerStep solve s = p at hi
    obtain ⟨s', f⟩ := p
    cases f
    · exact ih s' hi
    · exact hi

theorem innerLoop_ends (solve : List Nat → List ℚ) (hs : ∀ F, (solve F).length = F.length) (n fuel : Nat) (s : NnlsState) (h : NnlsInv n s)
    (hfuel : s.F.length < fuel) : (innerLoop solve fuel s).2 = true := by
  induction fuel generalizing s with
  | zero => omega
  | succ fuel ih =>
    unfold innerLoop
    have hi := innerStep_inv solve hs n s h
    generalize innerStep solve s = p at hi
    obtain ⟨s', f⟩ := p
    cases f
    · have := hi.2 rfl
      simp only at this
      exact ih s' hi.1 (by omega)
    · rfl

theorem outerStep_inv (A : Nat → Nat → ℚ) (b : List ℚ) (tol : ℚ) (solve : List Nat → List ℚ) (hs : ∀ F, (solve F).length = F.length) (n : Nat)
    (s : NnlsState) (h : NnlsInv n s) (s' : NnlsState) (f : Bool) (ho : outerStep A b tol solve s = some (s', f)) : NnlsInv n s' ∧ f = true := by
  unfold outerStep at ho
  cases hk : argminNaN (s.G.map (gradient A b s)) with
  | none => rw [hk] at ho; cases ho
  | some k =>
    rw [hk] at ho
    simp only at ho
    obtain ⟨hlt, -⟩ := argminNaN_spec _ _ hk
    rw [List.length_map] at hlt
    have hr : s.G.getD k 0 ∈ s.G := by
      rw [List.getD_eq_getElem?_getD, List.getElem?_eq_getElem hlt]
      exact List.getElem_mem hlt
    generalize s.G.getD k 0 = r at hr ho
    have key : NnlsInv n ⟨sortNat (s.F ++ [r]), s.G.erase r, s.x⟩ := by
      refine ⟨?_, sortNat_sorted _, h.sortG.sublist List.erase_sublist, h.nonneg, ?_⟩
      · simp only
        have p1 : (sortNat (s.F ++ [r]) ++ s.G.erase r).Perm ((s.F ++ [r]) ++ s.G.erase r) := List.Perm.append_right _ (sortNat_perm _)
        rw [List.append_assoc] at p1
        exact p1.trans ((List.Perm.append_left _ (List.perm_cons_erase hr).symm).trans h.perm)
      · intro i hi
        refine h.zero i fun hF => hi ?_
        exact (sortNat_perm _).mem_iff.2 (by simp [hF])
    have h1 := innerLoop_inv solve hs n ((sortNat (s.F ++ [r])).length + 1) _ key
    have h2 := innerLoop_ends solve hs n ((sortNat (s.F ++ [r])).length + 1) _ key (by simp)
    split_ifs at ho
    all_goals
      rw [Option.some.injEq] at ho
      rw [ho] at h1 h2
      exact ⟨h1, h2⟩

theorem nnlsLoop_inv (A : Nat → Nat → ℚ) (b : List ℚ) (tol : ℚ) (solve : List Nat → List ℚ) (hs : ∀ F, (solve F).length = F.length) (n k : Nat)
    (s : NnlsState) (h : NnlsInv n s) : NnlsInv n (nnlsLoop A b tol solve k s).1 ∧ (nnlsLoop A b tol solve k s).2 = true := by
  induction k generalizing s with
  | zero => exact ⟨h, rfl⟩
  | succ k ih =>
    unfold nnlsLoop
    cases ho : outerStep A b tol solve s with
    | none => exact ⟨h, rfl⟩
    | some p =>
      obtain ⟨s', f⟩ := p
      obtain ⟨h1, h2⟩ := outerStep_inv A b tol solve hs n s h s' f ho
      subst h2
      exact ih s' h1

theorem nnlsInit_inv (n : Nat) : NnlsInv n (nnlsInit n) := by
  refine ⟨by simp [nnlsInit], by simp [nnlsInit], ?_, ?_, fun i _ => Or.inr rfl⟩
  · simp only [nnlsInit]
    exact List.pairwise_le_range
  · intro i q hq
    simp only [nnlsInit, Option.some.injEq] at hq
    rw [← hq]

/-! ## Solvers that never return zero -/

theorem innerStep_number (solve : List Nat → List ℚ) (hs : ∀ F, (solve F).length = F.length) (hz : ∀ F, (0 : ℚ) ∉ solve F) (n : Nat) (s : NnlsState)
    (h : NnlsInv n s) (hx : ∀ i, s.x i ≠ none) (i : Nat) : (innerStep solve s).1.x i ≠ none := by
  rcases innerStep_cases solve hs n s h with ⟨hf, hnn, he⟩ | ⟨hf, r, alpha, hr, hle, ha, hmin, he⟩
  · rw [he]
    simp only
    split_ifs
    · simp
    · exact hx i
  · rw [he]
    simp only
    split_ifs
    · cases hxr : s.x r with
      | none => exact absurd hxr (hx r)
      | some c =>
        have hv : solved s.F (solve s.F) r ≠ 0 := fun h0 => hz s.F (h0 ▸ solved_mem _ _ (hs _) _ hr)
        have hneg : solved s.F (solve s.F) r < 0 := lt_of_le_of_ne hle hv
        have hc := h.nonneg r c hxr
        rw [hxr] at ha
        unfold theta at ha
        simp only at ha
        rw [if_neg (by linarith)] at ha
        rw [ha]
        cases hxi : s.x i with
        | none => exact absurd hxi (hx i)
        | some a => simp [blend]
    · exact hx i

theorem innerLoop_number (solve : List Nat → List ℚ) (hs : ∀ F, (solve F).length = F.length) (hz : ∀ F, (0 : ℚ) ∉ solve F) (n fuel : Nat)
    (s : NnlsState) (h : NnlsInv n s) (hx : ∀ i, s.x i ≠ none) (i : Nat) : (innerLoop solve fuel s).1.x i ≠ none := by
  induction fuel generalizing s with
  | zero => exact hx i
  | succ fuel ih =>
    unfold innerLoop
    have hi := (innerStep_inv solve hs n s h).1
    have hn := innerStep_number solve hs hz n s h hx
    generalize innerStep solve s = p at hi hn
    obtain ⟨s', f⟩ := p
    cases f
    · exact ih s' hi hn
    · exact hn i

theorem nnlsLoop_number (A : Nat → Nat → ℚ) (b : List ℚ) (tol : ℚ) (solve : List Nat → List ℚ) (hs : ∀ F, (solve F).length = F.length)
    (hz : ∀ F, (0 : ℚ) ∉ solve F) (n k : Nat) (s : NnlsState) (h : NnlsInv n s) (hx : ∀ i, s.x i ≠ none) (i : Nat) :
    (nnlsLoop A b tol solve k s).1.x i ≠ none := by
  induction k generalizing s with
  | zero => exact hx i
  | succ k ih =>
    unfold nnlsLoop
    cases ho : outerStep A b tol solve s with
    | none => exact hx i
    | some p =>
      obtain ⟨s', f⟩ := p
      obtain ⟨h1, h2⟩ := outerStep_inv A b tol solve hs n s h s' f ho
      subst h2
      refine ih s' h1 ?_
      unfold outerStep at ho
      cases hk : argminNaN (s.G.map (gradient A b s)) with
      | none => rw [hk] at ho; cases ho
      | some k =>
        rw [hk] at ho
        simp only at ho
        obtain ⟨hlt, -⟩ := argminNaN_spec _ _ hk
        rw [List.length_map] at hlt
        have hr : s.G.getD k 0 ∈ s.G := by
          rw [List.getD_eq_getElem?_getD, List.getElem?_eq_getElem hlt]
          exact List.getElem_mem hlt
        generalize s.G.getD k 0 = r at hr ho
        have key : NnlsInv n ⟨sortNat (s.F ++ [r]), s.G.erase r, s.x⟩ := by
          refine ⟨?_, sortNat_sorted _, h.sortG.sublist List.erase_sublist, h.nonneg, ?_⟩
          · simp only
            have p1 : (sortNat (s.F ++ [r]) ++ s.G.erase r).Perm ((s.F ++ [r]) ++ s.G.erase r) := List.Perm.append_right _ (sortNat_perm _)
            rw [List.append_assoc] at p1
            exact p1.trans ((List.Perm.append_left _ (List.perm_cons_erase hr).symm).trans h.perm)
          · intro i hi
            refine h.zero i fun hF => hi ?_
            exact (sortNat_perm _).mem_iff.2 (by simp [hF])
        have h3 := innerLoop_number solve hs hz n ((sortNat (s.F ++ [r])).length + 1) _ key hx
        split_ifs at ho
        all_goals
          rw [Option.some.injEq] at ho
          rw [ho] at h3
          exact h3

end Verif.Lemmas
