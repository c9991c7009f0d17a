import Verif.Props.Nnls
import Mathlib.Data.Finset.Sort
import Mathlib.Algebra.Order.BigOperators.Ring.Finset
import Mathlib.Tactic.NormNum
import Mathlib.Tactic.LinearCombination

/-!
# C151: the unfolding solver converges, given enough passes
-/

namespace Verif.Props

open Verif.Py Verif.Model Verif.Lemmas Verif.Spec

/-! ## Quadratic misfit -/

/-- the derivative of the misfit for column `i`, halved -/
def slope (n : Nat) (A : Nat → Nat → ℚ) (b : List ℚ) (y : Nat → ℚ) (i : Nat) : ℚ :=
  ∑ m ∈ Finset.range b.length, A m i * (synth n A y m - b.getD m 0)

/-- the squared distance of two synthesised waveforms -/
def dist2 (n : Nat) (A : Nat → Nat → ℚ) (b : List ℚ) (y z : Nat → ℚ) : ℚ := ∑ m ∈ Finset.range b.length, (synth n A y m - synth n A z m) ^ 2

theorem dist2_nonneg (n : Nat) (A : Nat → Nat → ℚ) (b : List ℚ) (y z : Nat → ℚ) : 0 ≤ dist2 n A b y z := Finset.sum_nonneg fun _ _ => sq_nonneg _

theorem slope_pair (n : Nat) (A : Nat → Nat → ℚ) (b : List ℚ) (y d : Nat → ℚ) :
    ∑ i ∈ Finset.range n, d i * slope n A b y i = ∑ m ∈ Finset.range b.length, synth n A d m * (synth n A y m - b.getD m 0) := by
  unfold slope
  simp only [Finset.mul_sum]
  rw [Finset.sum_comm]
  refine Finset.sum_congr rfl fun m _ => ?_
  conv_rhs => rw [synth]
  rw [Finset.sum_mul]
  exact Finset.sum_congr rfl fun i _ => by ring

theorem synth_sub (n : Nat) (A : Nat → Nat → ℚ) (y z : Nat → ℚ) (m : Nat) : synth n A (fun i => y i - z i) m = synth n A y m - synth n A z m := by
  unfold synth
  rw [← Finset.sum_sub_distrib]
  exact Finset.sum_congr rfl fun i _ => by ring

theorem misfit_expand (n : Nat) (A : Nat → Nat → ℚ) (b : List ℚ) (y z : Nat → ℚ) :
    misfit n A b y = misfit n A b z + dist2 n A b y z + 2 * ∑ i ∈ Finset.range n, (y i - z i) * slope n A b z i := by
  rw [slope_pair n A b z fun i => y i - z i]
  unfold misfit dist2
  rw [Finset.mul_sum, ← Finset.sum_add_distrib, ← Finset.sum_add_distrib]
  refine Finset.sum_congr rfl fun m _ => ?_
  rw [synth_sub]
  ring

theorem slope_diff (n : Nat) (A : Nat → Nat → ℚ) (b : List ℚ) (y z : Nat → ℚ) :
    ∑ i ∈ Finset.range n, (y i - z i) * (slope n A b y i - slope n A b z i) = dist2 n A b y z := by
  simp only [mul_sub]
  rw [Finset.sum_sub_distrib, slope_pair n A b y fun i => y i - z i, slope_pair n A b z fun i => y i - z i, ← Finset.sum_sub_distrib]
  unfold dist2
  refine Finset.sum_congr rfl fun m _ => ?_
  rw [synth_sub]
  ring

theorem slope_eq_of_dist2 (n : Nat) (A : Nat → Nat → ℚ) (b : List ℚ) (y z : Nat → ℚ) (h : dist2 n A b y z = 0) (i : Nat) :
    slope n A b y i = slope n A b z i := by
  unfold slope
  refine Finset.sum_congr rfl fun m hm => ?_
  have := (Finset.sum_eq_zero_iff_of_nonneg fun _ _ => sq_nonneg _).1 h m hm
  rw [sub_eq_zero.1 (pow_eq_zero_iff (two_ne_zero) |>.1 this)]

/-- a step towards the solution of least squares for the columns `F` -/
theorem misfit_towards (n : Nat) (A : Nat → Nat → ℚ) (b : List ℚ) (F : List Nat) (x z : Nat → ℚ) (hx : ∀ i, i ∉ F → x i = 0) (hz : ∀ i, i ∉ F → z i = 0)
    (hn : ∀ f ∈ F, slope n A b z f = 0) (al : ℚ) :
    misfit n A b (fun i => x i + al * (z i - x i)) = misfit n A b z + (1 - al) ^ 2 * dist2 n A b x z := by
  rw [misfit_expand n A b _ z]
  have e0 : ∑ i ∈ Finset.range n, (x i + al * (z i - x i) - z i) * slope n A b z i = 0 := by
    refine Finset.sum_eq_zero fun i _ => ?_
    by_cases hi : i ∈ F
    · rw [hn i hi, mul_zero]
    · rw [hx i hi, hz i hi]; ring
  rw [e0]
  have e1 : dist2 n A b (fun i => x i + al * (z i - x i)) z = (1 - al) ^ 2 * dist2 n A b x z := by
    unfold dist2
    rw [Finset.mul_sum]
    refine Finset.sum_congr rfl fun m _ => ?_
    have e : synth n A (fun i => x i + al * (z i - x i)) m = synth n A x m + al * (synth n A z m - synth n A x m) := by
      unfold synth
      rw [← Finset.sum_sub_distrib, Finset.mul_sum, ← Finset.sum_add_distrib]
      exact Finset.sum_congr rfl fun i _ => by ring
    rw [e]
    ring
  rw [e1]
  ring

/-! ## One pass -/

/-- the amplitudes of a state, NaN taken as zero -/
def amplitudes (s : NnlsState) (i : Nat) : ℚ := (s.x i).getD 0

/-- the amplitudes least squares gives for the columns `F`, zero for the others -/
def lsOf (solve : List Nat → List ℚ) (F : List Nat) (i : Nat) : ℚ := if i ∈ F then solved F (solve F) i else 0

theorem lsOf_normal (n : Nat) (A : Nat → Nat → ℚ) (b : List ℚ) (solve : List Nat → List ℚ) (hs : LeastSquares A b solve) (s : NnlsState) (h : NnlsInv n s)
    (f : Nat) (hf : f ∈ s.F) : slope n A b (lsOf solve s.F) f = 0 := by
  have hnd := nodup_F n s h
  rw [← (hs s.F).2 hnd f hf]
  unfold slope
  refine Finset.sum_congr rfl fun m _ => ?_
  congr 2
  unfold synth
  rw [sum_F n s h (fun i => A m i * lsOf solve s.F i), zip_solved s.F hnd _ (hs s.F).1 fun a q => A m a * q]
  · refine congrArg List.sum (List.map_congr_left fun a ha => ?_)
    unfold lsOf
    rw [if_pos ha]
  · intro i hi
    have : i ∉ s.F := fun hF => (List.nodup_append.1 (h.perm.nodup_iff.2 List.nodup_range)).2.2 i hF i hi rfl
    unfold lsOf
    rw [if_neg this, mul_zero]

theorem amplitudes_off (n : Nat) (s : NnlsState) (h : NnlsInv n s) (i : Nat) (hi : i ∉ s.F) : amplitudes s i = 0 := by
  unfold amplitudes
  rcases h.zero i hi with e | e <;> rw [e] <;> rfl

/-- what a pass of the inner loop does to the amplitudes, if it leaves no NaN -/
theorem innerStep_towards (n : Nat) (A : Nat → Nat → ℚ) (b : List ℚ) (solve : List Nat → List ℚ) (hs : LeastSquares A b solve) (s s' : NnlsState) (f : Bool)
    (h : NnlsInv n s) (hx : ∀ i, s.x i ≠ none) (hx' : ∀ i, s'.x i ≠ none) (hi : innerStep solve s = (s', f)) :
    f = true ∧ s'.F = s.F ∧ (∀ i, amplitudes s' i = lsOf solve s.F i) ∨
    f = false ∧ ∃ r al, r ∈ s.F ∧ lsOf solve s.F r ≤ 0 ∧ 0 ≤ al ∧ al ≤ 1 ∧ (al = 0 → amplitudes s r = 0) ∧ s'.F = s.F.erase r ∧
      ∀ i, amplitudes s' i = amplitudes s i + al * (lsOf solve s.F i - amplitudes s i) := by
  have hl : ∀ F, (solve F).length = F.length := fun F => (hs F).1
  have hzero : ∀ i, i ∉ s.F → s.x i = some 0 := fun i hF => (h.zero i hF).resolve_left (hx i)
  rcases innerStep_cases solve hl n s h with ⟨h2, -, h1⟩ | ⟨h2, r, alpha, hr, hrv, hal, -, h1⟩
  · rw [hi] at h1 h2
    simp only at h1 h2
    refine .inl ⟨h2, by rw [h1], fun i => ?_⟩
    unfold amplitudes lsOf
    rw [h1]
    simp only
    by_cases hF : i ∈ s.F
    · rw [if_pos hF, if_pos hF]; rfl
    · rw [if_neg hF, if_neg hF, hzero i hF]; rfl
  · rw [hi] at h1 h2
    simp only at h1 h2
    obtain ⟨a, ha⟩ : ∃ a, s.x r = some a := Option.ne_none_iff_exists'.1 (hx r)
    cases halp : alpha with
    | none =>
      refine absurd ?_ (hx' r)
      rw [h1]
      simp only
      rw [if_pos hr, halp, ha]
      rfl
    | some al =>
      rw [halp, ha] at hal
      unfold theta at hal
      simp only at hal
      split_ifs at hal with hd
      injection hal with hal
      have ha0 := h.nonneg r a ha
      have hpos : 0 < a - solved s.F (solve s.F) r := lt_of_le_of_ne (by linarith) (Ne.symm hd)
      refine .inr ⟨h2, r, al, hr, by unfold lsOf; rw [if_pos hr]; exact hrv, ?_, ?_, ?_, by rw [h1], fun i => ?_⟩
      · rw [hal]; exact div_nonneg ha0 hpos.le
      · rw [hal, div_le_one hpos]; linarith
      · intro h0
        rw [hal, div_eq_zero_iff] at h0
        unfold amplitudes
        rw [ha, Option.getD_some]
        exact h0.resolve_right hd
      · unfold amplitudes lsOf
        rw [h1]
        simp only
        by_cases hF : i ∈ s.F
        · obtain ⟨c, hc⟩ : ∃ c, s.x i = some c := Option.ne_none_iff_exists'.1 (hx i)
          rw [if_pos hF, if_pos hF, halp, hc]
          rfl
        · rw [if_neg hF, if_neg hF, hzero i hF]
          simp

/-- a released position: still without amplitude, but the misfit decreases with it; the amplitudes are settled for the other positions -/
structure Released (n : Nat) (A : Nat → Nat → ℚ) (b : List ℚ) (s : NnlsState) (r : Nat) : Prop where
  mem : r ∈ s.F
  lt : r < n
  zero : amplitudes s r = 0
  down : slope n A b (amplitudes s) r < 0
  flat : ∀ f ∈ s.F, f ≠ r → slope n A b (amplitudes s) f = 0

theorem released_gain (n : Nat) (A : Nat → Nat → ℚ) (b : List ℚ) (solve : List Nat → List ℚ) (hs : LeastSquares A b solve) (s : NnlsState) (h : NnlsInv n s)
    (r : Nat) (hr : Released n A b s r) : 0 < lsOf solve s.F r ∧ 0 < dist2 n A b (amplitudes s) (lsOf solve s.F) := by
  have hn := lsOf_normal n A b solve hs s h
  have hd := slope_diff n A b (amplitudes s) (lsOf solve s.F)
  rw [Finset.sum_eq_single r] at hd
  · rw [hn r hr.mem, hr.zero, zero_sub, sub_zero] at hd
    have hpos : 0 < dist2 n A b (amplitudes s) (lsOf solve s.F) := by
      refine lt_of_le_of_ne (dist2_nonneg _ _ _ _ _) fun h0 => ?_
      have := slope_eq_of_dist2 n A b _ _ h0.symm r
      rw [hn r hr.mem] at this
      have := hr.down
      linarith
    refine ⟨?_, hpos⟩
    have := hr.down
    by_contra hneg
    have hneg := not_lt.1 hneg
    nlinarith
  · intro i _ hir
    by_cases hF : i ∈ s.F
    · rw [hr.flat i hF hir, hn i hF]; ring
    · rw [amplitudes_off n s h i hF]
      unfold lsOf
      rw [if_neg hF]
      ring
  · intro hnot
    exact absurd (Finset.mem_range.2 hr.lt) hnot

/-- a pass of the inner loop never makes the fit worse; with a released position it makes it better or leaves the position released -/
theorem innerStep_misfit (n : Nat) (A : Nat → Nat → ℚ) (b : List ℚ) (solve : List Nat → List ℚ) (hs : LeastSquares A b solve) (s s' : NnlsState) (f : Bool)
    (h : NnlsInv n s) (hx : ∀ i, s.x i ≠ none) (hx' : ∀ i, s'.x i ≠ none) (hi : innerStep solve s = (s', f)) :
    misfit n A b (amplitudes s') ≤ misfit n A b (amplitudes s) ∧
    ∀ r, Released n A b s r → misfit n A b (amplitudes s') < misfit n A b (amplitudes s) ∨
      f = false ∧ Released n A b s' r ∧ misfit n A b (amplitudes s') = misfit n A b (amplitudes s) := by
  have hn := lsOf_normal n A b solve hs s h
  have hoff := amplitudes_off n s h
  have hzoff : ∀ i, i ∉ s.F → lsOf solve s.F i = 0 := fun i hF => by unfold lsOf; rw [if_neg hF]
  have hD := dist2_nonneg n A b (amplitudes s) (lsOf solve s.F)
  have hm0 : misfit n A b (amplitudes s) = misfit n A b (lsOf solve s.F) + dist2 n A b (amplitudes s) (lsOf solve s.F) := by
    have := misfit_towards n A b s.F (amplitudes s) (lsOf solve s.F) hoff hzoff hn 0
    have e : (fun i => amplitudes s i + 0 * (lsOf solve s.F i - amplitudes s i)) = amplitudes s := by funext i; ring
    rw [e] at this
    rw [this]; ring
  rcases innerStep_towards n A b solve hs s s' f h hx hx' hi with ⟨-, -, he⟩ | ⟨hf, q, al, hq, hqv, hal0, hal1, halz, hF', he⟩
  · rw [show amplitudes s' = lsOf solve s.F from funext he]
    refine ⟨by linarith, fun r hr => .inl ?_⟩
    have := (released_gain n A b solve hs s h r hr).2
    linarith
  · have hm : misfit n A b (amplitudes s') = misfit n A b (lsOf solve s.F) + (1 - al) ^ 2 * dist2 n A b (amplitudes s) (lsOf solve s.F) := by
      rw [← misfit_towards n A b s.F (amplitudes s) (lsOf solve s.F) hoff hzoff hn al, show amplitudes s' = _ from funext he]
    have hsq : (1 - al) ^ 2 ≤ 1 := by nlinarith
    refine ⟨by nlinarith, fun r hr => ?_⟩
    obtain ⟨hz, hpos⟩ := released_gain n A b solve hs s h r hr
    by_cases h0 : al = 0
    · have hsame : amplitudes s' = amplitudes s := by funext i; rw [he i, h0]; ring
      have hqr : r ≠ q := by rintro rfl; linarith
      refine .inr ⟨hf, ⟨?_, hr.lt, ?_, ?_, ?_⟩, by rw [hsame]⟩
      · rw [hF']; exact (List.mem_erase_of_ne hqr).2 hr.mem
      · rw [hsame]; exact hr.zero
      · rw [hsame]; exact hr.down
      · intro g hg hgr
        rw [hsame]
        rw [hF'] at hg
        exact hr.flat g (List.mem_of_mem_erase hg) hgr
    · have : 0 < al := lt_of_le_of_ne hal0 (Ne.symm h0)
      have hlt : (1 - al) ^ 2 < 1 := by nlinarith
      exact .inl (by nlinarith)

/-- no pass that begins with numbers meets a tie, see C79 -/
def NoTies (n : Nat) (A : Nat → Nat → ℚ) (b : List ℚ) (tolerance : ℚ) (solve : List Nat → List ℚ) : Prop :=
  ∀ s, PassReached n A b tolerance solve s → (∀ i, s.x i ≠ none) → ¬ ZeroTie solve s

theorem innerLoop_misfit (n : Nat) (A : Nat → Nat → ℚ) (b : List ℚ) (tolerance : ℚ) (solve : List Nat → List ℚ) (hs : LeastSquares A b solve)
    (hz : NoTies n A b tolerance solve) (fuel : Nat) (s s' : NnlsState) (h : PassReached n A b tolerance solve s) (hx : ∀ i, s.x i ≠ none)
    (hi : innerLoop solve fuel s = (s', true)) :
    misfit n A b (amplitudes s') ≤ misfit n A b (amplitudes s) ∧
    ∀ r, Released n A b s r → misfit n A b (amplitudes s') < misfit n A b (amplitudes s) := by
  have hl : ∀ F, (solve F).length = F.length := fun F => (hs F).1
  induction fuel generalizing s with
  | zero => simp [innerLoop] at hi
  | succ fuel ih =>
    have hinv := passReached_inv n A b tolerance solve hl s h
    have hnum : ∀ i, (innerStep solve s).1.x i ≠ none := fun i hni =>
      hz s h hx ((C79_pass_partial n A b tolerance solve hl s h hx).1 ⟨i, hni⟩)
    unfold innerLoop at hi
    cases hp : innerStep solve s with
    | mk t f =>
      rw [hp] at hi hnum
      obtain ⟨m1, m2⟩ := innerStep_misfit n A b solve hs s t f hinv hx hnum hp
      cases f
      · obtain ⟨i1, i2⟩ := ih t (.next s t h hp) hnum hi
        refine ⟨le_trans i1 m1, fun r hr => ?_⟩
        rcases m2 r hr with hlt | ⟨-, hr', heq⟩
        · exact lt_of_le_of_lt i1 hlt
        · rw [← heq]; exact i2 r hr'
      · simp only [Prod.mk.injEq, and_true] at hi
        subst hi
        refine ⟨m1, fun r hr => (m2 r hr).resolve_right ?_⟩
        rintro ⟨hf, -⟩
        cases hf

/-! ## The outer loop -/

/-- the states between passes, with numbers throughout and settled -/
structure Between (n : Nat) (A : Nat → Nat → ℚ) (b : List ℚ) (tolerance : ℚ) (solve : List Nat → List ℚ) (s : NnlsState) : Prop where
  reached : OuterReached n A b tolerance solve s
  number : ∀ i, s.x i ≠ none
  settled : Settled solve s

theorem amplitudes_settled (n : Nat) (solve : List Nat → List ℚ) (s : NnlsState) (h : NnlsInv n s) (hset : Settled solve s) :
    amplitudes s = lsOf solve s.F := by
  funext i
  by_cases hF : i ∈ s.F
  · unfold amplitudes lsOf
    rw [if_pos hF, hset i hF]; rfl
  · rw [amplitudes_off n s h i hF]
    unfold lsOf
    rw [if_neg hF]

theorem gradient_slope (n : Nat) (A : Nat → Nat → ℚ) (b : List ℚ) (s : NnlsState) (h : NnlsInv n s) (hx : ∀ i, s.x i ≠ none) (g : Nat) :
    gradient A b s g = some (slope n A b (amplitudes s) g) := by
  unfold gradient
  rw [if_neg]
  · congr 1
    unfold slope
    have hsum : ∀ m, synth n A (amplitudes s) m = (s.F.map fun f => A m f * (s.x f).getD 0).sum := by
      intro m
      unfold synth
      rw [sum_F n s h (fun i => A m i * amplitudes s i)]
      · rfl
      · intro i hi
        have : i ∉ s.F := fun hF => (List.nodup_append.1 (h.perm.nodup_iff.2 List.nodup_range)).2.2 i hF i hi rfl
        rw [amplitudes_off n s h i this, mul_zero]
    simp only [hsum]
    rfl
  · rw [List.any_eq_true]
    rintro ⟨f, -, hn⟩
    exact hx f (by simpa using hn)

/-- a pass of the outer loop leads to a state between passes with a smaller misfit -/
theorem outerStep_misfit (n : Nat) (A : Nat → Nat → ℚ) (b : List ℚ) (tolerance : ℚ) (htol : tolerance ≤ 0) (solve : List Nat → List ℚ)
    (hs : LeastSquares A b solve) (hz : NoTies n A b tolerance solve) (s s' : NnlsState) (f : Bool) (h : Between n A b tolerance solve s)
    (ho : outerStep A b tolerance solve s = some (s', f)) :
    f = true ∧ Between n A b tolerance solve s' ∧ misfit n A b (amplitudes s') < misfit n A b (amplitudes s) := by
  have hl : ∀ F, (solve F).length = F.length := fun F => (hs F).1
  have hinv := outerReached_inv n A b tolerance solve hl s h.reached
  obtain ⟨hinv', hf⟩ := outerStep_inv A b tolerance solve hl n s hinv s' f ho
  subst hf
  have hreach' : OuterReached n A b tolerance solve s' := .step s s' true h.reached ho
  have hset' : Settled solve s' := by
    have := nnlsLoop_settled A b tolerance solve hl n 1 s hinv h.settled
    unfold nnlsLoop at this
    rw [ho] at this
    exact this
  have hne : outerStep A b tolerance solve s ≠ none := by rw [ho]; simp
  unfold outerStep at ho
  cases hq : argminNaN (s.G.map (gradient A b s)) with
  | none => rw [hq] at ho; cases ho
  | some q =>
    rw [hq] at ho
    simp only at ho
    have hpass := PassReached.enter (tolerance := tolerance) (solve := solve) s q h.reached hne hq
    have hlt := (argminNaN_spec _ _ hq).1
    rw [List.length_map] at hlt
    have hrG : s.G.getD q 0 ∈ s.G := by
      rw [List.getD_eq_getElem?_getD, List.getElem?_eq_getElem hlt]
      exact List.getElem_mem hlt
    generalize s.G.getD q 0 = r at hrG ho hpass
    rw [gradient_slope n A b s hinv h.number r] at ho
    simp only [decide_eq_true_eq] at ho
    split_ifs at ho with hc
    rw [Option.some.injEq] at ho
    have hrF : r ∉ s.F := fun hF => (List.nodup_append.1 (hinv.perm.nodup_iff.2 List.nodup_range)).2.2 r hF r hrG rfl
    have hsame : amplitudes ⟨sortNat (s.F ++ [r]), s.G.erase r, s.x⟩ = amplitudes s := rfl
    have hrel : Released n A b ⟨sortNat (s.F ++ [r]), s.G.erase r, s.x⟩ r := by
      refine ⟨(sortNat_perm _).mem_iff.2 (by simp), ?_, ?_, ?_, ?_⟩
      · exact List.mem_range.1 (hinv.perm.mem_iff.1 (List.mem_append.2 (.inr hrG)))
      · rw [hsame]; exact amplitudes_off n s hinv r hrF
      · rw [hsame]; have := not_le.1 hc; linarith
      · intro g hg hgr
        rw [hsame, amplitudes_settled n solve s hinv h.settled]
        have hg := (sortNat_perm _).mem_iff.1 hg
        rw [List.mem_append, List.mem_singleton] at hg
        exact lsOf_normal n A b solve hs s hinv g (hg.resolve_right hgr)
    have hmis := (innerLoop_misfit n A b tolerance solve hs hz _ _ s' hpass h.number ho).2 r hrel
    have hnum := innerLoop_tieless n A b tolerance solve hl hz ((sortNat (s.F ++ [r])).length + 1) _ hpass h.number
    rw [ho] at hnum
    exact ⟨rfl, ⟨hreach', hnum, hset'⟩, hmis⟩

/-- how many sets of positions have a smaller misfit than the state -/
noncomputable def better (n : Nat) (A : Nat → Nat → ℚ) (b : List ℚ) (solve : List Nat → List ℚ) (q : ℚ) : Finset (Finset Nat) :=
  (Finset.range n).powerset.filter fun T => misfit n A b (lsOf solve (T.sort (· ≤ ·))) < q

theorem better_lt (n : Nat) (A : Nat → Nat → ℚ) (b : List ℚ) (tolerance : ℚ) (htol : tolerance ≤ 0) (solve : List Nat → List ℚ)
    (hs : LeastSquares A b solve) (hz : NoTies n A b tolerance solve) (s s' : NnlsState) (f : Bool) (h : Between n A b tolerance solve s)
    (ho : outerStep A b tolerance solve s = some (s', f)) :
    (better n A b solve (misfit n A b (amplitudes s'))).card < (better n A b solve (misfit n A b (amplitudes s))).card := by
  obtain ⟨-, h', hlt⟩ := outerStep_misfit n A b tolerance htol solve hs hz s s' f h ho
  have hinv' := outerReached_inv n A b tolerance solve (fun F => (hs F).1) s' h'.reached
  have hsort : s'.F.toFinset.sort (· ≤ ·) = s'.F := by
    rw [List.toFinset_sort (· ≤ ·) (nodup_F n s' hinv')]
    exact hinv'.sortF
  refine Finset.card_lt_card (Finset.ssubset_iff_of_subset ?_ |>.2 ⟨s'.F.toFinset, ?_, ?_⟩)
  · intro T hT
    unfold better at hT ⊢
    rw [Finset.mem_filter] at hT ⊢
    exact ⟨hT.1, hT.2.trans hlt⟩
  · unfold better
    rw [Finset.mem_filter, Finset.mem_powerset, hsort, ← amplitudes_settled n solve s' hinv' h'.settled]
    refine ⟨fun i hi => ?_, hlt⟩
    rw [List.mem_toFinset] at hi
    exact Finset.mem_range.2 (List.mem_range.1 (hinv'.perm.mem_iff.1 (List.mem_append.2 (.inl hi))))
  · unfold better
    rw [Finset.mem_filter, hsort, ← amplitudes_settled n solve s' hinv' h'.settled]
    exact fun hh => lt_irrefl _ hh.2

theorem nnlsLoop_stops (n : Nat) (A : Nat → Nat → ℚ) (b : List ℚ) (tolerance : ℚ) (htol : tolerance ≤ 0) (solve : List Nat → List ℚ)
    (hs : LeastSquares A b solve) (hz : NoTies n A b tolerance solve) (k : Nat) (s : NnlsState) (h : Between n A b tolerance solve s)
    (hk : (better n A b solve (misfit n A b (amplitudes s))).card ≤ k) : outerStep A b tolerance solve (nnlsLoop A b tolerance solve k s).1 = none := by
  induction k generalizing s with
  | zero =>
    change outerStep A b tolerance solve s = none
    by_contra hne
    obtain ⟨⟨s', f⟩, ho⟩ := Option.ne_none_iff_exists'.1 hne
    have := better_lt n A b tolerance htol solve hs hz s s' f h ho
    omega
  | succ k ih =>
    unfold nnlsLoop
    cases ho : outerStep A b tolerance solve s with
    | none => exact ho
    | some p =>
      obtain ⟨s', f⟩ := p
      obtain ⟨rfl, h', -⟩ := outerStep_misfit n A b tolerance htol solve hs hz s s' f h ho
      have := better_lt n A b tolerance htol solve hs hz s s' true h ho
      exact ih s' h' (by omega)

theorem between_init (n : Nat) (A : Nat → Nat → ℚ) (b : List ℚ) (tolerance : ℚ) (solve : List Nat → List ℚ) : Between n A b tolerance solve (nnlsInit n) :=
  ⟨.init, fun _ => by simp [nnlsInit], fun f hf => by simp [nnlsInit] at hf⟩

theorem nnls_misfit (n : Nat) (A : Nat → Nat → ℚ) (b : List ℚ) (k : Nat) (tolerance : ℚ) (solve : List Nat → List ℚ) :
    misfit n A b (fun i => (((nnls n A b (some k) tolerance solve)[i]?).join).getD 0) =
      misfit n A b (amplitudes (nnlsLoop A b tolerance solve k (nnlsInit n)).1) := by
  unfold misfit synth
  refine Finset.sum_congr rfl fun m _ => ?_
  rw [Finset.sum_congr rfl fun i hi => ?_]
  unfold nnls amplitudes
  simp only
  rw [List.getElem?_map, List.getElem?_range (Finset.mem_range.1 hi)]
  rfl

/-- **C151** (progress): with exact least squares and without ties, every further pass that is allowed fits the waveform strictly better, until the
extraction stops by itself and further passes change nothing. -/
theorem C151_progress (n : Nat) (A : Nat → Nat → ℚ) (b : List ℚ) (tolerance : ℚ) (htol : tolerance ≤ 0) (solve : List Nat → List ℚ)
    (hs : LeastSquares A b solve) (hz : NoTies n A b tolerance solve) (k : Nat) :
    nnls n A b (some (k + 1)) tolerance solve = nnls n A b (some k) tolerance solve ∨
    misfit n A b (fun i => (((nnls n A b (some (k + 1)) tolerance solve)[i]?).join).getD 0) <
      misfit n A b (fun i => (((nnls n A b (some k) tolerance solve)[i]?).join).getD 0) := by
  rw [nnls_misfit, nnls_misfit]
  have key : ∀ (k : Nat) (s : NnlsState), Between n A b tolerance solve s →
      (nnlsLoop A b tolerance solve (k + 1) s).1 = (nnlsLoop A b tolerance solve k s).1 ∨
      misfit n A b (amplitudes (nnlsLoop A b tolerance solve (k + 1) s).1) < misfit n A b (amplitudes (nnlsLoop A b tolerance solve k s).1) := by
    intro k
    induction k with
    | zero =>
      intro s h
      cases ho : outerStep A b tolerance solve s with
      | none => left; simp [nnlsLoop, ho]
      | some p =>
        obtain ⟨s', f⟩ := p
        obtain ⟨rfl, -, hlt⟩ := outerStep_misfit n A b tolerance htol solve hs hz s s' f h ho
        right
        simpa [nnlsLoop, ho] using hlt
    | succ k ih =>
      intro s h
      cases ho : outerStep A b tolerance solve s with
      | none => left; simp [nnlsLoop, ho]
      | some p =>
        obtain ⟨s', f⟩ := p
        obtain ⟨rfl, h', -⟩ := outerStep_misfit n A b tolerance htol solve hs hz s s' f h ho
        have := ih s' h'
        rw [nnlsLoop, ho]
        conv => enter [1, 2]; rw [nnlsLoop, ho]
        conv => enter [2, 2]; rw [nnlsLoop, ho]
        exact this
  rcases key k _ (between_init n A b tolerance solve) with h | h
  · left
    unfold nnls
    simp only [Option.getD_some]
    rw [h]
  · exact .inr h

/-- **C151, the part that holds** (missing: the default number of passes): with exact least squares and without ties, `2 ^ n` passes are enough for `n`
positions: the amplitudes then fit the waveform as well as any non-negative amplitudes do, up to `-2 * tolerance` times the total amplitude of these. -/
theorem C151_converges_partial (n : Nat) (A : Nat → Nat → ℚ) (b : List ℚ) (tolerance : ℚ) (htol : tolerance ≤ 0) (solve : List Nat → List ℚ)
    (hs : LeastSquares A b solve) (hz : NoTies n A b tolerance solve) (maxit : Nat) (hm : 2 ^ n ≤ maxit) (z : Nat → ℚ) (hz0 : ∀ i, 0 ≤ z i) :
    misfit n A b (fun i => (((nnls n A b (some maxit) tolerance solve)[i]?).join).getD 0) ≤ misfit n A b z - 2 * tolerance * ∑ i ∈ Finset.range n, z i := by
  refine C80_optimal n A b maxit tolerance htol solve hs ?_ z hz0
  refine nnlsLoop_stops n A b tolerance htol solve hs hz maxit _ (between_init n A b tolerance solve) (le_trans ?_ hm)
  unfold better
  refine le_trans (Finset.card_filter_le _ _) ?_
  rw [Finset.card_powerset, Finset.card_range]

/-! ## The default number of passes -/

/-- three pulses of two samples: (1000, 2000), (100, 10) and (10, -1) -/
def stiffBasis (m i : Nat) : ℚ :=
  match m, i with
  | 0, 0 => 1000
  | 1, 0 => 2000
  | 0, 1 => 100
  | 1, 1 => 10
  | 0, 2 => 10
  | 1, 2 => -1
  | _, _ => 0

/-- their amplitudes for the waveform (1, 0) by least squares -/
def stiffCoef (F : List Nat) (f : Nat) : ℚ :=
  match decide (0 ∈ F), decide (1 ∈ F), decide (2 ∈ F), f with
  | true, false, false, 0 => 1 / 5000
  | false, true, false, 1 => 1 / 101
  | false, false, true, 2 => 10 / 101
  | true, true, false, 0 => -1 / 19000
  | true, true, false, 1 => 1 / 95
  | true, false, true, 0 => 1 / 21000
  | true, false, true, 2 => 2 / 21
  | false, true, true, 1 => 1 / 200
  | false, true, true, 2 => 1 / 20
  | true, true, true, 0 => 1 / 42000
  | true, true, true, 1 => 1 / 400
  | true, true, true, 2 => 61 / 840
  | _, _, _, _ => 0

/-- least squares for these pulses and the waveform (1, 0) -/
def stiffSolve (F : List Nat) : List ℚ := F.map (stiffCoef F)

theorem stiff_leastSquares : LeastSquares stiffBasis [1, 0] stiffSolve := by
  intro F
  refine ⟨by simp [stiffSolve], fun hnd g hg => ?_⟩
  have hsum : ∀ m, ((F.zip (stiffSolve F)).map fun p => stiffBasis m p.1 * p.2).sum =
      ∑ i ∈ Finset.range 3, if i ∈ F then stiffBasis m i * stiffCoef F i else 0 := by
    intro m
    have e : (F.zip (stiffSolve F)).map (fun p => stiffBasis m p.1 * p.2) = F.map fun i => stiffBasis m i * stiffCoef F i := by
      unfold stiffSolve
      generalize stiffCoef F = c
      clear hnd hg
      induction F with
      | nil => rfl
      | cons a t ih => simp [ih]
    rw [e, ← List.sum_toFinset _ hnd, ← Finset.sum_filter]
    symm
    refine Finset.sum_subset ?_ ?_
    · intro i hi
      exact List.mem_toFinset.2 (Finset.mem_filter.1 hi).2
    · intro i hi hni
      have h3 : 3 ≤ i := by
        by_contra hc
        exact hni (Finset.mem_filter.2 ⟨Finset.mem_range.2 (by omega), List.mem_toFinset.1 hi⟩)
      obtain ⟨j, rfl⟩ : ∃ j, i = j + 3 := ⟨i - 3, by omega⟩
      have : stiffBasis m (j + 3) = 0 := by unfold stiffBasis; split <;> first | omega | rfl
      rw [this, zero_mul]
  simp only [hsum]
  rw [show ([1, 0] : List ℚ).length = 2 from rfl]
  simp only [Finset.sum_range_succ, Finset.sum_range_zero, stiffCoef]
  have hg3 : g = 0 ∨ g = 1 ∨ g = 2 ∨ ∃ j, g = j + 3 := by
    rcases Nat.lt_or_ge g 3 with h | h
    · omega
    · exact .inr (.inr (.inr ⟨g - 3, by omega⟩))
  rcases hg3 with rfl | rfl | rfl | ⟨j, rfl⟩
  · by_cases h1 : 1 ∈ F <;> by_cases h2 : 2 ∈ F <;> simp [hg, h1, h2, stiffBasis] <;> norm_num
  · by_cases h0 : 0 ∈ F <;> by_cases h2 : 2 ∈ F <;> simp [hg, h0, h2, stiffBasis] <;> norm_num
  · by_cases h0 : 0 ∈ F <;> by_cases h1 : 1 ∈ F <;> simp [hg, h0, h1, stiffBasis] <;> norm_num
  · have : ∀ m, stiffBasis m (j + 3) = 0 := fun m => by unfold stiffBasis; split <;> first | omega | rfl
    simp [this]

theorem stiff_noTies : NoTies 3 stiffBasis [1, 0] 0 stiffSolve := by
  rintro s h - ⟨k, f, hk, -, h0, -⟩
  have hinv := passReached_inv 3 stiffBasis [1, 0] 0 stiffSolve (fun F => (stiff_leastSquares F).1) s h
  have hf : f ∈ s.F := List.mem_of_getElem? hk
  have h3 : f < 3 := List.mem_range.1 (hinv.perm.mem_iff.1 (List.mem_append.2 (.inl hf)))
  unfold stiffSolve at h0
  rw [List.getElem?_map, hk, Option.map_some, Option.some.injEq] at h0
  unfold stiffCoef at h0
  have : f = 0 ∨ f = 1 ∨ f = 2 := by omega
  rcases this with rfl | rfl | rfl
  · by_cases h1 : 1 ∈ s.F <;> by_cases h2 : 2 ∈ s.F <;> simp [hf, h1, h2] at h0
  · by_cases h1 : 0 ∈ s.F <;> by_cases h2 : 2 ∈ s.F <;> simp [hf, h1, h2] at h0
  · by_cases h1 : 0 ∈ s.F <;> by_cases h2 : 1 ∈ s.F <;> simp [hf, h1, h2] at h0

/-- **C151 is false as stated**: even with exact least squares and no ties, the default number of passes, the number of samples, can be too small. For
three pulses (1000, 2000), (100, 10) and (10, -1) and the waveform (1, 0) the two passes end with the second pulse only; the second and the third fit the
waveform exactly. -/
theorem C151_false : ∃ (n : Nat) (A : Nat → Nat → ℚ) (b : List ℚ) (solve : List Nat → List ℚ), LeastSquares A b solve ∧ NoTies n A b 0 solve ∧
    ∃ z : Nat → ℚ, (∀ i, 0 ≤ z i) ∧ misfit n A b z < misfit n A b (fun i => (((nnls n A b none 0 solve)[i]?).join).getD 0) := by
  refine ⟨3, stiffBasis, [1, 0], stiffSolve, stiff_leastSquares, stiff_noTies, fun i => if i = 1 then 1 / 200 else if i = 2 then 1 / 20 else 0, ?_, ?_⟩
  · intro i
    simp only
    split_ifs <;> norm_num
  · have h : nnls 3 stiffBasis [1, 0] none 0 stiffSolve = [some 0, some (1 / 101), some 0] := by decide +kernel
    rw [h]
    simp [misfit, synth, Finset.sum_range_succ, stiffBasis]
    norm_num

/-- the hypotheses hold here, and the eight passes of the theorem are enough -/
example (z : Nat → ℚ) (hz0 : ∀ i, 0 ≤ z i) :
    misfit 3 stiffBasis [1, 0] (fun i => (((nnls 3 stiffBasis [1, 0] (some 8) 0 stiffSolve)[i]?).join).getD 0) ≤ misfit 3 stiffBasis [1, 0] z := by
  simpa using C151_converges_partial 3 stiffBasis [1, 0] 0 le_rfl stiffSolve stiff_leastSquares stiff_noTies 8 (by norm_num) z hz0

/-- in fact three are: the amplitudes change in each of the first three passes, and no longer thereafter -/
example : nnls 3 stiffBasis [1, 0] (some 1) 0 stiffSolve = [some (1 / 5000), some 0, some 0] ∧
    nnls 3 stiffBasis [1, 0] (some 2) 0 stiffSolve = [some 0, some (1 / 101), some 0] ∧
    nnls 3 stiffBasis [1, 0] (some 3) 0 stiffSolve = [some 0, some (1 / 200), some (1 / 20)] ∧
    nnls 3 stiffBasis [1, 0] (some 8) 0 stiffSolve = [some 0, some (1 / 200), some (1 / 20)] := by decide +kernel

end Verif.Props
