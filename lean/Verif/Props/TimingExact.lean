import Verif.Props.Timing

/-! # C75: when exactly the timing extraction fails -/

namespace Verif.Props

open Verif.Py Verif.Model Verif.Spec Verif.Lemmas

/-- the first two neighbouring samples from `i` on between which the waveform falls through `level` are both at `level` -/
def FlatFall (row : List ℚ) (level : ℚ) (i : Nat) : Prop :=
  ∃ k, i ≤ k ∧ k + 1 < row.length ∧ row.getD k 0 = level ∧ row.getD (k + 1) 0 = level ∧ ∀ j, i ≤ j → j < k → ¬ Falls row level j

/-- the last two neighbouring samples up to `i` between which the waveform rises through `level` are both at `level` -/
def FlatRise (row : List ℚ) (level : ℚ) (i : Nat) : Prop :=
  ∃ k, k < i ∧ k + 1 < row.length ∧ row.getD k 0 = level ∧ row.getD (k + 1) 0 = level ∧ ∀ j, k < j → j < i → j + 1 < row.length → ¬ Rises row level j

theorem FlatFall.no_crossing {row : List ℚ} {level : ℚ} {i : Nat} (h : FlatFall row level i) (x : ℚ) : ¬ FirstFall row level i x := by
  obtain ⟨k, k1, k2, k3, k4, k5⟩ := h
  have hk : Falls row level k := ⟨by rw [k3], by rw [k4]⟩
  rintro (⟨m, m1, m2, m3, m4, m5⟩ | ⟨-, m⟩)
  · rcases Nat.lt_trichotomy k m with hlt | rfl | hlt
    · exact m5 k k1 hlt hk
    · exact m4.1 (by rw [k3, k4])
    · exact k5 m m1 hlt m3
  · exact m k k1 k2 hk

theorem FlatRise.no_crossing {row : List ℚ} {level : ℚ} {i : Nat} (h : FlatRise row level i) (x : ℚ) : ¬ LastRise row level i x := by
  obtain ⟨k, k1, k2, k3, k4, k5⟩ := h
  have hk : Rises row level k := ⟨by rw [k4], by rw [k3]⟩
  rintro (⟨m, m1, m2, m3, m4, m5⟩ | ⟨-, m⟩)
  · rcases Nat.lt_trichotomy k m with hlt | rfl | hlt
    · exact k5 m hlt m1 m2 m3
    · exact m4.1 (by rw [k3, k4])
    · exact m5 k hlt k1 k2 hk
  · exact m k k1 k2 hk

theorem forwardLoop_flat (row : List ℚ) (level : ℚ) (steps xi : Nat) (hs : steps = row.length - 1 - xi) (e : Err)
    (h : forwardLoop row level steps xi = .error e) : e = .zeroDivision ∧ FlatFall row level xi := by
  induction steps generalizing xi with
  | zero => cases h
  | succ steps ih =>
    unfold forwardLoop at h
    split_ifs at h with hc
    · obtain ⟨a, b⟩ := crossing_error _ _ _ _ _ _ h
      have := le_antisymm hc.1 (by rw [b]; exact hc.2)
      exact ⟨a, xi, le_rfl, by omega, this.symm, by rw [← b]; exact this.symm, fun j h1 h2 => by omega⟩
    · obtain ⟨a, k, k1, k2, k3, k4, k5⟩ := ih (xi + 1) (by omega) h
      refine ⟨a, k, by omega, k2, k3, k4, fun j h1 h2 => ?_⟩
      rcases Nat.eq_or_lt_of_le h1 with rfl | h1
      · exact hc
      · exact k5 j h1 h2

theorem updateCrossing_flat (beyond : Option ℚ) (row : List ℚ) (level : ℚ) (xj : Nat) (hx : xj + 1 ≤ row.length) (t : ℚ) (e : Err)
    (h : updateCrossing level (readSample beyond row ((xj : Int) + 1)) (row.getD xj 0) (xj + 1) t = .error e) :
    e = .zeroDivision ∧ t = 0 ∧ FlatRise (withBeyond row beyond) level (xj + 1) := by
  have hr := readSample_withBeyond beyond row (xj + 1) hx
  push_cast at hr
  rw [hr] at h
  have hj := withBeyond_getD beyond row xj (by omega)
  unfold updateCrossing at h
  cases hy : (withBeyond row beyond)[xj + 1]? with
  | none => rw [hy] at h; cases h
  | some yi =>
    rw [hy] at h
    simp only at h
    have hlen : xj + 1 < (withBeyond row beyond).length := (List.getElem?_eq_some_iff.1 hy).1
    have hyi : (withBeyond row beyond).getD (xj + 1) 0 = yi := by rw [List.getD_eq_getElem?_getD, hy]; rfl
    split_ifs at h with hc
    obtain ⟨a, b⟩ := crossing_error _ _ _ _ _ _ h
    have hl : yi = level := le_antisymm (by rw [b]; exact hc.2.1) hc.1
    exact ⟨a, hc.2.2, xj, by omega, hlen, by rw [hj, ← b, hl], by rw [hyi, hl], fun j h1 h2 => by omega⟩

theorem FlatRise.step {full : List ℚ} {level : ℚ} {xj : Nat} {t t' : ℚ}
    (hu : (t ≠ 0 → t' = t) ∧ (t = 0 → (xj + 1 < full.length ∧ Rises full level xj ∧ OnLine full level xj t') ∨
      (t' = 0 ∧ ¬ (xj + 1 < full.length ∧ Rises full level xj))))
    (h0 : t' = 0) (h : FlatRise full level xj) : t = 0 ∧ FlatRise full level (xj + 1) := by
  have ht : t = 0 := by
    by_contra hne
    rw [hu.1 hne] at h0
    exact hne h0
  obtain ⟨k, k1, k2, k3, k4, k5⟩ := h
  refine ⟨ht, k, by omega, k2, k3, k4, fun j h1 h2 h3 => ?_⟩
  by_cases hj : j = xj
  · subst hj
    rcases hu.2 ht with ⟨-, -, h⟩ | ⟨-, h⟩
    · exfalso
      have := h.2.1
      rw [h0] at this
      have : j = 0 := by exact_mod_cast le_antisymm (by exact_mod_cast this) (Nat.zero_le j)
      omega
    · exact fun hr => h ⟨h3, hr⟩
  · exact k5 j h1 (by omega) h3

theorem backwardLoop_flat (beyond : Option ℚ) (row : List ℚ) (half p90 p10 : ℚ) (xi : Nat) (hx : xi ≤ row.length) (l a b : ℚ) (e : Err)
    (h : backwardLoop beyond row half p90 p10 xi (l, a, b) = .error e) :
    e = .zeroDivision ∧ ((l = 0 ∧ FlatRise (withBeyond row beyond) half xi) ∨ (a = 0 ∧ FlatRise (withBeyond row beyond) p90 xi) ∨
      (b = 0 ∧ FlatRise (withBeyond row beyond) p10 xi)) := by
  induction xi generalizing l a b with
  | zero => cases h
  | succ xj ih =>
    unfold backwardLoop at h
    simp only at h
    cases h1 : updateCrossing half (readSample beyond row ((xj : Int) + 1)) (row.getD xj 0) (xj + 1) l with
    | error e' =>
      rw [h1] at h; cases h
      obtain ⟨i1, i2⟩ := updateCrossing_flat _ _ _ _ hx _ _ h1
      exact ⟨i1, Or.inl i2⟩
    | ok l1 =>
      rw [h1] at h
      simp only at h
      cases h2 : updateCrossing p90 (readSample beyond row ((xj : Int) + 1)) (row.getD xj 0) (xj + 1) a with
      | error e' =>
        rw [h2] at h; cases h
        obtain ⟨i1, i2⟩ := updateCrossing_flat _ _ _ _ hx _ _ h2
        exact ⟨i1, Or.inr (Or.inl i2)⟩
      | ok a1 =>
        rw [h2] at h
        simp only at h
        cases h3 : updateCrossing p10 (readSample beyond row ((xj : Int) + 1)) (row.getD xj 0) (xj + 1) b with
        | error e' =>
          rw [h3] at h; cases h
          obtain ⟨i1, i2⟩ := updateCrossing_flat _ _ _ _ hx _ _ h3
          exact ⟨i1, Or.inr (Or.inr i2)⟩
        | ok b1 =>
          rw [h3] at h
          simp only at h
          have u1 := updateCrossing_spec beyond row half xj hx l l1 h1
          have u2 := updateCrossing_spec beyond row p90 xj hx a a1 h2
          have u3 := updateCrossing_spec beyond row p10 xj hx b b1 h3
          split_ifs at h
          obtain ⟨i1, i2⟩ := ih (by omega) l1 a1 b1 h
          refine ⟨i1, ?_⟩
          rcases i2 with ⟨z, f⟩ | ⟨z, f⟩ | ⟨z, f⟩
          · exact Or.inl (f.step u1 z)
          · exact Or.inr (Or.inl (f.step u2 z))
          · exact Or.inr (Or.inr (f.step u3 z))

/-- the pulse cannot be measured: at one of the crossings around sample `i` the waveform stays at the level for two samples -/
def FlatCrossing (row : List ℚ) (beyond : Option ℚ) (h : ℚ) (i : Nat) : Prop :=
  FlatFall row (startLevel row + h / 2) i ∨ FlatRise (withBeyond row beyond) (startLevel row + h / 2) i ∨
  FlatRise (withBeyond row beyond) (startLevel row + 9 / 10 * h) i ∨ FlatRise (withBeyond row beyond) (startLevel row + 1 / 10 * h) i

theorem RoundsTo.unique {x : ℚ} {i j : Nat} (hi : RoundsTo x i) (hj : RoundsTo x j) : i = j := by
  by_contra hne
  wlog hlt : i < j generalizing i j
  · exact this hj hi (Ne.symm hne) (by omega)
  have h1 := abs_le.1 hi.1
  have h2 := abs_le.1 hj.1
  have h3 : (i : ℚ) + 1 ≤ j := by exact_mod_cast hlt
  have e : j = i + 1 := by
    have : (j : ℚ) ≤ i + 1 := by linarith [h1.2, h2.1]
    have : j ≤ i + 1 := by exact_mod_cast this
    omega
  subst e
  push_cast at h2
  have a1 : |x - i| = 1 / 2 := by
    rw [abs_of_nonneg (by linarith [h2.1])]
    linarith [h1.2, h2.1]
  have a2 : |x - ((i + 1 : ℕ) : ℚ)| = 1 / 2 := by
    push_cast
    rw [abs_of_nonpos (by linarith [h1.2])]
    linarith [h1.2, h2.1]
  have := hi.2 a1
  have := hj.2 a2
  omega

theorem roundsTo_roundEven (t : ℚ) (h0 : 0 ≤ roundEven t) : RoundsTo t (roundEven t).toNat := by
  have e : (((roundEven t).toNat : Nat) : ℚ) = ((roundEven t : Int) : ℚ) := by
    have : (((roundEven t).toNat : Nat) : Int) = roundEven t := Int.toNat_of_nonneg h0
    exact_mod_cast congrArg (Int.cast : Int → ℚ) this
  unfold RoundsTo
  simp only [e]
  refine ⟨roundEven_near t, fun hh => ?_⟩
  have := roundEven_tie t hh
  omega

theorem pulseShape_exact (beyond : Option ℚ) (row : List ℚ) (h t : ℚ) (ht : 0 ≤ t ∧ t < row.length) (i : Nat) (hi : RoundsTo t i) :
    (FlatCrossing row beyond h i → pulseShape beyond row (startLevel row) h t = .error .zeroDivision) ∧
    (¬ FlatCrossing row beyond h i → ∃ p, pulseShape beyond row (startLevel row) h t = .ok p) := by
  obtain ⟨r0, r1⟩ := roundEven_bounds t row.length ht.1 ht.2
  have e := hi.unique (roundsTo_roundEven t r0)
  subst e
  have herr : ∀ e, pulseShape beyond row (startLevel row) h t = .error e → e = .zeroDivision ∧ FlatCrossing row beyond h (roundEven t).toNat := by
    intro e hp
    unfold pulseShape at hp
    simp only at hp
    cases h1 : forwardLoop row (startLevel row + h / 2) (row.length - 1 - (roundEven t).toNat) (roundEven t).toNat with
    | error e' =>
      rw [h1] at hp
      cases hp
      obtain ⟨a, b⟩ := forwardLoop_flat _ _ _ _ rfl _ h1
      exact ⟨a, Or.inl b⟩
    | ok r =>
      rw [h1] at hp
      simp only at hp
      cases h2 : backwardLoop beyond row (startLevel row + h / 2) (startLevel row + 9 / 10 * h) (startLevel row + 1 / 10 * h) (roundEven t).toNat (0, 0, 0) with
      | error e' =>
        rw [h2] at hp
        cases hp
        obtain ⟨a, b⟩ := backwardLoop_flat _ _ _ _ _ _ (by omega) _ _ _ _ h2
        refine ⟨a, Or.inr ?_⟩
        rcases b with b | b | b
        · exact Or.inl b.2
        · exact Or.inr (Or.inl b.2)
        · exact Or.inr (Or.inr b.2)
      | ok s => rw [h2] at hp; cases hp
  cases hp : pulseShape beyond row (startLevel row) h t with
  | error e =>
    obtain ⟨rfl, hf⟩ := herr e hp
    exact ⟨fun _ => rfl, fun hn => absurd hf hn⟩
  | ok p =>
    refine ⟨fun hf => ?_, fun _ => ⟨p, rfl⟩⟩
    exfalso
    unfold pulseShape at hp
    simp only at hp
    cases h1 : forwardLoop row (startLevel row + h / 2) (row.length - 1 - (roundEven t).toNat) (roundEven t).toNat with
    | error e => rw [h1] at hp; cases hp
    | ok r =>
      rw [h1] at hp
      simp only at hp
      cases h2 : backwardLoop beyond row (startLevel row + h / 2) (startLevel row + 9 / 10 * h) (startLevel row + 1 / 10 * h) (roundEven t).toNat (0, 0, 0) with
      | error e => rw [h2] at hp; cases hp
      | ok s =>
        obtain ⟨l, a, b⟩ := s
        obtain ⟨⟨-, b1⟩, ⟨-, b2⟩, -, b3⟩ := backwardLoop_spec beyond row _ _ _ _ (by omega) _ _ _ _ _ _ h2
        rcases hf with hf | hf | hf | hf
        · exact hf.no_crossing _ (forwardLoop_spec row _ _ _ rfl r h1)
        · exact hf.no_crossing _ (b1 rfl)
        · exact hf.no_crossing _ (b2 rfl)
        · exact hf.no_crossing _ (b3 rfl)

/-- the vertex of the parabola through the samples `m - 1`, `m`, `m + 1` is at time `t` and value `v` -/
def Vertex (row : List ℚ) (m : Nat) (t v : ℚ) : Prop :=
  ∃ c, c ≠ 0 ∧ row.getD (m - 1) 0 = v + c * (m - 1 - t) ^ 2 ∧ row.getD m 0 = v + c * (m - t) ^ 2 ∧ row.getD (m + 1) 0 = v + c * (m + 1 - t) ^ 2

/-- a pixel whose pulse cannot be measured: the parabola through its largest sample among the 8 from `s` on and the neighbours of that sample has a
vertex within the waveform, and one of the crossings around the sample nearest to the vertex is flat -/
def FlatPulse (row : List ℚ) (beyond : Option ℚ) (s : Nat) : Prop :=
  ∃ k t v i, FirstMax 8 (fun j => row.getD (s + j) 0) k ∧ Vertex row (s + k) t v ∧ 0 ≤ t ∧ t < row.length ∧ RoundsTo t i ∧
    FlatCrossing row beyond (v - startLevel row) i

theorem firstMax_unique {n : Nat} {f : Nat → ℚ} {p q : Nat} (hp : FirstMax n f p) (hq : FirstMax n f q) : p = q := by
  rcases Nat.lt_trichotomy p q with h | h | h
  · exact absurd (hq.2.2 p h) (not_lt.2 (hp.2.1 q hq.1))
  · exact h
  · exact absurd (hp.2.2 q h) (not_lt.2 (hq.2.1 p hp.1))

theorem Vertex.values {row : List ℚ} {m : Nat} {t v : ℚ} (h : Vertex row m t v) :
    row.getD (m - 1) 0 - 2 * row.getD m 0 + row.getD (m + 1) 0 ≠ 0 ∧
    t = (1 / 2) * (row.getD (m - 1) 0 - row.getD (m + 1) 0) / (row.getD (m - 1) 0 - 2 * row.getD m 0 + row.getD (m + 1) 0) + m ∧
    v = row.getD m 0 - (1 / 4) * (row.getD (m - 1) 0 - row.getD (m + 1) 0) *
      ((1 / 2) * (row.getD (m - 1) 0 - row.getD (m + 1) 0) / (row.getD (m - 1) 0 - 2 * row.getD m 0 + row.getD (m + 1) 0)) := by
  obtain ⟨c, c0, e0, e1, e2⟩ := h
  rw [e0, e1, e2]
  have hb : v + c * (m - 1 - t) ^ 2 - 2 * (v + c * (m - t) ^ 2) + (v + c * (m + 1 - t) ^ 2) = 2 * c := by ring
  have ha : v + c * (m - 1 - t) ^ 2 - (v + c * (m + 1 - t) ^ 2) = 4 * c * (t - m) := by ring
  rw [hb, ha]
  have hq : (1 / 2) * (4 * c * (t - m)) / (2 * c) = t - m := by field_simp; ring
  rw [hq]
  exact ⟨by simpa using c0, by ring, by ring⟩

theorem vertex_of (row : List ℚ) (m : Nat) (hb : row.getD (m - 1) 0 - 2 * row.getD m 0 + row.getD (m + 1) 0 ≠ 0) :
    Vertex row m ((1 / 2) * (row.getD (m - 1) 0 - row.getD (m + 1) 0) / (row.getD (m - 1) 0 - 2 * row.getD m 0 + row.getD (m + 1) 0) + m)
      (row.getD m 0 - (1 / 4) * (row.getD (m - 1) 0 - row.getD (m + 1) 0) *
        ((1 / 2) * (row.getD (m - 1) 0 - row.getD (m + 1) 0) / (row.getD (m - 1) 0 - 2 * row.getD m 0 + row.getD (m + 1) 0))) := by
  refine ⟨(row.getD (m - 1) 0 - 2 * row.getD m 0 + row.getD (m + 1) 0) / 2, by simpa using hb, ?_, ?_, ?_⟩
  all_goals
    generalize row.getD (m - 1) 0 = y0 at *
    generalize row.getD m 0 = y1 at *
    generalize row.getD (m + 1) 0 = y2 at *
    obtain ⟨b, hb'⟩ : ∃ b, b = y0 - 2 * y1 + y2 := ⟨_, rfl⟩
    rw [← hb'] at hb ⊢
    have hy : y1 = (y0 + y2 - b) / 2 := by rw [hb']; ring
    rw [hy]
    field_simp
    ring

theorem pixelTiming_exact (beyond : Option ℚ) (row : List ℚ) (s : Nat) (hs : 0 < s) (hl : s + 8 < row.length) :
    (FlatPulse row beyond s → pixelTiming beyond row s ((s + 8 : Nat) : Int) = .error .zeroDivision) ∧
    (¬ FlatPulse row beyond s → ∃ p, pixelTiming beyond row s ((s + 8 : Nat) : Int) = .ok p) := by
  have get : ∀ i < 8, ((row.drop s).take 8)[i]? = some (row.getD (s + i) 0) := by
    intro i hi
    rw [List.getElem?_take, if_pos hi, List.getElem?_drop, List.getD_eq_getElem?_getD, List.getElem?_eq_getElem (by omega)]
    rfl
  have hne : (row.drop s).take 8 ≠ [] := by
    intro he
    have := congrArg List.length he
    simp at this
    omega
  obtain ⟨k, hk, -⟩ := argmax_ok _ hne
  have hm : FirstMax 8 (fun j => row.getD (s + j) 0) k := by
    obtain ⟨m, m1, m2, m3⟩ := argmax_spec _ _ hk
    have hkl : k < 8 := by
      have := (List.getElem?_eq_some_iff.1 m1).1
      rw [List.length_take] at this
      omega
    rw [get k hkl, Option.some.injEq] at m1
    refine ⟨hkl, fun j hj => ?_, fun j hj => ?_⟩
    · show row.getD (s + j) 0 ≤ row.getD (s + k) 0
      rw [m1]; exact m3 j _ (get j hj)
    · show row.getD (s + j) 0 < row.getD (s + k) 0
      rw [m1]; exact m2 j hj _ (get j (by omega))
  have hkl := hm.1
  have rd : ∀ i : Nat, i < row.length → readSample beyond row (i : Int) = some (row.getD i 0) := by
    intro i hi
    unfold readSample
    simp only [if_neg (show ¬ (i : Int) < 0 by omega)]
    rw [if_pos (by omega)]
    rfl
  have r0 : readSample beyond row ((k : Int) + s - 1) = some (row.getD (s + k - 1) 0) := by
    rw [show (k : Int) + s - 1 = ((s + k - 1 : Nat) : Int) by omega]; exact rd _ (by omega)
  have r1 : readSample beyond row ((k : Int) + s) = some (row.getD (s + k) 0) := by
    rw [show (k : Int) + s = ((s + k : Nat) : Int) by omega]; exact rd _ (by omega)
  have r2 : readSample beyond row ((k : Int) + s + 1) = some (row.getD (s + k + 1) 0) := by
    rw [show (k : Int) + s + 1 = ((s + k + 1 : Nat) : Int) by omega]; exact rd _ (by omega)
  have hpk : (((k : Int) + s : Int) : ℚ) = ((s + k : Nat) : ℚ) := by push_cast; ring
  have e : pixelTiming beyond row s ((s + 8 : Nat) : Int) =
      if row.getD (s + k - 1) 0 - 2 * row.getD (s + k) 0 + row.getD (s + k + 1) 0 = 0 then .ok {}
      else
        let t := (1 / 2) * (row.getD (s + k - 1) 0 - row.getD (s + k + 1) 0) / (row.getD (s + k - 1) 0 - 2 * row.getD (s + k) 0 + row.getD (s + k + 1) 0)
        let h := row.getD (s + k) 0 - (1 / 4) * (row.getD (s + k - 1) 0 - row.getD (s + k + 1) 0) * t
        if 0 ≤ t + ((s + k : Nat) : ℚ) ∧ t + ((s + k : Nat) : ℚ) < row.length then
          pulseShape beyond row (startLevel row) (h - startLevel row) (t + ((s + k : Nat) : ℚ))
        else .ok {} := by
    unfold pixelTiming
    rw [sliceList_nat row s (s + 8) (by omega) (by omega), Nat.add_sub_cancel_left]
    simp only [startLevel_eq, hk, r0, r1, r2, hpk]
  rw [e]
  by_cases hb : row.getD (s + k - 1) 0 - 2 * row.getD (s + k) 0 + row.getD (s + k + 1) 0 = 0
  · rw [if_pos hb]
    refine ⟨?_, fun _ => ⟨_, rfl⟩⟩
    rintro ⟨k', t, v, i, q1, q2, -⟩
    rw [firstMax_unique q1 hm] at q2
    exact absurd hb q2.values.1
  · rw [if_neg hb]
    simp only
    have hv := vertex_of row (s + k) hb
    have hu : ∀ t v, Vertex row (s + k) t v → _ := fun t v h => h.values.2
    obtain ⟨tt, htt⟩ : ∃ tt, tt = (1 / 2) * (row.getD (s + k - 1) 0 - row.getD (s + k + 1) 0) /
      (row.getD (s + k - 1) 0 - 2 * row.getD (s + k) 0 + row.getD (s + k + 1) 0) := ⟨_, rfl⟩
    rw [← htt] at hv ⊢
    simp only [← htt] at hu
    obtain ⟨w, hw⟩ : ∃ w, w = row.getD (s + k) 0 - (1 / 4) * (row.getD (s + k - 1) 0 - row.getD (s + k + 1) 0) * tt := ⟨_, rfl⟩
    rw [← hw] at hv ⊢
    simp only [← hw] at hu
    clear e htt hw
    obtain ⟨T, hT⟩ : ∃ T, T = tt + ((s + k : Nat) : ℚ) := ⟨_, rfl⟩
    rw [← hT] at hv ⊢
    simp only [← hT] at hu
    split_ifs with ht
    · obtain ⟨i, hi⟩ : ∃ i, RoundsTo T i := ⟨_, roundsTo_roundEven _ (roundEven_bounds _ row.length ht.1 ht.2).1⟩
      obtain ⟨p1, p2⟩ := pulseShape_exact beyond row (w - startLevel row) T ht i hi
      refine ⟨?_, fun hn => p2 fun hf => hn ⟨k, T, w, i, hm, hv, ht.1, ht.2, hi, hf⟩⟩
      rintro ⟨k', t, v, i', q1, q2, q3, q4, q5, q6⟩
      rw [firstMax_unique q1 hm] at q2
      obtain ⟨u1, u2⟩ := hu t v q2
      rw [u1] at q5
      rw [u2, q5.unique hi] at q6
      exact p1 q6
    · refine ⟨?_, fun _ => ⟨_, rfl⟩⟩
      rintro ⟨k', t, v, i', q1, q2, q3, q4, q5, q6⟩
      rw [firstMax_unique q1 hm] at q2
      obtain ⟨u1, u2⟩ := hu t v q2
      rw [u1] at q3 q4
      exact absurd ⟨q3, q4⟩ ht

/-- C75, exactly (missing from C75: these events fail): for the default settings and at least 20 samples the reducer fails for exactly the events
with a pixel whose pulse cannot be measured, always with `ZeroDivisionError`: the parabola around the pixel's largest sample within 4 samples of
the event time has its vertex inside the waveform, and the first fall through half the height after it, or the last rise through 50 %, 90 % or
10 % of the height before it, consists of two equal samples. -/
theorem C75_exactly_partial (kwargs : Config Setting) (h1 : Dict.get? kwargs "t_extract" = none) (h2 : Dict.get? kwargs "window_shift" = none)
    (h3 : Dict.get? kwargs "window_size" = none) (mem : Nat → Option ℚ) (n : Nat) (hn : 20 ≤ n) (ws : List (List ℚ)) (hw : Event n ws)
    (p : Nat) (hp : FirstMax n (cameraSum ws) p) :
    ((∃ j r, ws[j]? = some r ∧ FlatPulse r (mem j) (clampedTime n p - 4)) → timingPrepare kwargs mem ws = .error .zeroDivision) ∧
    ((∀ j r, ws[j]? = some r → ¬ FlatPulse r (mem j) (clampedTime n p - 4)) → ∃ ps, timingPrepare kwargs mem ws = .ok (((clampedTime n p : Nat) : Int), ps)) := by
  obtain ⟨p', hp', hdt⟩ := defaultTime_clamped n ws hw hn
  rw [firstMax_unique hp' hp] at hdt
  have hx : extractionTime kwargs "t_extract" ws = .ok ((clampedTime n p : Nat) : Int) := by unfold extractionTime; rw [h1]; exact hdt
  have k1 : kwNumber kwargs "window_shift" 4 = 4 := by unfold kwNumber; rw [h2]
  have k2 : kwNumber kwargs "window_size" 8 = 8 := by unfold kwNumber; rw [h3]
  have hc : 10 ≤ clampedTime n p ∧ clampedTime n p + 10 ≤ n := by unfold clampedTime; omega
  obtain ⟨s, hs⟩ : ∃ s, s = clampedTime n p - 4 := ⟨_, rfl⟩
  have e1 : ((clampedTime n p : Nat) : Int) - 4 = (s : Int) := by omega
  have e2 : (s : Int) + 8 = ((s + 8 : Nat) : Int) := by omega
  unfold timingPrepare
  rw [hx]
  simp only [k1, k2]
  rw [e1, e2, ← hs]
  have key : ∀ (i : Nat) (rs : List (List ℚ)), (∀ r ∈ rs, r.length = n) →
      ((∃ j r, rs[j]? = some r ∧ FlatPulse r (mem (i + j)) s) → pixelTimings mem s ((s + 8 : Nat) : Int) i rs = .error .zeroDivision) ∧
      ((∀ j r, rs[j]? = some r → ¬ FlatPulse r (mem (i + j)) s) → ∃ ps, pixelTimings mem s ((s + 8 : Nat) : Int) i rs = .ok ps) := by
    intro i rs
    induction rs generalizing i with
    | nil => intro _; exact ⟨fun ⟨j, r, h, _⟩ => by simp at h, fun _ => ⟨[], rfl⟩⟩
    | cons r rs ih =>
      intro hlen
      obtain ⟨x1, x2⟩ := pixelTiming_exact (mem i) r s (by omega) (by rw [hlen r (by simp)]; omega)
      obtain ⟨y1, y2⟩ := ih (i + 1) (fun x hx => hlen x (by simp [hx]))
      unfold pixelTimings
      by_cases hf : FlatPulse r (mem i) s
      · rw [x1 hf]
        exact ⟨fun _ => rfl, fun h => absurd hf (h 0 r rfl)⟩
      · obtain ⟨q, hq⟩ := x2 hf
        rw [hq]
        simp only
        constructor
        · rintro ⟨j, r', j1, j2⟩
          cases j with
          | zero => cases Option.some.inj j1; exact absurd j2 hf
          | succ j => rw [y1 ⟨j, r', by simpa using j1, by rw [show i + 1 + j = i + (j + 1) by omega]; exact j2⟩]
        · intro h
          obtain ⟨ps, hps⟩ := y2 fun j r' hj => by
            have := h (j + 1) r' (by simpa using hj)
            rwa [show i + (j + 1) = i + 1 + j by omega] at this
          rw [hps]
          exact ⟨_, rfl⟩
  obtain ⟨z1, z2⟩ := key 0 ws hw.2
  simp only [Nat.zero_add] at z1 z2
  exact ⟨fun h => by rw [z1 h], fun h => by obtain ⟨ps, hps⟩ := z2 h; rw [hps]; exact ⟨_, rfl⟩⟩

/-- the event of `C75_false`: event time 16, so the 8 samples from 12 on are searched; the largest is sample 16, the vertex is at 33/2 with value 2,
and the samples 16 and 17 are both at half of it -/
example : FirstMax 30 (cameraSum [List.replicate 15 0 ++ [-7, 1, 1] ++ List.replicate 12 0]) 16 ∧
    FlatPulse (List.replicate 15 0 ++ [-7, 1, 1] ++ List.replicate 12 0) none (clampedTime 30 16 - 4) := by
  refine ⟨⟨by omega, by decide +kernel, by decide +kernel⟩, 4, 33 / 2, 2, 16, ⟨by omega, by decide +kernel, by decide +kernel⟩,
    ⟨-4, by norm_num, by decide +kernel, by decide +kernel, by decide +kernel⟩, by norm_num, by decide +kernel,
    ⟨by decide +kernel, fun _ => rfl⟩, Or.inl ⟨16, le_rfl, by decide, by decide +kernel, by decide +kernel, fun j h1 h2 => by omega⟩⟩

/-! ## C77: the pulse reported -/

/-- C77, exactly: if the largest sample in the search window has neighbours and the parabola through the three has its vertex inside the waveform, the
pulse time is that of the vertex and the pulse height its height above the mean of the first ten samples. -/
theorem C77_vertex (kwargs : Config Setting) (mem : Nat → Option ℚ) (ws : List (List ℚ)) (t : Int) (ps : List PulseTiming)
    (h : timingPrepare kwargs mem ws = .ok (t, ps)) (j : Nat) (r : List ℚ) (hr : ws[j]? = some r) (a b k : Nat)
    (ha : t - kwNumber kwargs "window_shift" 4 = a) (hb : (a : Int) + kwNumber kwargs "window_size" 8 = b) (hbl : b ≤ r.length)
    (hk : FirstMax (b - a) (fun i => r.getD (a + i) 0) k) (h0 : 0 < a + k) (h1 : a + k + 1 < r.length)
    (T v : ℚ) (hv : Vertex r (a + k) T v) (hT : 0 ≤ T ∧ T < r.length) :
    ∃ p, ps[j]? = some p ∧ p.tPulse = T ∧ p.hPulse = v - startLevel r := by
  obtain ⟨-, -, hg⟩ := timing_get kwargs mem ws t ps h
  obtain ⟨p, e1, e2⟩ := hg j r hr
  refine ⟨p, e1, ?_⟩
  rw [ha, hb] at e2
  unfold pixelTiming at e2
  have hkl := hk.1
  have hslice : argmax (sliceList r (some (a : Int)) (some (b : Int))) = .ok k := by
    rw [sliceList_nat r a b (by omega) hbl]
    have get : ∀ i < b - a, ((r.drop a).take (b - a))[i]? = some (r.getD (a + i) 0) := by
      intro i hi
      rw [List.getElem?_take, if_pos hi, List.getElem?_drop, List.getD_eq_getElem?_getD, List.getElem?_eq_getElem (by omega)]
      rfl
    refine argmax_unique _ k _ (get k hkl) ?_ ?_
    · intro i hi y hy
      rw [get i (by omega), Option.some.injEq] at hy
      rw [← hy]; exact hk.2.2 i hi
    · intro i y hy
      have hi : i < b - a := by
        have := (List.getElem?_eq_some_iff.1 hy).1
        rw [List.length_take] at this
        omega
      rw [get i hi, Option.some.injEq] at hy
      rw [← hy]; exact hk.2.1 i hi
  have rd : ∀ i : Nat, i < r.length → readSample (mem j) r (i : Int) = some (r.getD i 0) := by
    intro i hi
    unfold readSample
    simp only [if_neg (show ¬ (i : Int) < 0 by omega)]
    rw [if_pos (by omega)]
    rfl
  have r0 : readSample (mem j) r ((k : Int) + a - 1) = some (r.getD (a + k - 1) 0) := by
    rw [show (k : Int) + a - 1 = ((a + k - 1 : Nat) : Int) by omega]; exact rd _ (by omega)
  have r1 : readSample (mem j) r ((k : Int) + a) = some (r.getD (a + k) 0) := by
    rw [show (k : Int) + a = ((a + k : Nat) : Int) by omega]; exact rd _ (by omega)
  have r2 : readSample (mem j) r ((k : Int) + a + 1) = some (r.getD (a + k + 1) 0) := by
    rw [show (k : Int) + a + 1 = ((a + k + 1 : Nat) : Int) by omega]; exact rd _ (by omega)
  have hpk : (((k : Int) + a : Int) : ℚ) = ((a + k : Nat) : ℚ) := by push_cast; ring
  obtain ⟨v1, v2, v3⟩ := hv.values
  simp only [startLevel_eq, hslice, r0, r1, r2, hpk] at e2
  rw [if_neg v1, ← v2, ← v3, if_pos hT] at e2
  obtain ⟨-, q1, q2⟩ := pulseShape_spec (mem j) r _ _ hT p e2
  exact ⟨q1, q2⟩

/-- the event of the example for C68: largest sample 16, vertex at 225/14 with value 561/56 -/
example : Vertex (List.replicate 14 0 ++ [2, 6, 10, 7, 3, 1] ++ List.replicate 10 0) (12 + 4) (225 / 14) (561 / 56) :=
  ⟨-7 / 2, by norm_num, by decide +kernel, by decide +kernel, by decide +kernel⟩

/-- C76 for actual pulses (missing: the others): if the largest sample in the search window is above both its neighbours and these differ by at most
8/9 of its height above the mean of the first ten samples, a reported rise time is not negative. -/
theorem C76_pulses_partial (kwargs : Config Setting) (mem : Nat → Option ℚ) (ws : List (List ℚ)) (t : Int) (ps : List PulseTiming)
    (h : timingPrepare kwargs mem ws = .ok (t, ps)) (j : Nat) (r : List ℚ) (hr : ws[j]? = some r) (a b k : Nat)
    (ha : t - kwNumber kwargs "window_shift" 4 = a) (hb : (a : Int) + kwNumber kwargs "window_size" 8 = b) (hbl : b ≤ r.length)
    (hk : FirstMax (b - a) (fun i => r.getD (a + i) 0) k) (h0 : 0 < a + k) (h1 : a + k + 1 < r.length)
    (hl : r.getD (a + k - 1) 0 < r.getD (a + k) 0) (hrr : r.getD (a + k + 1) 0 < r.getD (a + k) 0)
    (hd : |r.getD (a + k - 1) 0 - r.getD (a + k + 1) 0| ≤ 8 / 9 * (r.getD (a + k) 0 - startLevel r))
    (p : PulseTiming) (hp : ps[j]? = some p) (x : ℚ) (hx : p.riseTime = some x) : 0 ≤ x := by
  obtain ⟨p', e1, e2, e3, e4⟩ := C77_peak kwargs mem ws t ps h j r hr a b k ha hb hbl hk h0 h1 hl.le hrr.le (Or.inl hl)
  rw [hp, Option.some.injEq] at e1
  subst e1
  have hD : 0 ≤ r.getD (a + k) 0 - startLevel r := by
    have := (abs_nonneg _).trans hd
    linarith
  refine C76_partial kwargs mem ws t ps h j r hr p hp (hD.trans e3) (fun i hi => ?_) x hx
  -- the pulse time is less than half a sample from the largest sample
  have hneg : r.getD (a + k - 1) 0 - 2 * r.getD (a + k) 0 + r.getD (a + k + 1) 0 < 0 := by linarith
  have hv := vertex_of r (a + k) hneg.ne
  have hlt : |(1 / 2) * (r.getD (a + k - 1) 0 - r.getD (a + k + 1) 0) / (r.getD (a + k - 1) 0 - 2 * r.getD (a + k) 0 + r.getD (a + k + 1) 0)| < 1 / 2 := by
    rw [abs_div, abs_of_neg hneg, div_lt_iff₀ (by linarith), abs_lt]
    constructor <;> linarith
  have hlt' := abs_lt.1 hlt
  have hn1 : ((a + k : Nat) : ℚ) + 1 < r.length := by exact_mod_cast h1
  have hn0 : (1 : ℚ) ≤ ((a + k : Nat) : ℚ) := by exact_mod_cast h0
  obtain ⟨p'', f1, f2, -⟩ := C77_vertex kwargs mem ws t ps h j r hr a b k ha hb hbl hk h0 h1 _ _ hv ⟨by linarith [hlt'.1], by linarith [hlt'.2]⟩
  rw [hp, Option.some.injEq] at f1
  subst f1
  have hi' := abs_le.1 hi
  have g1 : ((i : Nat) : ℚ) < ((a + k : Nat) : ℚ) + 1 := by linarith [hlt'.2, hi'.1]
  have g2 : ((a + k : Nat) : ℚ) < ((i : Nat) : ℚ) + 1 := by linarith [hlt'.1, hi'.2]
  have g3 : i < a + k + 1 := by exact_mod_cast g1
  have g4 : a + k < i + 1 := by exact_mod_cast g2
  have : i = a + k := by omega
  subst this
  exact ⟨by omega, by linarith⟩

/-- the event of the example for C68: the largest sample is 10, its neighbours 6 and 7 -/
example : (6 : ℚ) < 10 ∧ (7 : ℚ) < 10 ∧ |(6 : ℚ) - 7| ≤ 8 / 9 * (10 - startLevel (List.replicate 14 0 ++ [2, 6, 10, 7, 3, 1] ++ List.replicate 10 0)) :=
  ⟨by norm_num, by norm_num, by decide +kernel⟩

end Verif.Props
