import Verif.Model.Calib
import Verif.Spec.Calib
import Mathlib.Tactic.Ring
import Mathlib.Tactic.FieldSimp
import Mathlib.Tactic.NormNum
import Mathlib.Tactic.Linarith

/-! # C46, C71: the SiPM data sheet -/

namespace Verif.Props

open Verif.Py Verif.Model Verif.Spec

/-! ## the interpolation -/

theorem sortTable_increasing (xs : List ℚ) (ys : List (Option ℚ)) (h : xs.Pairwise (· < ·)) :
    sortTable ((xs.map some).zip ys) = (xs.map some).zip ys := by
  unfold sortTable
  refine List.Pairwise.insertionSort_eq ?_
  have h1 : ∀ (l : List (Option ℚ)) (ys : List (Option ℚ)), (l.zip ys).map Prod.fst <+: l := by
    intro l
    induction l with
    | nil => intro ys; simp
    | cons a l ih =>
      intro ys
      cases ys with
      | nil => simp
      | cons y ys => simpa using ih ys
  have h2 : ((xs.map some).zip ys).map Prod.fst |>.Pairwise fun a b => cellLe a b = true := by
    refine List.Pairwise.sublist (h1 _ ys).sublist ?_
    rw [List.pairwise_map]
    exact h.imp fun {a b} hab => by simp [cellLe, le_of_lt hab]
  rw [List.pairwise_map] at h2
  exact h2

/-- with numbers only, the search does not get lost -/
theorem not_lost (v : ℚ) (t : List (Option ℚ × Option ℚ)) (h : ∀ row, t[2]? = some row → row.1 ≠ none) : searchLost v t = false := by
  unfold searchLost
  cases hq : t[2]? with
  | none =>
    have : t.length ≤ 2 := List.getElem?_eq_none_iff.1 hq
    rw [decide_eq_false (by omega)]
    rfl
  | some row =>
    rw [List.getD_eq_getElem?_getD, hq, Option.getD_some]
    cases hr : row.1 with
    | none => exact absurd hr (h row hq)
    | some c => simp

/-- the row that `interpAt` uses -/
theorem interpAt_row (v : ℚ) (xs : List ℚ) (ys : List (Option ℚ)) (k : Nat) (a : ℚ) (hs : xs.Pairwise (· < ·)) (hl : ys.length = xs.length)
    (hk : xs[k]? = some a) (ha : a ≤ v) (hb : ∀ b, xs[k + 1]? = some b → v < b) :
    interpAt v ((xs.map some).zip ys) = match xs[k + 1]? with
      | none => ys.getD k none
      | some b => if v = a then ys.getD k none else match ys.getD k none, ys.getD (k + 1) none with
        | some ya, some yb => some ((yb - ya) / (b - a) * (v - a) + ya)
        | _, _ => none := by
  have key : ∀ (xs : List ℚ) (ys : List (Option ℚ)) (k : Nat) (x : ℚ) (y : Option ℚ), (x :: xs).Pairwise (· < ·) → ys.length = xs.length →
      (x :: xs)[k]? = some a → (∀ b, (x :: xs)[k + 1]? = some b → v < b) →
      interpFrom v x y ((xs.map some).zip ys) = match (x :: xs)[k + 1]? with
        | none => (y :: ys).getD k none
        | some b => if v = a then (y :: ys).getD k none else match (y :: ys).getD k none, (y :: ys).getD (k + 1) none with
          | some ya, some yb => some ((yb - ya) / (b - a) * (v - a) + ya)
          | _, _ => none := by
    intro xs
    induction xs with
    | nil =>
      intro ys k x y _ hl hk _
      have hk0 : k = 0 := by
        by_contra h0
        obtain ⟨j, rfl⟩ := Nat.exists_eq_succ_of_ne_zero h0
        simp at hk
      subst hk0
      simp [interpFrom]
    | cons x2 xs ih =>
      intro ys k x y hs hl hk hb
      cases ys with
      | nil => simp at hl
      | cons y2 ys =>
        cases k with
        | zero =>
          simp only [List.getElem?_cons_zero, Option.some.injEq] at hk
          subst hk
          have hv : v < x2 := hb x2 rfl
          simp only [List.map_cons, List.zip_cons_cons, interpFrom, if_neg (not_le.2 hv)]
          rfl
        | succ k =>
          have hx2 : x2 ≤ v := by
            cases k with
            | zero => simp at hk; rw [hk]; exact ha
            | succ k =>
              have hm : a ∈ xs := List.mem_of_getElem? (by simpa using hk)
              exact le_of_lt (lt_of_lt_of_le ((List.pairwise_cons.1 (List.pairwise_cons.1 hs).2).1 a hm) ha)
          simp only [List.map_cons, List.zip_cons_cons, interpFrom, if_pos hx2]
          have := ih ys k x2 y2 (List.pairwise_cons.1 hs).2 (by simpa using hl) (by simpa using hk)
            (fun b hb' => hb b (by simpa using hb'))
          rw [this]
          simp
  cases xs with
  | nil => simp at hk
  | cons x xs =>
    cases ys with
    | nil => simp at hl
    | cons y ys =>
      have hlost : searchLost v (((x :: xs).map some).zip (y :: ys)) = false := by
        refine not_lost _ _ fun row hrow => ?_
        have : row.1 ∈ (x :: xs).map some := (List.of_mem_zip (List.mem_of_getElem? hrow)).1
        intro h0
        rw [h0] at this
        simp at this
      simp only [List.map_cons, List.zip_cons_cons] at hlost
      simp only [List.map_cons, List.zip_cons_cons, interpAt, hlost, interpStart]
      exact key xs ys k x y hs (by simpa using hl) hk hb

theorem exists_row (xs : List ℚ) (v : ℚ) (h0 : xs ≠ []) (h : InRange xs v) :
    ∃ k a, xs[k]? = some a ∧ a ≤ v ∧ ∀ b, xs[k + 1]? = some b → v < b := by
  obtain ⟨h1, h2⟩ := h
  clear h2
  induction xs with
  | nil => exact absurd rfl h0
  | cons x xs ih =>
    cases xs with
    | nil => exact ⟨0, x, rfl, by simpa using h1, by simp⟩
    | cons x2 xs =>
      by_cases hv : v < x2
      · exact ⟨0, x, rfl, by simpa using h1, by intro b hb; simp at hb; rw [← hb]; exact hv⟩
      · obtain ⟨k, a, e1, e2, e3⟩ := ih (by simp) (by simpa using not_lt.1 hv)
        exact ⟨k + 1, a, by simpa using e1, e2, fun b hb => e3 b (by simpa using hb)⟩

theorem headD_eq (xs : List ℚ) (h : xs ≠ []) : xs.head? = some (xs.headD 0) := by
  cases xs with
  | nil => exact absurd rfl h
  | cons x xs => rfl

theorem getLastD_eq (xs : List ℚ) (h : xs ≠ []) : xs.getLast? = some (xs.getLastD 0) := by
  rw [List.getLast?_eq_some_getLast h, List.getLastD_eq_getLast?, List.getLast?_eq_some_getLast h]
  rfl

theorem zip_ends (xs : List ℚ) (ys : List (Option ℚ)) (h : xs ≠ []) (hl : ys.length = xs.length) :
    ∃ y0 y1, ((xs.map some).zip ys).head? = some (some (xs.headD 0), y0) ∧
      ((xs.map some).zip ys).getLast? = some (some (xs.getLastD 0), y1) := by
  have hy : ys ≠ [] := by rw [← List.length_pos_iff, hl, List.length_pos_iff]; exact h
  refine ⟨ys.head hy, ys.getLast hy, ?_, ?_⟩
  · cases xs with
    | nil => exact absurd rfl h
    | cons x xs => cases ys with
      | nil => exact absurd rfl hy
      | cons y ys => rfl
  · rw [List.getLast?_eq_getElem?, List.getElem?_zip_eq_some, List.length_zip, List.length_map, hl, Nat.min_self]
    refine ⟨?_, ?_⟩
    · rw [List.getElem?_map, ← List.getLast?_eq_getElem?, getLastD_eq xs h]; rfl
    · rw [← hl, ← List.getLast?_eq_getElem?, List.getLast?_eq_some_getLast hy]

theorem interp1d_ok (xs : List ℚ) (ys : List (Option ℚ)) (v : ℚ) (hs : xs.Pairwise (· < ·)) (h0 : xs ≠ []) (hl : ys.length = xs.length)
    (hv : InRange xs v) : interp1d (xs.map some) ys v = .ok (interpAt v ((xs.map some).zip ys)) := by
  obtain ⟨y0, y1, e1, e2⟩ := zip_ends xs ys h0 hl
  unfold interp1d
  rw [if_neg (by simp [hl])]
  simp only [sortTable_increasing xs ys hs, e1, e2, below, above]
  rw [if_neg]
  simp only [Bool.or_eq_true, decide_eq_true_eq, not_or, not_lt]
  exact hv

theorem interp1d_error (xs : List ℚ) (ys : List (Option ℚ)) (v : ℚ) (hs : xs.Pairwise (· < ·)) (h0 : xs ≠ []) (hl : ys.length = xs.length)
    (hv : ¬ InRange xs v) : interp1d (xs.map some) ys v = .error .valueError := by
  obtain ⟨y0, y1, e1, e2⟩ := zip_ends xs ys h0 hl
  unfold interp1d
  rw [if_neg (by simp [hl])]
  simp only [sortTable_increasing xs ys hs, e1, e2, below, above]
  rw [if_pos]
  unfold InRange at hv
  simp only [Bool.or_eq_true, decide_eq_true_eq]
  by_contra hc
  push Not at hc
  exact hv hc

/-! ## the converter -/

theorem convert_asks (df : SipmTable) (q : SipmQuery) (key : String) (v : ℚ) (x : List (Option ℚ)) (h : Asks q key v)
    (hx : df.get? key = some x) : sipmConvert df q = interpColumns x v df := by
  have hi : df.getItem key = .ok x := by unfold Dict.getItem; rw [hx]
  cases h <;> simp [sipmConvert, SipmQuery.values, hi]

theorem interpColumns_ok (x : List (Option ℚ)) (v : ℚ) (cols : SipmTable) (f : List (Option ℚ) → Option ℚ)
    (h : ∀ c ∈ cols, interp1d x c.2 v = .ok (f c.2)) : interpColumns x v cols = .ok (cols.map fun c => (c.1, f c.2)) := by
  induction cols with
  | nil => rfl
  | cons c cols ih =>
    obtain ⟨n, y⟩ := c
    simp only [interpColumns, h (n, y) (by simp), ih fun c hc => h c (by simp [hc]), List.map_cons]

theorem get?_map_snd {α β : Type} (d : Dict String α) (f : α → β) (k : String) :
    Dict.get? (d.map fun c => (c.1, f c.2)) k = (d.get? k).map f := by
  induction d with
  | nil => rfl
  | cons c d ih =>
    obtain ⟨n, y⟩ := c
    simp only [List.map_cons, Dict.get?]
    split
    · rfl
    · exact ih

theorem mem_of_get? {α : Type} (d : Dict String α) (k : String) (v : α) (h : d.get? k = some v) : (k, v) ∈ d := by
  induction d with
  | nil => cases h
  | cons c d ih =>
    obtain ⟨n, y⟩ := c
    simp only [Dict.get?] at h
    split at h
    · rename_i hn
      cases h; subst hn; simp
    · exact List.mem_cons_of_mem _ (ih h)

theorem convert_ok (df : SipmTable) (q : SipmQuery) (key : String) (v : ℚ) (xs : List ℚ) (hq : Asks q key v) (ht : Increasing df key xs)
    (hv : InRange xs v) : sipmConvert df q = .ok (df.map fun c => (c.1, interpAt v ((xs.map some).zip c.2))) := by
  rw [convert_asks df q key v _ hq ht.column]
  exact interpColumns_ok _ _ _ (fun ys => interpAt v ((xs.map some).zip ys)) fun c hc =>
    interp1d_ok xs c.2 v ht.sorted ht.nonempty (ht.regular c hc) hv

/-! ## C46 -/

/-- C46: not exactly one of the four quantities given raises `ValueError`. -/
theorem C46_exactly_one (df : SipmTable) (q : SipmQuery) (h : ∀ key v, ¬ Asks q key v) : sipmConvert df q = .error .valueError := by
  obtain ⟨a, b, c, d⟩ := q
  cases a <;> cases b <;> cases c <;> cases d <;>
    first
    | rfl
    | exact absurd (Asks.vover _) (h _ _)
    | exact absurd (Asks.opct _) (h _ _)
    | exact absurd (Asks.pde _) (h _ _)
    | exact absurd (Asks.gain _) (h _ _)

/-- C46: a value outside the tabulated range raises `ValueError`; inside it succeeds, with one number for each column. -/
theorem C46_range (df : SipmTable) (q : SipmQuery) (key : String) (v : ℚ) (xs : List ℚ) (hq : Asks q key v) (ht : Increasing df key xs) :
    (¬ InRange xs v → sipmConvert df q = .error .valueError) ∧
    (InRange xs v → ∃ r, sipmConvert df q = .ok r ∧ r.map Prod.fst = df.map Prod.fst) := by
  constructor
  · intro hv
    rw [convert_asks df q key v _ hq ht.column]
    cases hdf : df with
    | nil => have := ht.column; rw [hdf] at this; cases this
    | cons c cols =>
      obtain ⟨n, y⟩ := c
      have : interp1d (xs.map some) y v = .error .valueError :=
        interp1d_error xs y v ht.sorted ht.nonempty (ht.regular (n, y) (by rw [hdf]; simp)) hv
      simp only [interpColumns, this]
  · intro hv
    refine ⟨_, convert_ok df q key v xs hq ht hv, ?_⟩
    rw [List.map_map]; rfl

/-- C46: at a tabulated value every column gives its tabulated cell (also a missing one). -/
theorem C46_tabulated (df : SipmTable) (q : SipmQuery) (key : String) (v : ℚ) (xs : List ℚ) (hq : Asks q key v) (ht : Increasing df key xs)
    (k : Nat) (hk : xs[k]? = some v) (name : String) (ys : List (Option ℚ)) (hc : df.get? name = some ys) :
    ∃ r, sipmConvert df q = .ok r ∧ r.get? name = ys[k]? := by
  have hkl := (List.getElem?_eq_some_iff.1 hk).1
  have hle : ∀ i j : Nat, i ≤ j → ∀ a b, xs[i]? = some a → xs[j]? = some b → a ≤ b := by
    intro i j hij a b ha hb
    obtain ⟨hi', rfl⟩ := List.getElem?_eq_some_iff.1 ha
    obtain ⟨hj', rfl⟩ := List.getElem?_eq_some_iff.1 hb
    rcases Nat.lt_or_eq_of_le hij with h | rfl
    · exact le_of_lt (List.pairwise_iff_getElem.1 ht.sorted i j hi' hj' h)
    · exact le_refl _
  have hv : InRange xs v := by
    constructor
    · exact hle 0 k (by omega) _ _ (by rw [← List.head?_eq_getElem?]; exact headD_eq xs ht.nonempty) hk
    · exact hle k (xs.length - 1) (by omega) _ _ hk (by rw [← List.getLast?_eq_getElem?]; exact getLastD_eq xs ht.nonempty)
  refine ⟨_, convert_ok df q key v xs hq ht hv, ?_⟩
  rw [get?_map_snd df (fun ys => interpAt v ((xs.map some).zip ys)), hc]
  have hyl := ht.regular _ (mem_of_get? df name ys hc)
  have hyk : ys[k]? = some (ys.getD k none) := by
    rw [List.getD_eq_getElem?_getD, List.getElem?_eq_getElem (by simpa [hyl] using hkl)]; rfl
  rw [hyk, Option.map_some, interpAt_row v xs ys k v ht.sorted hyl hk (le_refl _) ?_]
  · cases xs[k + 1]? with
    | none => rfl
    | some b => simp
  · intro b hb
    obtain ⟨hi', rfl⟩ := List.getElem?_eq_some_iff.1 hk
    obtain ⟨hj', rfl⟩ := List.getElem?_eq_some_iff.1 hb
    exact List.pairwise_iff_getElem.1 ht.sorted k (k + 1) hi' hj' (by omega)

/-- strictly between two rows -/
theorem convert_between (df : SipmTable) (q : SipmQuery) (key : String) (v : ℚ) (xs : List ℚ) (hq : Asks q key v) (ht : Increasing df key xs)
    (k : Nat) (a b : ℚ) (ha : xs[k]? = some a) (hb : xs[k + 1]? = some b) (h1 : a < v) (h2 : v < b)
    (name : String) (ys : List (Option ℚ)) (hc : df.get? name = some ys) :
    ∃ r, sipmConvert df q = .ok r ∧ r.get? name = some (match ys.getD k none, ys.getD (k + 1) none with
      | some ya, some yb => some ((yb - ya) / (b - a) * (v - a) + ya)
      | _, _ => none) := by
  have hle : ∀ i j : Nat, i ≤ j → ∀ a b, xs[i]? = some a → xs[j]? = some b → a ≤ b := by
    intro i j hij a b ha hb
    obtain ⟨hi', rfl⟩ := List.getElem?_eq_some_iff.1 ha
    obtain ⟨hj', rfl⟩ := List.getElem?_eq_some_iff.1 hb
    rcases Nat.lt_or_eq_of_le hij with h | rfl
    · exact le_of_lt (List.pairwise_iff_getElem.1 ht.sorted i j hi' hj' h)
    · exact le_refl _
  have hkl := (List.getElem?_eq_some_iff.1 hb).1
  have hv : InRange xs v := by
    constructor
    · exact le_trans (hle 0 k (by omega) _ _ (by rw [← List.head?_eq_getElem?]; exact headD_eq xs ht.nonempty) ha) h1.le
    · exact le_trans h2.le (hle (k + 1) (xs.length - 1) (by omega) _ _ hb (by rw [← List.getLast?_eq_getElem?]; exact getLastD_eq xs ht.nonempty))
  refine ⟨_, convert_ok df q key v xs hq ht hv, ?_⟩
  rw [get?_map_snd df (fun ys => interpAt v ((xs.map some).zip ys)), hc]
  have hyl := ht.regular _ (mem_of_get? df name ys hc)
  rw [Option.map_some, interpAt_row v xs ys k a ht.sorted hyl ha h1.le (fun b' hb' => by rw [hb] at hb'; cases hb'; exact h2), hb]
  simp only [if_neg (ne_of_gt h1)]

/-- C46: between two rows every column gives the point on the straight line through its two cells, and NaN if one of them is missing. -/
theorem C46_between (df : SipmTable) (q : SipmQuery) (key : String) (v : ℚ) (xs : List ℚ) (hq : Asks q key v) (ht : Increasing df key xs)
    (k : Nat) (a b : ℚ) (ha : xs[k]? = some a) (hb : xs[k + 1]? = some b) (h1 : a < v) (h2 : v < b)
    (name : String) (ys : List (Option ℚ)) (hc : df.get? name = some ys) :
    ∃ r, sipmConvert df q = .ok r ∧
      (∀ ya yb, ys[k]? = some (some ya) → ys[k + 1]? = some (some yb) →
        ∃ w, r.get? name = some (some w) ∧ (w - ya) * (b - a) = (yb - ya) * (v - a)) ∧
      ((ys[k]? = some none ∨ ys[k + 1]? = some none) → r.get? name = some none) := by
  obtain ⟨r, hr, he⟩ := convert_between df q key v xs hq ht k a b ha hb h1 h2 name ys hc
  refine ⟨r, hr, ?_, ?_⟩
  · intro ya yb hya hyb
    simp only [List.getD_eq_getElem?_getD, hya, hyb, Option.getD_some] at he
    refine ⟨_, he, ?_⟩
    have : b - a ≠ 0 := by linarith
    field_simp
    ring
  · intro hn
    rw [he]
    rcases hn with hn | hn
    · simp [List.getD_eq_getElem?_getD, hn]
    · simp only [List.getD_eq_getElem?_getD, hn, Option.getD_some]
      split <;> simp_all

/-- C46: the converted value of the queried quantity is the query itself. -/
theorem C46_self (df : SipmTable) (q : SipmQuery) (key : String) (v : ℚ) (xs : List ℚ) (hq : Asks q key v) (ht : Increasing df key xs)
    (hv : InRange xs v) : ∃ r, sipmConvert df q = .ok r ∧ r.get? key = some (some v) := by
  obtain ⟨k, a, h1, h2, h3⟩ := exists_row xs v ht.nonempty hv
  rcases eq_or_lt_of_le h2 with rfl | hlt
  · obtain ⟨r, hr, he⟩ := C46_tabulated df q key a xs hq ht k h1 key _ ht.column
    exact ⟨r, hr, by rw [he, List.getElem?_map, h1]; rfl⟩
  · cases hb : xs[k + 1]? with
    | none =>
      exfalso
      have hk := (List.getElem?_eq_some_iff.1 h1).1
      have hk' := List.getElem?_eq_none_iff.1 hb
      have hl : xs.getLast? = some a := by rw [List.getLast?_eq_getElem?, show xs.length - 1 = k by omega]; exact h1
      have := getLastD_eq xs ht.nonempty
      rw [hl] at this
      cases this
      linarith [hv.2]
    | some b =>
      obtain ⟨r, hr, he, -⟩ := C46_between df q key v xs hq ht k a b h1 hb hlt (h3 b hb) key _ ht.column
      obtain ⟨w, hw, e⟩ := he a b (by rw [List.getElem?_map, h1]; rfl) (by rw [List.getElem?_map, hb]; rfl)
      refine ⟨r, hr, ?_⟩
      have hba : b - a ≠ 0 := by linarith [h3 b hb]
      have : w - a = v - a := mul_right_cancel₀ hba (by linarith)
      rw [hw, show w = v by linarith]

/-- C46: converting to another strictly increasing quantity and back returns the value. -/
theorem C46_round_trip (df : SipmTable) (q q' : SipmQuery) (key key' : String) (v w : ℚ) (xs ys : List ℚ) (r : Dict String (Option ℚ))
    (hq : Asks q key v) (ht : Increasing df key xs) (ht' : Increasing df key' ys) (hv : InRange xs v) (hr : sipmConvert df q = .ok r)
    (hw : r.get? key' = some (some w)) (hq' : Asks q' key' w) : ∃ r', sipmConvert df q' = .ok r' ∧ r'.get? key = some (some v) := by
  have hlen : ys.length = xs.length := by
    have := ht.regular _ (mem_of_get? df key' _ ht'.column)
    simpa using this
  obtain ⟨k, a, h1, h2, h3⟩ := exists_row xs v ht.nonempty hv
  have hk := (List.getElem?_eq_some_iff.1 h1).1
  have hyk : ys[k]? = some ys[k] := List.getElem?_eq_getElem (by omega)
  rcases eq_or_lt_of_le h2 with rfl | hlt
  · obtain ⟨r1, hr1, he⟩ := C46_tabulated df q key a xs hq ht k h1 key' _ ht'.column
    rw [hr] at hr1; cases hr1
    rw [List.getElem?_map, hyk, hw] at he
    simp only [Option.map_some, Option.some.injEq] at he
    obtain ⟨r', hr', he'⟩ := C46_tabulated df q' key' w ys hq' ht' k (by rw [hyk, he]) key _ ht.column
    exact ⟨r', hr', by rw [he', List.getElem?_map, h1]; rfl⟩
  · cases hb : xs[k + 1]? with
    | none =>
      exfalso
      have hk' := List.getElem?_eq_none_iff.1 hb
      have hl : xs.getLast? = some a := by rw [List.getLast?_eq_getElem?, show xs.length - 1 = k by omega]; exact h1
      have := getLastD_eq xs ht.nonempty
      rw [hl] at this
      cases this
      linarith [hv.2]
    | some b =>
      have hkb := (List.getElem?_eq_some_iff.1 hb).1
      have hyb : ys[k + 1]? = some ys[k + 1] := List.getElem?_eq_getElem (by omega)
      have hys : ys[k] < ys[k + 1] := List.pairwise_iff_getElem.1 ht'.sorted k (k + 1) (by omega) (by omega) (by omega)
      obtain ⟨r1, hr1, he, -⟩ := C46_between df q key v xs hq ht k a b h1 hb hlt (h3 b hb) key' _ ht'.column
      rw [hr] at hr1; cases hr1
      obtain ⟨w', hw', e⟩ := he ys[k] ys[k + 1] (by rw [List.getElem?_map, hyk]; rfl) (by rw [List.getElem?_map, hyb]; rfl)
      rw [hw] at hw'
      simp only [Option.some.injEq] at hw'
      subst hw'
      have hvb := h3 b hb
      have hba : 0 < b - a := by linarith
      have hw1 : ys[k] < w := by
        have : 0 < (w - ys[k]) * (b - a) := by rw [e]; exact mul_pos (by linarith) (by linarith)
        have := pos_of_mul_pos_left this hba.le
        linarith
      have hw2 : w < ys[k + 1] := by
        have e2 : (ys[k + 1] - w) * (b - a) = (ys[k + 1] - ys[k]) * (b - v) := by linarith
        have : 0 < (ys[k + 1] - w) * (b - a) := by rw [e2]; exact mul_pos (by linarith) (by linarith)
        have := pos_of_mul_pos_left this hba.le
        linarith
      obtain ⟨r', hr', he', -⟩ := C46_between df q' key' w ys hq' ht' k _ _ hyk hyb hw1 hw2 key _ ht.column
      obtain ⟨v', hv', e'⟩ := he' a b (by rw [List.getElem?_map, h1]; rfl) (by rw [List.getElem?_map, hb]; rfl)
      refine ⟨r', hr', ?_⟩
      have hd : ys[k + 1] - ys[k] ≠ 0 := by linarith
      have : v' - a = v - a := mul_right_cancel₀ hd (by linarith)
      rw [hv', show v' = v by linarith]

/-- a table with two increasing columns -/
def sampleTable : SipmTable := [("vover", [some 1, some 2, some 4]), ("gain", [some 10, some 30, some 40])]

example : Increasing sampleTable "vover" [1, 2, 4] ∧ Increasing sampleTable "gain" [10, 30, 40] :=
  ⟨⟨by decide +kernel, by decide +kernel, by simp, by decide +kernel⟩, ⟨by decide +kernel, by decide +kernel, by simp, by decide +kernel⟩⟩

example : sipmConvert sampleTable { vover := some 3 } = .ok [("vover", some 3), ("gain", some 35)] ∧
    sipmConvert sampleTable { gain := some 35 } = .ok [("vover", some 3), ("gain", some 35)] ∧
    sipmConvert sampleTable { gain := some 41 } = .error .valueError := by decide +kernel

/-! ## C71: missing cells -/

/-- C71 is false: with a missing cell in the queried column, as in the shipped data sheet, a value above the tabulated range
gives NaN in every column instead of `ValueError`. -/
theorem C71_false :
    sipmConvert [("vover", [some 1, some 2, some 4]), ("gain", [some 10, some 30, none])] { gain := some 1000 } =
      .ok [("vover", none), ("gain", none)] := by decide +kernel

/-- C71, what holds (missing: values above the range): whatever cells are missing and in whatever order the rows are, a value below
every number of the queried column raises `ValueError`. -/
theorem C71_partial (df : SipmTable) (q : SipmQuery) (key : String) (v : ℚ) (x : List (Option ℚ)) (hq : Asks q key v)
    (hx : df.get? key = some x) (hreg : ∀ c ∈ df, c.2.length = x.length) (hsome : ∃ a, some a ∈ x) (hlow : ∀ a, some a ∈ x → v < a) :
    sipmConvert df q = .error .valueError := by
  rw [convert_asks df q key v _ hq hx]
  cases hdf : df with
  | nil => rw [hdf] at hx; cases hx
  | cons c cols =>
    obtain ⟨n, y⟩ := c
    have hl : y.length = x.length := hreg (n, y) (by rw [hdf]; simp)
    have : interp1d x y v = .error .valueError := by
      unfold interp1d
      rw [if_neg (by simp [hl])]
      have hperm := List.perm_insertionSort (fun a b : Option ℚ × Option ℚ => cellLe a.1 b.1 = true) (x.zip y)
      have htot : Std.Total (fun a b : Option ℚ × Option ℚ => cellLe a.1 b.1 = true) := ⟨by
        rintro ⟨a, _⟩ ⟨b, _⟩
        cases a <;> cases b <;> simp [cellLe, le_total]⟩
      have htr : IsTrans _ (fun a b : Option ℚ × Option ℚ => cellLe a.1 b.1 = true) := ⟨by
        rintro ⟨a, _⟩ ⟨b, _⟩ ⟨c, _⟩
        cases a <;> cases b <;> cases c <;> simp [cellLe]
        exact le_trans⟩
      have hsort := List.pairwise_insertionSort (fun a b : Option ℚ × Option ℚ => cellLe a.1 b.1 = true) (x.zip y)
      change (match (sortTable (x.zip y)).head?, (sortTable (x.zip y)).getLast? with
        | some first, some last => if below v first.1 || above v last.1 then .error .valueError else .ok (interpAt v (sortTable (x.zip y)))
        | _, _ => .error .valueError) = Except.error Err.valueError
      unfold sortTable
      cases ht : (x.zip y).insertionSort (fun a b : Option ℚ × Option ℚ => cellLe a.1 b.1 = true) with
      | nil => rfl
      | cons first rest =>
        rw [ht] at hperm hsort
        obtain ⟨a, ha⟩ := hsome
        obtain ⟨i, hi, hxi⟩ := List.getElem_of_mem ha
        have hmem : (some a, y[i]'(by omega)) ∈ x.zip y := by
          rw [← hxi, ← List.getElem_zip (h := by simp; omega)]
          exact List.getElem_mem _
        have hfirst : ∃ b, first.1 = some b := by
          rcases List.mem_cons.1 (hperm.mem_iff.2 hmem) with h | h
          · exact ⟨a, by rw [← h]⟩
          · have := (List.pairwise_cons.1 hsort).1 _ h
            cases hf : first.1 with
            | none => rw [hf] at this; simp [cellLe] at this
            | some b => exact ⟨b, rfl⟩
        obtain ⟨b, hb⟩ := hfirst
        have hbx : some b ∈ x := by
          have : first ∈ x.zip y := hperm.mem_iff.1 (by simp)
          rw [← hb]
          exact (List.of_mem_zip (a := first.1) (b := first.2) this).1
        have hlast : ∃ l, (first :: rest).getLast? = some l := ⟨_, List.getLast?_eq_some_getLast (by simp)⟩
        obtain ⟨l, hl⟩ := hlast
        rw [hl]
        simp [below, hb, hlow b hbx]
    simp only [interpColumns, this]

/-- gaps at the beginning and at the end of the column, as in the shipped data sheet -/
example : sipmConvert [("vover", [some 1, some 2, some 3, some 4]), ("gain", [none, some 10, some 30, none])] { gain := some 9 } =
    .error .valueError := by decide +kernel

/-- C71, the exact condition: a query of a column with at least one number is rejected exactly if the value is below every number of the column, or above
every number and no cell of the column is missing. The rows may be in any order. -/
theorem C71_exactly_partial (df : SipmTable) (q : SipmQuery) (key : String) (v : ℚ) (x : List (Option ℚ)) (hq : Asks q key v)
    (hx : df.get? key = some x) (hreg : ∀ c ∈ df, c.2.length = x.length) (hsome : ∃ a, some a ∈ x) :
    sipmConvert df q = .error .valueError ↔ (∀ a, some a ∈ x → v < a) ∨ (none ∉ x ∧ ∀ a, some a ∈ x → a < v) := by
  rw [convert_asks df q key v _ hq hx]
  have hany : ∀ y : List (Option ℚ), y.length = x.length →
      ((interp1d x y v = .error .valueError ↔ (∀ a, some a ∈ x → v < a) ∨ (none ∉ x ∧ ∀ a, some a ∈ x → a < v)) ∧
        (interp1d x y v = .error .valueError ∨ ∃ r, interp1d x y v = .ok r)) := by
    intro y hl
    unfold interp1d
    rw [if_neg (by simp [hl])]
    have hperm := List.perm_insertionSort (fun a b : Option ℚ × Option ℚ => cellLe a.1 b.1 = true) (x.zip y)
    have htot : Std.Total (fun a b : Option ℚ × Option ℚ => cellLe a.1 b.1 = true) := ⟨by
      rintro ⟨a, _⟩ ⟨b, _⟩
      cases a <;> cases b <;> simp [cellLe, le_total]⟩
    have htr : IsTrans _ (fun a b : Option ℚ × Option ℚ => cellLe a.1 b.1 = true) := ⟨by
      rintro ⟨a, _⟩ ⟨b, _⟩ ⟨c, _⟩
      cases a <;> cases b <;> cases c <;> simp [cellLe]
      exact le_trans⟩
    have hsort := List.pairwise_insertionSort (fun a b : Option ℚ × Option ℚ => cellLe a.1 b.1 = true) (x.zip y)
    have hmemx : ∀ c, c ∈ x ↔ ∃ e ∈ x.zip y, e.1 = c := by
      intro c
      constructor
      · intro hc
        obtain ⟨i, hi, hxi⟩ := List.getElem_of_mem hc
        refine ⟨(x[i], y[i]'(by omega)), ?_, hxi⟩
        rw [← List.getElem_zip (h := by simp; omega)]
        exact List.getElem_mem _
      · rintro ⟨e, he, rfl⟩
        exact (List.of_mem_zip (a := e.1) (b := e.2) he).1
    change ((match (sortTable (x.zip y)).head?, (sortTable (x.zip y)).getLast? with
      | some first, some last => if below v first.1 || above v last.1 then .error .valueError else .ok (interpAt v (sortTable (x.zip y)))
      | _, _ => .error .valueError) = Except.error Err.valueError ↔ _) ∧ ((match (sortTable (x.zip y)).head?, (sortTable (x.zip y)).getLast? with
      | some first, some last => if below v first.1 || above v last.1 then .error .valueError else .ok (interpAt v (sortTable (x.zip y)))
      | _, _ => .error .valueError) = Except.error Err.valueError ∨ _)
    obtain ⟨t, ht⟩ : ∃ t, t = sortTable (x.zip y) := ⟨_, rfl⟩
    rw [← ht]
    have hmem : ∀ e, e ∈ t ↔ e ∈ x.zip y := by intro e; rw [ht]; exact hperm.mem_iff
    have hs : t.Pairwise (fun a b : Option ℚ × Option ℚ => cellLe a.1 b.1 = true) := by rw [ht]; exact hsort
    obtain ⟨a0, ha0⟩ := hsome
    obtain ⟨e0, he0, hea0⟩ := (hmemx _).1 ha0
    cases hcase : t with
    | nil => rw [hcase] at hmem; exact absurd ((hmem e0).2 he0) (by simp)
    | cons first rest =>
      obtain ⟨l, hl'⟩ : ∃ l, l = (first :: rest).getLast (by simp) := ⟨_, rfl⟩
      have hlast : (first :: rest).getLast? = some l := by rw [hl']; exact List.getLast?_eq_some_getLast (by simp)
      have hlmem : l ∈ t := by rw [hcase, hl']; exact List.getLast_mem _
      have hfirst_le : ∀ e ∈ t, e = first ∨ cellLe first.1 e.1 = true := by
        intro e he
        rw [hcase] at he hs
        rcases List.mem_cons.1 he with h | h
        · exact Or.inl h
        · exact Or.inr ((List.pairwise_cons.1 hs).1 e h)
      have hle_last : ∀ e ∈ t, e = l ∨ cellLe e.1 l.1 = true := by
        intro e he
        have hd : (first :: rest).dropLast ++ [l] = t := by rw [hl', List.dropLast_append_getLast, hcase]
        rw [← hd] at he hs
        rcases List.mem_append.1 he with h | h
        · exact Or.inr ((List.pairwise_append.1 hs).2.2 e h l (by simp))
        · exact Or.inl (by simpa using h)
      rw [hlast]
      simp only [List.head?_cons]
      have hiff : (below v first.1 || above v l.1) = true ↔ (∀ a, some a ∈ x → v < a) ∨ (none ∉ x ∧ ∀ a, some a ∈ x → a < v) := by
        rw [Bool.or_eq_true]
        apply or_congr
        · constructor
          · intro hb a ha
            cases hf : first.1 with
            | none => rw [hf] at hb; simp [below] at hb
            | some b =>
              rw [hf] at hb
              have hb : v < b := by simpa [below] using hb
              obtain ⟨e, he, hea⟩ := (hmemx _).1 ha
              rcases hfirst_le e ((hmem e).2 he) with h | h
              · rw [h, hf] at hea
                rw [← Option.some.inj hea]; exact hb
              · rw [hf, hea] at h
                have : b ≤ a := by simpa [cellLe] using h
                linarith
          · intro h
            cases hf : first.1 with
            | none =>
              rcases hfirst_le e0 ((hmem e0).2 he0) with h' | h'
              · rw [h', hf] at hea0; cases hea0
              · rw [hf, hea0] at h'; simp [cellLe] at h'
            | some b =>
              have hb : some b ∈ x := (hmemx _).2 ⟨first, (hmem _).1 (by rw [hcase]; simp), hf⟩
              simpa [below] using h b hb
        · constructor
          · intro hb
            cases hf : l.1 with
            | none => rw [hf] at hb; simp [above] at hb
            | some b =>
              rw [hf] at hb
              have hb : b < v := by simpa [above] using hb
              refine ⟨fun hn => ?_, fun a ha => ?_⟩
              · obtain ⟨e, he, hea⟩ := (hmemx _).1 hn
                rcases hle_last e ((hmem e).2 he) with h | h
                · rw [h, hf] at hea; cases hea
                · rw [hf, hea] at h; simp [cellLe] at h
              · obtain ⟨e, he, hea⟩ := (hmemx _).1 ha
                rcases hle_last e ((hmem e).2 he) with h | h
                · rw [h, hf] at hea
                  rw [← Option.some.inj hea]; exact hb
                · rw [hf, hea] at h
                  have : a ≤ b := by simpa [cellLe] using h
                  linarith
          · rintro ⟨hn, hall⟩
            cases hf : l.1 with
            | none => exact absurd ((hmemx _).2 ⟨l, (hmem _).1 hlmem, hf⟩) hn
            | some b => simpa [above] using hall b ((hmemx _).2 ⟨l, (hmem _).1 hlmem, hf⟩)
      by_cases hc : (below v first.1 || above v l.1) = true
      · rw [if_pos hc]
        exact ⟨⟨fun _ => hiff.1 hc, fun _ => rfl⟩, Or.inl rfl⟩
      · rw [if_neg hc]
        exact ⟨⟨fun h => by simp at h, fun h => absurd (hiff.2 h) hc⟩, Or.inr ⟨interpAt v (first :: rest), by rw [hlast]; simp only; rw [if_neg hc]⟩⟩
  constructor
  · intro h
    have hcols : ∀ cols : SipmTable, (∀ c ∈ cols, c.2.length = x.length) → interpColumns x v cols = .error .valueError →
        (∀ a, some a ∈ x → v < a) ∨ (none ∉ x ∧ ∀ a, some a ∈ x → a < v) := by
      intro cols
      induction cols with
      | nil => intro _ h; simp [interpColumns] at h
      | cons c cols ih =>
        intro hc h
        obtain ⟨n, y⟩ := c
        obtain ⟨h1, h2⟩ := hany y (hc (n, y) (by simp))
        rcases h2 with h2 | ⟨r, h2⟩
        · exact h1.1 h2
        · refine ih (fun c hc' => hc c (by simp [hc'])) ?_
          rw [interpColumns, h2] at h
          simp only at h
          cases hi : interpColumns x v cols with
          | error e => rw [hi] at h; simpa using h
          | ok r' => rw [hi] at h; simp at h
    exact hcols df hreg h
  · intro h
    cases hdf : df with
    | nil => rw [hdf] at hx; cases hx
    | cons c cols =>
      obtain ⟨n, y⟩ := c
      have hl : y.length = x.length := hreg (n, y) (by rw [hdf]; simp)
      simp only [interpColumns, ((hany y hl).1).2 h]

/-- above the range, with and without a gap -/
example : sipmConvert [("vover", [some 4, some 1, some 2]), ("gain", [none, some 10, some 30])] { gain := some 31 } = .ok [("vover", none), ("gain", none)] ∧
    sipmConvert [("vover", [some 4, some 1, some 2]), ("gain", [none, some 10, some 30])] { vover := some 5 } = .error .valueError := by decide +kernel

/-- C71 for a column without any number, which `C71_exactly_partial` leaves out: no value is rejected, whatever it is; a column gives a number only if this
number is the whole column or stands in two rows in a row. -/
theorem C71_no_number_partial (df : SipmTable) (q : SipmQuery) (key : String) (v : ℚ) (x : List (Option ℚ)) (hq : Asks q key v)
    (hx : df.get? key = some x) (hreg : ∀ c ∈ df, c.2.length = x.length) (hne : x ≠ []) (hnone : ∀ c ∈ x, c = none) :
    ∃ out, sipmConvert df q = .ok out ∧ List.Forall₂ (fun c o => c.1 = o.1 ∧ ∀ w, o.2 = some w →
      c.2 = [some w] ∨ ∃ k : Nat, c.2[k]? = some (some w) ∧ c.2[k + 1]? = some (some w)) df out := by
  rw [convert_asks df q key v _ hq hx]
  have hany : ∀ y : List (Option ℚ), y.length = x.length → ∃ r, interp1d x y v = .ok r ∧ ∀ w, r = some w →
      y = [some w] ∨ ∃ k : Nat, y[k]? = some (some w) ∧ y[k + 1]? = some (some w) := by
    intro y hl
    unfold interp1d
    rw [if_neg (by simp [hl])]
    have hmem : ∀ e ∈ x.zip y, e.1 = none := fun e he => hnone _ (List.of_mem_zip (a := e.1) (b := e.2) he).1
    have hsort : sortTable (x.zip y) = x.zip y := by
      unfold sortTable
      refine List.Pairwise.insertionSort_eq (List.pairwise_iff_getElem.2 fun i j hi hj _ => ?_)
      rw [hmem _ (List.getElem_mem hi), hmem _ (List.getElem_mem hj)]
      rfl
    simp only [hsort]
    have hsnd : (x.zip y).map Prod.snd = y := List.map_snd_zip (by omega)
    have hlen : (x.zip y).length = x.length := by simp [hl]
    obtain ⟨t, ht⟩ : ∃ t, t = x.zip y := ⟨_, rfl⟩
    simp only [← ht] at hmem hsnd hlen ⊢
    subst hsnd
    cases t with
    | nil =>
      cases x with
      | nil => exact absurd rfl hne
      | cons a x => simp at hlen
    | cons first rest =>
      rw [List.getLast?_eq_some_getLast (by simp : first :: rest ≠ [])]
      simp only [List.head?_cons]
      rw [if_neg (by rw [hmem first (by simp), hmem _ (List.getLast_mem _)]; simp [below, above])]
      refine ⟨_, rfl, fun w hw => ?_⟩
      simp only [interpAt] at hw
      split at hw
      · rename_i hlost
        have h4 : 4 < (first :: rest).length := by
          simp only [searchLost, Bool.and_eq_true, decide_eq_true_eq] at hlost
          exact hlost.1.1
        simp only [List.getD_eq_getElem?_getD, List.getElem?_eq_getElem (show 2 < (first :: rest).length by omega),
          List.getElem?_eq_getElem (show 3 < (first :: rest).length by omega), Option.getD_some] at hw
        split at hw
        · rename_i heq
          refine .inr ⟨2, ?_, ?_⟩
          · rw [List.getElem?_map, List.getElem?_eq_getElem (show 2 < (first :: rest).length by omega), Option.map_some, hw]
          · rw [List.getElem?_map, List.getElem?_eq_getElem (show 2 + 1 < (first :: rest).length by omega), Option.map_some, ← heq, hw]
        · cases hw
      · obtain ⟨fx, fy⟩ := first
        have hf : fx = none := hmem (fx, fy) (by simp)
        subst hf
        cases rest with
        | nil =>
          simp only [interpStart] at hw
          exact .inl (by simp [hw])
        | cons b rest =>
          obtain ⟨bx, bY⟩ := b
          simp only [interpStart] at hw
          split at hw
          · rename_i heq
            exact .inr ⟨0, by simp [hw], by simp [← heq, hw]⟩
          · cases hw
  have hcols : ∀ cols : SipmTable, (∀ c ∈ cols, c.2.length = x.length) →
      ∃ out, interpColumns x v cols = .ok out ∧ List.Forall₂ (fun c o => c.1 = o.1 ∧ ∀ w, o.2 = some w →
        c.2 = [some w] ∨ ∃ k : Nat, c.2[k]? = some (some w) ∧ c.2[k + 1]? = some (some w)) cols out := by
    intro cols
    induction cols with
    | nil => intro _; exact ⟨[], rfl, .nil⟩
    | cons c cols ih =>
      intro hc
      obtain ⟨n, y⟩ := c
      obtain ⟨r, hr, hw⟩ := hany y (hc (n, y) (by simp))
      obtain ⟨out, ho, hn⟩ := ih (fun c hc' => hc c (by simp [hc']))
      exact ⟨(n, r) :: out, by simp only [interpColumns, hr, ho], .cons ⟨rfl, hw⟩ hn⟩
  exact hcols df hreg

/-- a column measured nowhere, beside one that changes and one that does not -/
example : sipmConvert [("vover", [some 1, some 2]), ("gain", [some 7, some 7]), ("pde", [none, none])] { pde := some 1000 } =
    .ok [("vover", none), ("gain", some 7), ("pde", none)] := by decide +kernel

end Verif.Props
