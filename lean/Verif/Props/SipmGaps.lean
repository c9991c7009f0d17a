import Verif.Props.Sipm
import Mathlib.Tactic.LinearCombination

/-!
# C163: the data sheet with its gaps

In the shipped table (`calib/data/sipm_data_sheet.csv`) the gain was measured neither at the lowest nor at the highest voltages. A query by gain is answered by the rows that have one.
-/

namespace Verif.Props

open Verif.Py Verif.Model Verif.Spec

/-! ### the sorted table -/

theorem interpFrom_skip (v : ℚ) (pre : List (Option ℚ × Option ℚ)) (hpre : ∀ row ∈ pre, ∃ c, row.1 = some c ∧ c ≤ v) (a : ℚ) (ha : a ≤ v) (ya : Option ℚ)
    (rest : List (Option ℚ × Option ℚ)) : ∀ x y, interpFrom v x y (pre ++ (some a, ya) :: rest) = interpFrom v a ya rest := by
  induction pre with
  | nil =>
    intro x y
    simp only [List.nil_append, interpFrom, if_pos ha]
  | cons row pre ih =>
    intro x y
    obtain ⟨c, hc, hcv⟩ := hpre row (by simp)
    obtain ⟨rx, ry⟩ := row
    simp only at hc
    subst hc
    simp only [List.cons_append, interpFrom, if_pos hcv]
    exact ih (fun r hr => hpre r (by simp [hr])) c ry

/-- a sorted table around a row with a number -/
structure Around (t pre rest : List (Option ℚ × Option ℚ)) (a : ℚ) (ya : Option ℚ) : Prop where
  table : t = pre ++ (some a, ya) :: rest
  smaller : ∀ row ∈ pre, ∃ c, row.1 = some c ∧ c < a
  larger : ∀ row ∈ rest, ∀ c, row.1 = some c → a < c
  sorted : rest.Pairwise fun r r' => cellLe r.1 r'.1 = true

theorem sorted_around (x : List (Option ℚ)) (y : List (Option ℚ)) (hl : y.length = x.length) (hd : (x.filterMap id).Nodup) (i : Nat) (a : ℚ) (ya : Option ℚ)
    (hi : x[i]? = some (some a)) (hy : y[i]? = some ya) : ∃ pre rest, Around (sortTable (x.zip y)) pre rest a ya := by
  have hperm := List.perm_insertionSort (fun r r' : Option ℚ × Option ℚ => cellLe r.1 r'.1 = true) (x.zip y)
  have htot : Std.Total (fun a b : Option ℚ × Option ℚ => cellLe a.1 b.1 = true) := ⟨by
    rintro ⟨a, _⟩ ⟨b, _⟩
    cases a <;> cases b <;> simp [cellLe, le_total]⟩
  have htr : IsTrans _ (fun a b : Option ℚ × Option ℚ => cellLe a.1 b.1 = true) := ⟨by
    rintro ⟨a, _⟩ ⟨b, _⟩ ⟨c, _⟩
    cases a <;> cases b <;> cases c <;> simp [cellLe]
    exact le_trans⟩
  have hsort := List.pairwise_insertionSort (fun r r' : Option ℚ × Option ℚ => cellLe r.1 r'.1 = true) (x.zip y)
  change (sortTable (x.zip y)).Perm _ at hperm
  change (sortTable (x.zip y)).Pairwise _ at hsort
  have hmem : (some a, ya) ∈ sortTable (x.zip y) := hperm.mem_iff.2 (by
    refine List.mem_of_getElem? (i := i) ?_
    rw [List.getElem?_zip_eq_some]
    exact ⟨hi, hy⟩)
  have hnd : ((sortTable (x.zip y)).filterMap Prod.fst).Nodup := by
    have h1 := hperm.filterMap Prod.fst
    have h2 : (x.zip y).filterMap Prod.fst = x.filterMap id := by
      have : (x.zip y).map Prod.fst = x := List.map_fst_zip (by omega)
      conv_rhs => rw [← this]
      rw [List.filterMap_map]
      rfl
    rw [h2] at h1
    exact h1.nodup_iff.2 hd
  generalize sortTable (x.zip y) = t at hmem hsort hnd
  obtain ⟨pre, rest, rfl⟩ := List.append_of_mem hmem
  rw [List.pairwise_append] at hsort
  obtain ⟨-, s2, s3⟩ := hsort
  rw [List.pairwise_cons] at s2
  simp only [List.filterMap_append, List.filterMap_cons] at hnd
  rw [List.nodup_append, List.nodup_cons] at hnd
  obtain ⟨-, ⟨n1, -⟩, n2⟩ := hnd
  refine ⟨pre, rest, rfl, fun row hrow => ?_, fun row hrow c hc => ?_, s2.2⟩
  · have := s3 row hrow (some a, ya) (by simp)
    cases hr : row.1 with
    | none => rw [hr] at this; simp [cellLe] at this
    | some c =>
      rw [hr] at this
      refine ⟨c, rfl, lt_of_le_of_ne (by simpa [cellLe] using this) ?_⟩
      rintro rfl
      exact n2 c (List.mem_filterMap.2 ⟨row, hrow, hr⟩) c (by simp) rfl
  · have := s2.1 row hrow
    rw [hc] at this
    refine lt_of_le_of_ne (by simpa [cellLe] using this) ?_
    rintro rfl
    exact n1 (List.mem_filterMap.2 ⟨row, hrow, hc⟩)

/-- the first row of the table and the range check -/
theorem around_start (v : ℚ) (t pre rest : List (Option ℚ × Option ℚ)) (a : ℚ) (ya : Option ℚ) (h : Around t pre rest a ya) (hv : a ≤ v)
    (hlost : searchLost v t = false) : (∃ first, t.head? = some first ∧ below v first.1 = false) ∧ interpAt v t = interpFrom v a ya rest := by
  rw [h.table] at hlost ⊢
  cases hp : pre with
  | nil =>
    rw [hp] at hlost
    simp only [List.nil_append] at hlost ⊢
    refine ⟨⟨_, rfl, by simp [below, hv]⟩, ?_⟩
    simp only [interpAt, hlost, interpStart, Bool.false_eq_true, if_false]
  | cons row pre' =>
    have hsm := h.smaller
    rw [hp] at hlost hsm
    obtain ⟨c, hc, hca⟩ := hsm row (by simp)
    obtain ⟨rx, ry⟩ := row
    simp only at hc
    subst hc
    simp only [List.cons_append] at hlost ⊢
    refine ⟨⟨_, rfl, by simp only [below, decide_eq_false_iff_not, not_lt]; linarith⟩, ?_⟩
    simp only [interpAt, hlost, interpStart, Bool.false_eq_true, if_false]
    exact interpFrom_skip v pre' (fun r hr => by
      obtain ⟨d, hd, hda⟩ := hsm r (by simp [hr])
      exact ⟨d, hd, by linarith⟩) a hv ya rest c ry

/-! ### conversions -/

/-- the cells of the queried column: distinct numbers and gaps, and as many cells in every other column -/
structure Measured (df : SipmTable) (key : String) (x : List (Option ℚ)) : Prop where
  column : df.get? key = some x
  distinct : (x.filterMap id).Nodup
  regular : ∀ c ∈ df, c.2.length = x.length

/-- one column of the result -/
theorem convert_columns (df : SipmTable) (q : SipmQuery) (key : String) (v : ℚ) (x : List (Option ℚ)) (hq : Asks q key v) (hm : Measured df key x)
    (h : ∀ y, y.length = x.length → interp1d x y v = .ok (interpAt v (sortTable (x.zip y)))) :
    ∃ r, sipmConvert df q = .ok r ∧ ∀ name ys, df.get? name = some ys → r.get? name = some (interpAt v (sortTable (x.zip ys))) := by
  refine ⟨_, by rw [convert_asks df q key v x hq hm.column]; exact interpColumns_ok x v df (fun y => interpAt v (sortTable (x.zip y))) fun c hc => h c.2 (hm.regular c hc), ?_⟩
  intro name ys hn
  rw [get?_map_snd df (fun y => interpAt v (sortTable (x.zip y))), hn]
  rfl

/-- the answer of `interp1d` once the value is in range -/
theorem interp1d_in (x y : List (Option ℚ)) (v : ℚ) (hl : y.length = x.length) (first last : Option ℚ × Option ℚ) (hf : (sortTable (x.zip y)).head? = some first)
    (hla : (sortTable (x.zip y)).getLast? = some last) (h1 : below v first.1 = false) (h2 : above v last.1 = false) :
    interp1d x y v = .ok (interpAt v (sortTable (x.zip y))) := by
  unfold interp1d
  rw [if_neg (by simp [hl])]
  simp only [hf, hla, h1, h2]
  rfl

/-- C163: between two measured values of the queried quantity, with no measured value between them, every column gives the point on the straight line through its
cells of those two rows, and NaN if one of them is missing. Rows without a value of the queried quantity do not matter, and neither does the order of the rows. -/
theorem C163_between (df : SipmTable) (q : SipmQuery) (key : String) (v : ℚ) (x : List (Option ℚ)) (hq : Asks q key v) (hm : Measured df key x)
    (i j : Nat) (a b : ℚ) (hi : x[i]? = some (some a)) (hj : x[j]? = some (some b)) (h1 : a < v) (h2 : v < b) (hgap : ∀ c, some c ∈ x → c ≤ a ∨ b ≤ c) :
    ∃ r, sipmConvert df q = .ok r ∧ ∀ name ys, df.get? name = some ys →
      (∀ ya yb, ys[i]? = some (some ya) → ys[j]? = some (some yb) → ∃ w, r.get? name = some (some w) ∧ (w - ya) * (b - a) = (yb - ya) * (v - a)) ∧
      ((ys[i]? = some none ∨ ys[j]? = some none) → r.get? name = some none) := by
  have key : ∀ y : List (Option ℚ), y.length = x.length → ∃ ya yb first last, y[i]? = some ya ∧ y[j]? = some yb ∧
      (sortTable (x.zip y)).head? = some first ∧ (sortTable (x.zip y)).getLast? = some last ∧ below v first.1 = false ∧ above v last.1 = false ∧
      interpAt v (sortTable (x.zip y)) = (match ya, yb with
        | some ya, some yb => some ((yb - ya) / (b - a) * (v - a) + ya)
        | _, _ => none) := by
    intro y hl
    have hil := (List.getElem?_eq_some_iff.1 hi).1
    have hjl := (List.getElem?_eq_some_iff.1 hj).1
    have hya : y[i]? = some y[i] := List.getElem?_eq_getElem (by omega)
    have hyb : y[j]? = some y[j] := List.getElem?_eq_getElem (by omega)
    obtain ⟨pre, rest, har⟩ := sorted_around x y hl hm.distinct i a y[i] hi hya
    have hperm := List.perm_insertionSort (fun r r' : Option ℚ × Option ℚ => cellLe r.1 r'.1 = true) (x.zip y)
    change (sortTable (x.zip y)).Perm _ at hperm
    have hbm : (some b, y[j]) ∈ sortTable (x.zip y) := hperm.mem_iff.2 (List.mem_of_getElem? (i := j) (by rw [List.getElem?_zip_eq_some]; exact ⟨hj, hyb⟩))
    have hrow : ∀ row ∈ sortTable (x.zip y), ∀ c, row.1 = some c → some c ∈ x := fun row hr c hc => hc ▸ (List.of_mem_zip (hperm.mem_iff.1 hr)).1
    have hbr : (some b, y[j]) ∈ rest := by
      rw [har.table] at hbm
      rcases List.mem_append.1 hbm with h | h
      · obtain ⟨c, hc, hca⟩ := har.smaller _ h
        obtain rfl := Option.some.inj hc
        linarith
      · rcases List.mem_cons.1 h with h | h
        · have := Option.some.inj (congrArg Prod.fst h)
          linarith
        · exact h
    obtain ⟨post, hpost⟩ : ∃ post, rest = (some b, y[j]) :: post := by
      cases hr : rest with
      | nil => rw [hr] at hbr; simp at hbr
      | cons row post =>
        rw [hr] at hbr
        rcases List.mem_cons.1 hbr with h | h
        · exact ⟨post, by rw [h]⟩
        · exfalso
          have hs := har.sorted
          rw [hr, List.pairwise_cons] at hs
          have h3 := hs.1 _ h
          cases hc : row.1 with
          | none => rw [hc] at h3; simp [cellLe] at h3
          | some c =>
            rw [hc] at h3
            have hcb : c ≤ b := by simpa [cellLe] using h3
            have hac := har.larger row (by rw [hr]; simp) c hc
            have hcx := hrow row (by rw [har.table, hr]; simp) c hc
            have hbc : b ≤ c := by
              rcases hgap c hcx with h | h
              · linarith
              · exact h
            -- then `b` is there twice
            have hcb' : c = b := le_antisymm hcb hbc
            obtain ⟨pre2, rest2, har2⟩ := sorted_around x y hl hm.distinct j b y[j] hj hyb
            have hnd : ((sortTable (x.zip y)).filterMap Prod.fst).Nodup := by
              have g1 := hperm.filterMap Prod.fst
              have g2 : (x.zip y).filterMap Prod.fst = x.filterMap id := by
                have : (x.zip y).map Prod.fst = x := List.map_fst_zip (by omega)
                conv_rhs => rw [← this]
                rw [List.filterMap_map]
                rfl
              rw [g2] at g1
              exact g1.nodup_iff.2 hm.distinct
            rw [har.table, hr] at hnd
            simp only [List.filterMap_append, List.filterMap_cons, hc] at hnd
            rw [List.nodup_append, List.nodup_cons, List.nodup_cons] at hnd
            exact hnd.2.1.2.1 (List.mem_filterMap.2 ⟨_, h, by rw [hcb']⟩)
    have hlost : searchLost v (sortTable (x.zip y)) = false := by
      have ht : sortTable (x.zip y) = pre ++ (some a, y[i]) :: (some b, y[j]) :: post := by rw [har.table, hpost]
      rw [ht]
      cases hp : pre with
      | nil =>
        unfold searchLost
        have : below v ((([] : List (Option ℚ × Option ℚ)) ++ (some a, y[i]) :: (some b, y[j]) :: post).getD 1 (none, none)).1 = true := by simp [below, h2]
        rw [this]
        simp
      | cons row pre' =>
        refine not_lost _ _ fun r hr => ?_
        cases pre' with
        | nil =>
          simp only [List.cons_append, List.nil_append, List.getElem?_cons_succ, List.getElem?_cons_zero, Option.some.injEq] at hr
          rw [← hr]
          simp
        | cons row' pre'' =>
          cases pre'' with
          | nil =>
            simp only [List.cons_append, List.nil_append, List.getElem?_cons_succ, List.getElem?_cons_zero, Option.some.injEq] at hr
            rw [← hr]
            simp
          | cons row'' pre3 =>
            simp only [List.cons_append, List.getElem?_cons_succ, List.getElem?_cons_zero, Option.some.injEq] at hr
            obtain ⟨c, hc, -⟩ := har.smaller row'' (by rw [hp]; simp)
            rw [← hr, hc]
            simp
    obtain ⟨⟨first, f1, f2⟩, f3⟩ := around_start v _ _ _ a y[i] har h1.le hlost
    obtain ⟨last, l1⟩ : ∃ last, (sortTable (x.zip y)).getLast? = some last := by
      cases hq : (sortTable (x.zip y)).getLast? with
      | none => rw [List.getLast?_eq_none_iff] at hq; rw [hq] at hbm; simp at hbm
      | some l => exact ⟨l, rfl⟩
    refine ⟨_, _, first, last, hya, hyb, f1, l1, f2, ?_, ?_⟩
    · cases hc : last.1 with
      | none => rfl
      | some c =>
        have hlm : last ∈ rest := by
          rw [har.table, List.getLast?_append, hpost] at l1
          rw [hpost]
          simp only [List.getLast?_cons_cons] at l1
          have : ((some b, y[j]) :: post).getLast? = some last := by
            cases hz : ((some b, y[j]) :: post).getLast? with
            | none => simp at hz
            | some z => rw [hz] at l1; simpa using l1
          exact List.mem_of_getLast? this
        have hac := har.larger last hlm c hc
        have hcx := hrow last (List.mem_of_getLast? l1) c hc
        simp only [above, decide_eq_false_iff_not, not_lt]
        rcases hgap c hcx with h | h <;> linarith
    · rw [f3, hpost]
      simp only [interpFrom, if_neg (not_le.2 h2), if_neg (ne_of_gt h1)]
      rfl
  obtain ⟨r, hr, hr'⟩ := convert_columns df q _ v x hq hm fun y hl => by
    obtain ⟨ya, yb, first, last, -, -, f1, f2, f3, f4, -⟩ := key y hl
    exact interp1d_in x y v hl first last f1 f2 f3 f4
  refine ⟨r, hr, fun name ys hn => ?_⟩
  obtain ⟨ya, yb, -, -, e1, e2, -, -, -, -, he⟩ := key ys (hm.regular _ (mem_of_get? df name ys hn))
  rw [hr' name ys hn, he]
  constructor
  · intro za zb hza hzb
    rw [hza] at e1
    rw [hzb] at e2
    obtain rfl := Option.some.inj e1
    obtain rfl := Option.some.inj e2
    refine ⟨_, rfl, ?_⟩
    have : b - a ≠ 0 := by linarith
    field_simp
    ring
  · rintro (h | h)
    · rw [h] at e1
      obtain rfl := Option.some.inj e1
      rfl
    · rw [h] at e2
      obtain rfl := Option.some.inj e2
      cases ya <;> rfl

/-- C163: at a measured value every column gives its cell of that row. -/
theorem C163_measured (df : SipmTable) (q : SipmQuery) (key : String) (v : ℚ) (x : List (Option ℚ)) (hq : Asks q key v) (hm : Measured df key x)
    (hsize : x.length ≤ 4 ∨ 3 ≤ (x.filterMap id).length) (i : Nat) (hi : x[i]? = some (some v)) :
    ∃ r, sipmConvert df q = .ok r ∧ ∀ name ys, df.get? name = some ys → r.get? name = ys[i]? := by
  have key : ∀ y : List (Option ℚ), y.length = x.length → ∃ ya first last, y[i]? = some ya ∧
      (sortTable (x.zip y)).head? = some first ∧ (sortTable (x.zip y)).getLast? = some last ∧ below v first.1 = false ∧ above v last.1 = false ∧
      interpAt v (sortTable (x.zip y)) = ya := by
    intro y hl
    have hil := (List.getElem?_eq_some_iff.1 hi).1
    have hya : y[i]? = some y[i] := List.getElem?_eq_getElem (by omega)
    obtain ⟨pre, rest, har⟩ := sorted_around x y hl hm.distinct i v y[i] hi hya
    have hlen : (sortTable (x.zip y)).length = x.length := by
      unfold sortTable
      rw [List.length_insertionSort, List.length_zip, hl, Nat.min_self]
    have hnum : ((sortTable (x.zip y)).filterMap Prod.fst).length = (x.filterMap id).length := by
      have hperm := List.perm_insertionSort (fun r r' : Option ℚ × Option ℚ => cellLe r.1 r'.1 = true) (x.zip y)
      change (sortTable (x.zip y)).Perm _ at hperm
      rw [(hperm.filterMap Prod.fst).length_eq]
      have : (x.zip y).map Prod.fst = x := List.map_fst_zip (by omega)
      conv_rhs => rw [← this]
      rw [List.filterMap_map]
      rfl
    have hlost : searchLost v (sortTable (x.zip y)) = false := by
      rcases hsize with hs | hs
      · unfold searchLost
        rw [decide_eq_false (by omega)]
        rfl
      · refine not_lost _ _ fun row hrow h0 => ?_
        -- three numbers come first
        have htot : Std.Total (fun a b : Option ℚ × Option ℚ => cellLe a.1 b.1 = true) := ⟨by
          rintro ⟨a, _⟩ ⟨b, _⟩
          cases a <;> cases b <;> simp [cellLe, le_total]⟩
        have htr : IsTrans _ (fun a b : Option ℚ × Option ℚ => cellLe a.1 b.1 = true) := ⟨by
          rintro ⟨a, _⟩ ⟨b, _⟩ ⟨c, _⟩
          cases a <;> cases b <;> cases c <;> simp [cellLe]
          exact le_trans⟩
        have hsort := List.pairwise_insertionSort (fun r r' : Option ℚ × Option ℚ => cellLe r.1 r'.1 = true) (x.zip y)
        change (sortTable (x.zip y)).Pairwise _ at hsort
        rw [← hnum] at hs
        generalize sortTable (x.zip y) = t at hrow hsort hs
        rcases t with _ | ⟨r0, _ | ⟨r1, _ | ⟨r2, t⟩⟩⟩
        · simp at hrow
        · simp at hrow
        · simp at hrow
        · simp only [List.getElem?_cons_succ, List.getElem?_cons_zero, Option.some.injEq] at hrow
          subst hrow
          simp only [List.pairwise_cons] at hsort
          have ht : t.filterMap Prod.fst = [] := by
            rw [List.filterMap_eq_nil_iff]
            intro r hr
            have := hsort.2.2.1 r hr
            rw [h0] at this
            cases hc : r.1 with
            | none => rfl
            | some c => rw [hc] at this; simp [cellLe] at this
          have : ((r0 :: r1 :: r2 :: t).filterMap Prod.fst).length ≤ 2 := by
            simp only [List.filterMap_cons, h0, ht]
            cases r0.1 <;> cases r1.1 <;> simp
          omega
    obtain ⟨⟨first, f1, f2⟩, f3⟩ := around_start v _ _ _ v y[i] har (le_refl _) hlost
    obtain ⟨last, l1⟩ : ∃ last, (sortTable (x.zip y)).getLast? = some last := by
      cases hq : (sortTable (x.zip y)).getLast? with
      | none =>
        rw [List.getLast?_eq_none_iff] at hq
        have := har.table
        rw [hq] at this
        simp at this
      | some l => exact ⟨l, rfl⟩
    refine ⟨_, first, last, hya, f1, l1, f2, ?_, ?_⟩
    · cases hc : last.1 with
      | none => rfl
      | some c =>
        simp only [above, decide_eq_false_iff_not, not_lt]
        rw [har.table, List.getLast?_append] at l1
        have hm' : last ∈ (some v, y[i]) :: rest := by
          cases hz : ((some v, y[i]) :: rest).getLast? with
          | none => simp at hz
          | some z =>
            rw [hz] at l1
            simp only [Option.some_or, Option.some.injEq] at l1
            exact l1 ▸ List.mem_of_getLast? hz
        rcases List.mem_cons.1 hm' with h | h
        · rw [h] at hc
          exact (Option.some.inj hc).le
        · exact (har.larger last h c hc).le
    · rw [f3]
      cases hr : rest with
      | nil => rfl
      | cons row rest' =>
        obtain ⟨rx, ry⟩ := row
        cases rx with
        | none => simp [interpFrom]
        | some c =>
          have := har.larger (some c, ry) (by rw [hr]; simp) c rfl
          simp only [interpFrom, if_neg (not_le.2 this), if_true]
  obtain ⟨r, hr, hr'⟩ := convert_columns df q _ v x hq hm fun y hl => by
    obtain ⟨ya, first, last, -, f1, f2, f3, f4, -⟩ := key y hl
    exact interp1d_in x y v hl first last f1 f2 f3 f4
  refine ⟨r, hr, fun name ys hn => ?_⟩
  obtain ⟨ya, -, -, e1, -, -, -, -, he⟩ := key ys (hm.regular _ (mem_of_get? df name ys hn))
  rw [hr' name ys hn, he, e1]

/-- C163 needs the number of measured values: of five rows with two of them, the second one is answered by a row without a value. -/
theorem C163_size_needed :
    sipmConvert [("vover", [some 1, some 2, some 3, some 4, some 5]), ("gain", [some 10, some 20, none, none, none])] { gain := some 20 } =
      .ok [("vover", none), ("gain", none)] ∧
    sipmConvert [("vover", [some 1, some 2, some 3, some 3, some 5]), ("gain", [some 10, some 20, none, none, none])] { gain := some 20 } =
      .ok [("vover", some 3), ("gain", none)] := by decide +kernel

/-! ### there and back -/

/-- a column that rises downwards and was not measured in its first `p` and last rows -/
structure Rising (x : List (Option ℚ)) (p : Nat) (xs : List ℚ) : Prop where
  rows : ∃ n, x = List.replicate p none ++ xs.map some ++ List.replicate n none
  up : xs.Pairwise (· < ·)
  enough : 3 ≤ xs.length

theorem Rising.numbers {x p xs} (h : Rising x p xs) : x.filterMap id = xs := by
  obtain ⟨n, rfl⟩ := h.rows
  simp only [List.filterMap_append, List.filterMap_replicate, id, List.filterMap_map]
  simp

theorem Rising.getElem? {x p xs} (h : Rising x p xs) (k : Nat) (a : ℚ) (hk : xs[k]? = some a) : x[p + k]? = some (some a) := by
  obtain ⟨n, rfl⟩ := h.rows
  have hl := (List.getElem?_eq_some_iff.1 hk).1
  rw [List.append_assoc, List.getElem?_append_right (by simp), List.getElem?_append_left (by simp; omega)]
  simp [hk]

theorem Rising.cell {x p xs} (h : Rising x p xs) (m : Nat) (a : ℚ) (hm : x[m]? = some (some a)) : ∃ k, m = p + k ∧ xs[k]? = some a := by
  obtain ⟨n, rfl⟩ := h.rows
  rcases Nat.lt_or_ge m p with hlt | hge
  · rw [List.append_assoc, List.getElem?_append_left (by simpa using hlt)] at hm
    simp only [List.getElem?_replicate, if_pos hlt] at hm
    cases hm
  · rw [List.append_assoc, List.getElem?_append_right (by simpa using hge)] at hm
    simp only [List.length_replicate] at hm
    refine ⟨m - p, by omega, ?_⟩
    rcases Nat.lt_or_ge (m - p) xs.length with hl | hl
    · rw [List.getElem?_append_left (by simpa using hl), List.getElem?_map] at hm
      rw [List.getElem?_eq_getElem hl] at hm ⊢
      simpa using hm
    · rw [List.getElem?_append_right (by simpa using hl), List.getElem?_replicate] at hm
      split at hm <;> cases hm

theorem Rising.measured {df : SipmTable} {key : String} {x p xs} (h : Rising x p xs) (hc : df.get? key = some x) (hreg : ∀ c ∈ df, c.2.length = x.length) :
    Measured df key x := by
  refine ⟨hc, ?_, hreg⟩
  rw [h.numbers]
  exact h.up.imp fun hab => ne_of_lt hab

/-- nothing between two rows that follow each other -/
theorem Rising.gap {x p xs} (h : Rising x p xs) (k : Nat) (a b : ℚ) (ha : xs[k]? = some a) (hb : xs[k + 1]? = some b) (c : ℚ) (hc : some c ∈ x) : c ≤ a ∨ b ≤ c := by
  have hc' : c ∈ xs := by
    rw [← h.numbers]
    exact List.mem_filterMap.2 ⟨_, hc, rfl⟩
  obtain ⟨m, hm⟩ := List.mem_iff_getElem?.1 hc'
  obtain ⟨hk, rfl⟩ := List.getElem?_eq_some_iff.1 ha
  obtain ⟨hk1, rfl⟩ := List.getElem?_eq_some_iff.1 hb
  obtain ⟨hm1, rfl⟩ := List.getElem?_eq_some_iff.1 hm
  have hp := List.pairwise_iff_getElem.1 h.up
  rcases Nat.lt_trichotomy m k with h1 | rfl | h1
  · exact Or.inl (hp m k hm1 hk h1).le
  · exact Or.inl (le_refl _)
  · rcases Nat.lt_or_eq_of_le (Nat.succ_le_of_lt h1) with h2 | h2
    · exact Or.inr (hp _ m hk1 hm1 h2).le
    · subst h2
      exact Or.inr (le_refl _)

/-- C163: within the measured range the queried quantity comes back as given. -/
theorem C163_self (df : SipmTable) (q : SipmQuery) (key : String) (v : ℚ) (x : List (Option ℚ)) (p : Nat) (xs : List ℚ) (hq : Asks q key v)
    (hc : df.get? key = some x) (hreg : ∀ c ∈ df, c.2.length = x.length) (hx : Rising x p xs) (hv : InRange xs v) :
    ∃ r, sipmConvert df q = .ok r ∧ r.get? key = some (some v) := by
  have hm := hx.measured hc hreg
  have hen := hx.enough
  obtain ⟨k, a, h1, h2, h3⟩ := exists_row xs v (by rintro rfl; simp at hen) hv
  rcases eq_or_lt_of_le h2 with rfl | hlt
  · obtain ⟨r, hr, hr'⟩ := C163_measured df q key a x hq hm (Or.inr (by rw [hx.numbers]; exact hen)) _ (hx.getElem? k a h1)
    exact ⟨r, hr, by rw [hr' key x hc, hx.getElem? k a h1]⟩
  · cases hb : xs[k + 1]? with
    | none =>
      exfalso
      have hk := (List.getElem?_eq_some_iff.1 h1).1
      have hk' := List.getElem?_eq_none_iff.1 hb
      have hlast : xs.getLastD 0 = a := by
        rw [List.getLastD_eq_getLast?, List.getLast?_eq_getElem?, show xs.length - 1 = k by omega, h1]
        rfl
      have := hv.2
      linarith
    | some b =>
      have hvb := h3 b hb
      obtain ⟨r, hr, hr'⟩ := C163_between df q key v x hq hm _ _ a b (hx.getElem? k a h1) (hx.getElem? (k + 1) b hb) hlt hvb (hx.gap k a b h1 hb)
      obtain ⟨w, hw, hline⟩ := (hr' key x hc).1 a b (hx.getElem? k a h1) (hx.getElem? (k + 1) b hb)
      refine ⟨r, hr, ?_⟩
      rw [hw]
      have : w = v := by
        have hne : b - a ≠ 0 := by linarith
        have : (w - v) * (b - a) = 0 := by linear_combination hline
        rcases mul_eq_zero.1 this with h | h
        · linarith
        · exact absurd h hne
      rw [this]

/-- C163: a value within the measured range of one quantity, converted to another one and back, is the value. -/
theorem C163_round_trip (df : SipmTable) (q q' : SipmQuery) (key key' : String) (v w : ℚ) (x y : List (Option ℚ)) (p p' : Nat) (xs ys : List ℚ)
    (r : Dict String (Option ℚ)) (hq : Asks q key v) (hc : df.get? key = some x) (hc' : df.get? key' = some y) (hreg : ∀ c ∈ df, c.2.length = x.length)
    (hx : Rising x p xs) (hy : Rising y p' ys) (hv : InRange xs v) (hr : sipmConvert df q = .ok r) (hw : r.get? key' = some (some w)) (hq' : Asks q' key' w) :
    ∃ r', sipmConvert df q' = .ok r' ∧ r'.get? key = some (some v) := by
  have hm := hx.measured hc hreg
  have hlen : y.length = x.length := hreg _ (mem_of_get? df key' y hc')
  have hm' : Measured df key' y := hy.measured hc' (fun c hcm => by rw [hreg c hcm, hlen])
  have hen := hx.enough
  have hsize' : y.length ≤ 4 ∨ 3 ≤ (y.filterMap id).length := Or.inr (by rw [hy.numbers]; exact hy.enough)
  obtain ⟨k, a, h1, h2, h3⟩ := exists_row xs v (by rintro rfl; simp at hen) hv
  have hka := hx.getElem? k a h1
  rcases eq_or_lt_of_le h2 with rfl | hlt
  · obtain ⟨r1, hr1, he⟩ := C163_measured df q key a x hq hm (Or.inr (by rw [hx.numbers]; exact hen)) _ hka
    rw [hr] at hr1
    obtain rfl := Except.ok.inj hr1
    rw [he key' y hc'] at hw
    obtain ⟨r', hr', he'⟩ := C163_measured df q' key' w y hq' hm' hsize' _ hw
    exact ⟨r', hr', by rw [he' key x hc, hka]⟩
  · cases hb : xs[k + 1]? with
    | none =>
      exfalso
      have hk := (List.getElem?_eq_some_iff.1 h1).1
      have hk' := List.getElem?_eq_none_iff.1 hb
      have hlast : xs.getLastD 0 = a := by
        rw [List.getLastD_eq_getLast?, List.getLast?_eq_getElem?, show xs.length - 1 = k by omega, h1]
        rfl
      have := hv.2
      linarith
    | some b =>
      have hvb := h3 b hb
      have hkb := hx.getElem? (k + 1) b hb
      obtain ⟨r1, hr1, he⟩ := C163_between df q key v x hq hm _ _ a b hka hkb hlt hvb (hx.gap k a b h1 hb)
      rw [hr] at hr1
      obtain rfl := Except.ok.inj hr1
      obtain ⟨hnum, hnone⟩ := he key' y hc'
      have hkal := (List.getElem?_eq_some_iff.1 hka).1
      have hkbl := (List.getElem?_eq_some_iff.1 hkb).1
      have hya : y[p + k]? = some y[p + k] := List.getElem?_eq_getElem (by omega)
      have hyb : y[p + (k + 1)]? = some y[p + (k + 1)] := List.getElem?_eq_getElem (by omega)
      cases ea : y[p + k] with
      | none =>
        rw [ea] at hya
        rw [hnone (Or.inl hya)] at hw
        cases hw
      | some ya =>
        cases eb : y[p + (k + 1)] with
        | none =>
          rw [eb] at hyb
          rw [hnone (Or.inr hyb)] at hw
          cases hw
        | some yb =>
          rw [ea] at hya
          rw [eb] at hyb
          obtain ⟨w', hw', hline⟩ := hnum ya yb hya hyb
          rw [hw] at hw'
          obtain rfl := Option.some.inj (Option.some.inj hw')
          obtain ⟨l, hl, hla⟩ := hy.cell _ ya hya
          obtain ⟨l', hl', hlb⟩ := hy.cell _ yb hyb
          obtain rfl : l' = l + 1 := by omega
          have hab : ya < yb := by
            obtain ⟨e1, rfl⟩ := List.getElem?_eq_some_iff.1 hla
            obtain ⟨e2, rfl⟩ := List.getElem?_eq_some_iff.1 hlb
            exact List.pairwise_iff_getElem.1 hy.up l (l + 1) e1 e2 (by omega)
          have hpos : 0 < (yb - ya) * (v - a) := mul_pos (by linarith) (by linarith)
          have hlo : ya < w := by
            rw [← hline] at hpos
            have := (mul_pos_iff_of_pos_right (show 0 < b - a by linarith)).1 hpos
            linarith
          have hhi : w < yb := by
            have h5 : 0 < (yb - ya) * (b - v) := mul_pos (by linarith) (by linarith)
            have h6 : (yb - w) * (b - a) = (yb - ya) * (b - v) := by linear_combination -hline
            rw [← h6] at h5
            have := (mul_pos_iff_of_pos_right (show 0 < b - a by linarith)).1 h5
            linarith
          obtain ⟨r', hr', he'⟩ := C163_between df q' key' w y hq' hm' _ _ ya yb hya hyb hlo hhi (hy.gap l ya yb hla hlb)
          obtain ⟨u, hu, hline'⟩ := (he' key x hc).1 a b hka hkb
          refine ⟨r', hr', ?_⟩
          rw [hu]
          have : u = v := by
            have hne : yb - ya ≠ 0 := by linarith
            have h0 : (u - v) * (yb - ya) = 0 := by linear_combination hline' + hline
            rcases mul_eq_zero.1 h0 with h | h
            · linarith
            · exact absurd h hne
          rw [this]

/-! ### the shipped data sheet -/

/-- the column `vover` of the shipped data sheet -/
def sheet_vover : List (Option ℚ) :=
  [some 0.79503, some 0.90576, some 1.01649, some 1.12722, some 1.23795, some 1.34868,
   some 1.45941, some 1.57014, some 1.68087, some 1.7916, some 1.90233, some 2.01306,
   some 2.12379, some 2.2345200000000003, some 2.34525, some 2.45598, some 2.56671, some 2.6774400000000003,
   some 2.78817, some 2.8989, some 3.00963, some 3.12036, some 3.23109, some 3.34182,
   some 3.45255, some 3.5632800000000002, some 3.67401, some 3.78474, some 3.89547, some 4.0062]

/-- the column `gain` of the shipped data sheet -/
def sheet_gain : List (Option ℚ) :=
  [none, none, none, some 633514.2332670643, some 700906.169648774, some 768269.094039735,
   some 834335.129570747, some 897581.5704989153, some 962938.6919739696, some 1025430.5993883793, some 1085743.197047132, some 1143529.0403180008,
   some 1213028.6486486485, some 1280287.514450867, some 1341950.1083815028, some 1400768.6767895876, some 1466101.7787418654, some 1531390.057803468,
   some 1589711.3088685013, some 1646718.9189189188, some 1709565.6756756757, some 1772412.4324324324, some 1834616.95412844, some 1897150.39745628,
   some 1958120.303468208, some 2015864.7359454853, some 2080001.36286201, some 2142059.3816254414, none, none]

/-- the column `opct` of the shipped data sheet -/
def sheet_opct : List (Option ℚ) :=
  [none, none, some 0.0854851914239482, some 0.10346233273273274, some 0.1228776917293233, some 0.1451798493150685,
   some 0.1719219070175438, some 0.1988194380165289, some 0.22395695961227782, some 0.24811229402261709, some 0.2723786989247311, some 0.29510728388746804,
   some 0.31894227871772035, some 0.3420773947895792, some 0.3693545960502692, some 0.3952122914389799, some 0.4220838614035087, some 0.44849785263157893,
   some 0.4749387684210524, some 0.5015711490125673, some 0.5286661191709844, some 0.555614064516129, some 0.5822562157894736, some 0.6091669087837839,
   some 0.636313099662162, some 0.6627258527827646, some 0.6901501172413792, some 0.7169710842105264, some 0.7433885760135135, some 0.77062]

/-- the column `pde` of the shipped data sheet -/
def sheet_pde : List (Option ℚ) :=
  [some 0.12102, some 0.14771351945854486, some 0.17107795192789188, some 0.19110759139784947, some 0.2123886846153846, some 0.2287287157894737,
   some 0.2460128873873873, some 0.26227243609022555, some 0.27469782058823533, some 0.2887478796992481, some 0.3007438842105263, some 0.3137060630630631,
   some 0.3251081593984962, some 0.33499312312312307, some 0.34540466165413536, some 0.355334606158833, some 0.36444469740634006, some 0.37261421052631577,
   some 0.38094562462462456, some 0.3887322857142857, some 0.39800551351351354, some 0.40567644148148146, some 0.4134879184861717, some 0.4196225561959654,
   some 0.42731572, some 0.4343781098901099, some 0.44056895540540547, some 0.446458272189349, some 0.4531991504702194, none]

/-- `CHECLabPy/calib/data/sipm_data_sheet.csv`, with the decimals as written -/
def shippedSheet : SipmTable := [("vover", sheet_vover), ("gain", sheet_gain), ("opct", sheet_opct), ("pde", sheet_pde)]

theorem rising_vover : Rising sheet_vover 0 (sheet_vover.filterMap id) := ⟨⟨0, by decide +kernel⟩, by decide +kernel, by decide +kernel⟩

theorem rising_gain : Rising sheet_gain 3 (sheet_gain.filterMap id) := ⟨⟨2, by decide +kernel⟩, by decide +kernel, by decide +kernel⟩

theorem rising_opct : Rising sheet_opct 2 (sheet_opct.filterMap id) := ⟨⟨0, by decide +kernel⟩, by decide +kernel, by decide +kernel⟩

theorem rising_pde : Rising sheet_pde 0 (sheet_pde.filterMap id) := ⟨⟨1, by decide +kernel⟩, by decide +kernel, by decide +kernel⟩

theorem shipped_rising (key : String) (x : List (Option ℚ)) (h : shippedSheet.get? key = some x) :
    ∃ p, Rising x p (x.filterMap id) ∧ ∀ c ∈ shippedSheet, c.2.length = x.length := by
  have hm := mem_of_get? shippedSheet key x h
  simp only [shippedSheet, List.mem_cons, Prod.mk.injEq, List.not_mem_nil, or_false] at hm
  have hlen : ∀ c ∈ shippedSheet, c.2.length = 30 := by decide +kernel
  rcases hm with ⟨-, rfl⟩ | ⟨-, rfl⟩ | ⟨-, rfl⟩ | ⟨-, rfl⟩
  · exact ⟨_, rising_vover, fun c hc => (hlen c hc).trans (by decide +kernel)⟩
  · exact ⟨_, rising_gain, fun c hc => (hlen c hc).trans (by decide +kernel)⟩
  · exact ⟨_, rising_opct, fun c hc => (hlen c hc).trans (by decide +kernel)⟩
  · exact ⟨_, rising_pde, fun c hc => (hlen c hc).trans (by decide +kernel)⟩

/-- C163 for the shipped data sheet: every value in the measured range of any of the four quantities is accepted and comes back as given, and if another quantity
is known there, converting that one gives the value again. -/
theorem C163_shipped (q : SipmQuery) (key : String) (v : ℚ) (x : List (Option ℚ)) (hq : Asks q key v) (hx : shippedSheet.get? key = some x)
    (hv : InRange (x.filterMap id) v) :
    ∃ r, sipmConvert shippedSheet q = .ok r ∧ r.get? key = some (some v) ∧
      ∀ key' w q', r.get? key' = some (some w) → Asks q' key' w → ∃ r', sipmConvert shippedSheet q' = .ok r' ∧ r'.get? key = some (some v) := by
  obtain ⟨p, hr, hreg⟩ := shipped_rising key x hx
  obtain ⟨r, h1, h2⟩ := C163_self shippedSheet q key v x p _ hq hx hreg hr hv
  refine ⟨r, h1, h2, fun key' w q' hw hq' => ?_⟩
  obtain ⟨y, hy⟩ : ∃ y, shippedSheet.get? key' = some y := by
    cases hq' <;> exact ⟨_, rfl⟩
  obtain ⟨p', hr', -⟩ := shipped_rising key' y hy
  exact C163_round_trip shippedSheet q q' key key' v w x y p p' _ _ r hq hx hy hreg hr hr' hv h1 hw hq'

/-- the gain in the middle of the first interval in which it was measured: the voltage is the middle, the other columns are the means of the two rows -/
example : sipmConvert shippedSheet { vover := some 1.182585 } =
      .ok [("vover", some 1.182585), ("gain", some 667210.20145791915), ("opct", some 0.11317001223102802), ("pde", some 0.201748138006617035)] ∧
    sipmConvert shippedSheet { gain := some 667210.20145791915 } =
      .ok [("vover", some 1.182585), ("gain", some 667210.20145791915), ("opct", some 0.11317001223102802), ("pde", some 0.201748138006617035)] := by
  decide +kernel

example : InRange (sheet_gain.filterMap id) 667210.20145791915 := ⟨by decide +kernel, by decide +kernel⟩

/-- below the voltages with a gain the gain is unknown -/
example : (sipmConvert shippedSheet { vover := some 1.12 }).map (fun r => (r.get? "gain", (r.get? "opct").isSome)) = .ok (some none, true) := by decide +kernel

end Verif.Props
