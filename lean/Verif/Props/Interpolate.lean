import Verif.Model.Interpolate
import Mathlib.Tactic.Linarith
import Mathlib.Tactic.Ring
import Mathlib.Tactic.FieldSimp
import Mathlib.Tactic.NormNum

/-!
# Interpolation helpers of the timing reducer (C134)
-/

namespace Verif.Props

open Verif.Model

/-- the point `(x, y)` lies on the line through `(x1, y1)` and `(x2, y2)` -/
def OnLine (x y x1 y1 x2 y2 : ℚ) : Prop := (y - y1) * (x2 - x1) = (y2 - y1) * (x - x1)

/-- C134: for two points at different positions the value is the one on the line through them. -/
theorem C134_line (x x1 x2 y1 y2 : ℚ) (h : x1 ≠ x2) (y : ℚ) : interpolateAt x x1 x2 y1 y2 = .fin y ↔ OnLine x y x1 y1 x2 y2 := by
  have hd : x2 - x1 ≠ 0 := sub_ne_zero.2 (Ne.symm h)
  unfold interpolateAt fltDiv OnLine
  rw [if_pos hd]
  simp only [fltAdd, Flt.fin.injEq]
  constructor
  · rintro rfl
    field_simp
    ring
  · intro e
    have : y - y1 = (y2 - y1) * (x - x1) / (x2 - x1) := by rw [eq_div_iff hd]; exact e
    rw [← this]; ring

/-- C134: there is such a value; at the two positions it is the value given there, and between them it lies between the two values. -/
theorem C134_between (x x1 x2 y1 y2 : ℚ) (h : x1 < x2) :
    interpolateAt x1 x1 x2 y1 y2 = .fin y1 ∧ interpolateAt x2 x1 x2 y1 y2 = .fin y2 ∧
    ∃ y, interpolateAt x x1 x2 y1 y2 = .fin y ∧ (x1 ≤ x → x ≤ x2 → min y1 y2 ≤ y ∧ y ≤ max y1 y2) := by
  have hd : 0 < x2 - x1 := by linarith
  refine ⟨(C134_line _ _ _ _ _ (ne_of_lt h) _).2 (by unfold OnLine; ring), (C134_line _ _ _ _ _ (ne_of_lt h) _).2 (by unfold OnLine; ring),
    y1 + (y2 - y1) * (x - x1) / (x2 - x1), (C134_line _ _ _ _ _ (ne_of_lt h) _).2 (by unfold OnLine; field_simp; ring), fun ha hb => ?_⟩
  have h0 : 0 ≤ (x - x1) / (x2 - x1) := div_nonneg (by linarith) (le_of_lt hd)
  have h1 : (x - x1) / (x2 - x1) ≤ 1 := by rw [div_le_iff₀ hd]; linarith
  rw [mul_div_assoc]
  generalize (x - x1) / (x2 - x1) = t at h0 h1
  rcases le_total y1 y2 with hy | hy
  · rw [min_eq_left hy, max_eq_right hy]
    constructor <;> nlinarith
  · rw [min_eq_right hy, max_eq_left hy]
    constructor <;> nlinarith

/-- C134: for two points at one position the first value is returned, unless the values are the same or the value at the position itself is asked for: then NaN. -/
theorem C134_one_position (x x1 y1 y2 : ℚ) :
    (y1 ≠ y2 → x ≠ x1 → interpolateAt x x1 x1 y1 y2 = .fin y1) ∧ (y1 = y2 ∨ x = x1 → interpolateAt x x1 x1 y1 y2 = .nan) := by
  have hd : fltDiv ((y2 - y1) * (x - x1)) (x1 - x1) = if (y2 - y1) * (x - x1) > 0 then .posInf else if (y2 - y1) * (x - x1) < 0 then .negInf else .nan := by
    unfold fltDiv
    rw [if_neg (by simp)]
  constructor
  · intro hy hx
    unfold interpolateAt
    rw [hd]
    have hne : (y2 - y1) * (x - x1) ≠ 0 := mul_ne_zero (sub_ne_zero.2 (Ne.symm hy)) (sub_ne_zero.2 hx)
    rcases lt_or_gt_of_ne hne with h | h
    · rw [if_neg (by linarith), if_pos h]; rfl
    · rw [if_pos h]; rfl
  · intro h
    have hz : (y2 - y1) * (x - x1) = 0 := by rcases h with rfl | rfl <;> ring
    unfold interpolateAt
    rw [hd, hz]
    simp [fltAdd]

/-- C134: each entry of the arrays is calculated from the entries at the same position only. -/
theorem C134_entries (entries : List (ℚ × ℚ × ℚ × ℚ × ℚ)) (i : Nat) :
    (interpolate entries).length = entries.length ∧
    ∀ x x1 x2 y1 y2, entries[i]? = some (x, x1, x2, y1, y2) → (interpolate entries)[i]? = some (interpolateAt x x1 x2 y1 y2) := by
  refine ⟨List.length_map _, fun x x1 x2 y1 y2 h => ?_⟩
  unfold interpolate
  rw [List.getElem?_map, h]; rfl

/-- C134: the position and height of the peak are those of the vertex of the parabola through the three samples (at −1, 0 and 1). -/
theorem C134_vertex (y0 y1 y2 : ℚ) (hb : y0 - 2 * y1 + y2 ≠ 0) (A B C : ℚ) (h0 : A - B + C = y0) (h1 : C = y1) (h2 : A + B + C = y2) :
    ∃ xm ym, interpolatePeak y0 y1 y2 = (.fin xm, .fin ym) ∧ 2 * A * xm + B = 0 ∧ A * xm ^ 2 + B * xm + C = ym := by
  have hA : A ≠ 0 := by
    rintro rfl
    apply hb
    rw [← h0, ← h1, ← h2]; ring
  have e1 : y0 - 2 * y1 + y2 = 2 * A := by rw [← h0, ← h1, ← h2]; ring
  have e2 : y0 - y2 = -2 * B := by rw [← h0, ← h2]; ring
  refine ⟨-B / (2 * A), C - B ^ 2 / (4 * A), ?_, by field_simp; ring, by field_simp; ring⟩
  unfold interpolatePeak fltDiv
  simp only [e1, e2]
  rw [if_pos (by simpa using hA)]
  simp only [fltMul, fltNeg, fltAdd, Prod.mk.injEq, Flt.fin.injEq]
  constructor
  · field_simp
  · rw [← h1]; field_simp; ring

/-- C134: for a sample that is not below its neighbours, and above one of them, the peak lies within half a sample, is not below the sample and not below any
value of the parabola. -/
theorem C134_peak (y0 y1 y2 : ℚ) (ha : y0 ≤ y1) (hc : y2 ≤ y1) (hne : y0 < y1 ∨ y2 < y1) (A B C : ℚ) (h0 : A - B + C = y0) (h1 : C = y1) (h2 : A + B + C = y2) :
    ∃ xm ym, interpolatePeak y0 y1 y2 = (.fin xm, .fin ym) ∧ -(1 / 2) ≤ xm ∧ xm ≤ 1 / 2 ∧ y1 ≤ ym ∧ (∀ x, A * x ^ 2 + B * x + C ≤ ym) ∧ (y0 < y2 ↔ 0 < xm) := by
  have hb : y0 - 2 * y1 + y2 ≠ 0 := by rcases hne with h | h <;> linarith
  obtain ⟨xm, ym, e, hv, hy⟩ := C134_vertex y0 y1 y2 hb A B C h0 h1 h2
  have hA : A < 0 := by rcases hne with h | h <;> linarith
  have hx : xm = -B / (2 * A) := by
    have : 2 * A ≠ 0 := by linarith
    rw [eq_div_iff this]; linarith
  refine ⟨xm, ym, e, ?_, ?_, ?_, fun x => ?_, ?_⟩
  · by_contra hlt
    have := mul_lt_mul_of_neg_left (not_le.1 hlt) (show 2 * A < 0 by linarith)
    linarith
  · by_contra hlt
    have := mul_lt_mul_of_neg_left (not_le.1 hlt) (show 2 * A < 0 by linarith)
    linarith
  · have hBe : B = -(2 * A * xm) := by linarith
    rw [← hy, ← h1, hBe]
    nlinarith [sq_nonneg xm]
  · have hBe : B = -(2 * A * xm) := by linarith
    rw [← hy, hBe]
    nlinarith [sq_nonneg (x - xm)]
  · have hBe : B = -(2 * A * xm) := by linarith
    have : y2 - y0 = 2 * B := by linarith
    constructor
    · intro h
      by_contra hn
      have := mul_nonneg_of_nonpos_of_nonpos (le_of_lt hA) (not_lt.1 hn)
      linarith
    · intro h
      have := mul_neg_of_neg_of_pos hA h
      linarith

/-- C134: three samples on a line have no peak: NaN when they are equal, an infinite position and an infinitely low height otherwise. -/
theorem C134_no_peak (y1 d : ℚ) :
    interpolatePeak (y1 - d) y1 (y1 + d) = if d = 0 then (.nan, .nan) else if d > 0 then (.negInf, .negInf) else (.posInf, .negInf) := by
  have hb : y1 - d - 2 * y1 + (y1 + d) = 0 := by ring
  have ha : y1 - d - (y1 + d) = -2 * d := by ring
  unfold interpolatePeak fltDiv
  simp only [hb, ha]
  rw [if_neg (by simp)]
  by_cases h0 : d = 0
  · subst h0; simp [fltMul, fltNeg, fltAdd]
  rw [if_neg h0]
  by_cases hp : d > 0
  · rw [if_pos hp, if_neg (by linarith), if_pos (by linarith)]
    simp only [fltMul]
    rw [if_neg (by linarith), if_pos (by linarith)]
    rfl
  · have hn : d < 0 := lt_of_le_of_ne (not_lt.1 hp) h0
    rw [if_neg hp, if_pos (by linarith)]
    simp only [fltMul]
    rw [if_pos (by linarith)]
    rfl

example : interpolate [(1, 0, 4, 10, 2), (3, 1, 1, 5, 6), (1, 1, 1, 5, 6)] = [.fin 8, .fin 5, .nan] := by decide +kernel

example : interpolatePeak 1 5 3 = (.fin (1 / 6), .fin (61 / 12)) ∧ interpolatePeak 1 2 3 = (.negInf, .negInf) ∧
    ((-3 : ℚ) - 1 + 5 = 1 ∧ (-3 : ℚ) + 1 + 5 = 3) := by
  refine ⟨by decide +kernel, by decide +kernel, by norm_num, by norm_num⟩

end Verif.Props
