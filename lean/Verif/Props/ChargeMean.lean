import Verif.Model.ChargeMean
import Verif.Props.LimitCurves
import Verif.Lemmas.RowColumn

/-! # C106: plots of the mean charge; more about C81 -/

namespace Verif.Props

open Verif.Py Verif.Model Verif.Lemmas

/-! ### C81 -/

/-- C81: what the tables of the charge resolution contain; the table of the camera has no column of pixels. -/
theorem C81_columns (rows : List ResolutionRow) :
    Dict.get? (resolutionFrame rows) "pixel" = some (rows.map fun r => some (r.row.pixel : ℝ)) ∧
    Dict.get? (cameraFrame rows) "pixel" = none ∧
    ∀ f ∈ [resolutionFrame rows, cameraFrame rows],
      Dict.get? f "true" = some (rows.map fun r => some (r.row.key : ℝ)) ∧ Dict.get? f "sum" = some (rows.map fun r => r.row.sum.map fun q => (q : ℝ)) ∧
      Dict.get? f "n" = some (rows.map fun r => some (r.row.n : ℝ)) ∧ Dict.get? f "charge_resolution" = some (rows.map (·.rel)) ∧
      Dict.get? f "charge_resolution_abs" = some (rows.map (·.abs)) := by
  refine ⟨by simp [Dict.get?, resolutionFrame], by simp [Dict.get?, resolutionFrame, cameraFrame], ?_⟩
  intro f hf
  simp only [List.mem_cons, List.not_mem_nil, or_false] at hf
  rcases hf with rfl | rfl <;> simp [Dict.get?, resolutionFrame, cameraFrame]

/-- C81: a table per pixel that has the column gives the rows of the pixel with a true charge above 0.001. -/
theorem C81_pixel (f : Frame) (px t y : List (Option ℝ)) (hpx : Dict.get? f "pixel" = some px) (ht : Dict.get? f "true" = some t) (hy : Dict.get? f "rmse" = some y) (pixel : ℝ) :
    ∃ ps, pixelPoints f pixel = .ok ps ∧ ∀ a b, (a, b) ∈ ps ↔ (some pixel, a, b) ∈ px.zip (t.zip y) ∧ ∃ v, a = some v ∧ 0.001 < v := by
  unfold pixelPoints frameColumn
  rw [ht, hpx, hy]
  refine ⟨_, rfl, fun a b => ?_⟩
  rw [List.mem_map]
  constructor
  · rintro ⟨q, hq, e⟩
    obtain ⟨hq1, hq2⟩ := List.mem_filter.1 hq
    obtain ⟨p, a', b'⟩ := q
    simp only [Prod.mk.injEq] at e
    obtain ⟨rfl, rfl⟩ := e
    simp only [Bool.and_eq_true, decide_eq_true_eq] at hq2
    obtain ⟨rfl, hv⟩ := hq2
    refine ⟨hq1, ?_⟩
    cases a' with
    | none => cases hv
    | some v => exact ⟨v, rfl, by simpa using hv⟩
  · rintro ⟨h1, v, rfl, hv⟩
    exact ⟨_, List.mem_filter.2 ⟨h1, by simpa using hv⟩, rfl⟩

example : Dict.get? ([("pixel", [some 3, some 4]), ("true", [some 1, some 2]), ("rmse", [some (1 / 2), some (1 / 4)])] : Frame) "pixel" = some [some 3, some 4] := by
  simp [Dict.get?]

/-! ### C106 -/

/-- C106: what the tables of the charge statistics contain; the table of the camera has no column of pixels. -/
theorem C106_columns (rows : List StatisticsRow) :
    Dict.get? (statisticsFrame rows) "pixel" = some (rows.map fun r => some (r.row.pixel : ℝ)) ∧
    Dict.get? (statisticsCameraFrame rows) "pixel" = none ∧
    ∀ f ∈ [statisticsFrame rows, statisticsCameraFrame rows],
      Dict.get? f "amplitude" = some (rows.map fun r => some (r.row.key : ℝ)) ∧ Dict.get? f "sum" = some (rows.map fun r => r.row.sum.map fun q => (q : ℝ)) ∧
      Dict.get? f "sum2" = some (rows.map fun r => r.row.sum2.map fun q => (q : ℝ)) ∧ Dict.get? f "n" = some (rows.map fun r => some (r.row.n : ℝ)) ∧
      Dict.get? f "mean" = some (rows.map fun r => some (r.mean : ℝ)) ∧ Dict.get? f "std" = some (rows.map (·.std)) := by
  refine ⟨by simp [Dict.get?, statisticsFrame], by simp [Dict.get?, statisticsFrame, statisticsCameraFrame], ?_⟩
  intro f hf
  simp only [List.mem_cons, List.not_mem_nil, or_false] at hf
  rcases hf with rfl | rfl <;> simp [Dict.get?, statisticsFrame, statisticsCameraFrame]

/-- C106: every table of the charge statistics has the columns the plotter asks for: a plot of the camera has the amplitude and mean of every row, a plot of
a pixel those of the rows of the pixel. -/
theorem C106_points (rows : List StatisticsRow) (pixel : ℝ) :
    meanPoints (statisticsCameraFrame rows) none = .ok (rows.map fun r => ((r.row.key : ℝ), (r.mean : ℝ))) ∧
    meanPoints (statisticsFrame rows) (some pixel) = .ok ((rows.filter fun r => decide ((r.row.pixel : ℝ) = pixel)).map fun r => ((r.row.key : ℝ), (r.mean : ℝ))) := by
  constructor
  · have h1 : frameColumn (statisticsCameraFrame rows) "amplitude" = .ok (rows.map fun r => some (r.row.key : ℝ)) := by
      simp [frameColumn, statisticsCameraFrame, statisticsFrame, Dict.get?]
    have h2 : frameColumn (statisticsCameraFrame rows) "mean" = .ok (rows.map fun r => some (r.mean : ℝ)) := by
      simp [frameColumn, statisticsCameraFrame, statisticsFrame, Dict.get?]
    have h3 : frameColumn (statisticsCameraFrame rows) "std" = .ok (rows.map (·.std)) := by
      simp [frameColumn, statisticsCameraFrame, statisticsFrame, Dict.get?]
    unfold meanPoints
    simp only [h1, h2, h3, List.map_map]
    congr 1
    clear h1 h2 h3
    induction rows with
    | nil => rfl
    | cons r rows ih =>
      rw [List.map_cons, List.map_cons, List.map_cons, List.zip_cons_cons, List.zip_cons_cons, List.filter_cons, if_pos (show ((fun _ => true) ∘ fun (r : StatisticsRow) => some (r.row.key : ℝ)) r = true from rfl), List.map_cons, ih]
      rfl
  · have h0 : frameColumn (statisticsFrame rows) "pixel" = .ok (rows.map fun r => some (r.row.pixel : ℝ)) := by
      simp [frameColumn, statisticsFrame, Dict.get?]
    have h1 : frameColumn (statisticsFrame rows) "amplitude" = .ok (rows.map fun r => some (r.row.key : ℝ)) := by
      simp [frameColumn, statisticsFrame, Dict.get?]
    have h2 : frameColumn (statisticsFrame rows) "mean" = .ok (rows.map fun r => some (r.mean : ℝ)) := by
      simp [frameColumn, statisticsFrame, Dict.get?]
    have h3 : frameColumn (statisticsFrame rows) "std" = .ok (rows.map (·.std)) := by
      simp [frameColumn, statisticsFrame, Dict.get?]
    unfold meanPoints
    simp only [h0, h1, h2, h3, List.map_map]
    congr 1
    clear h0 h1 h2 h3
    induction rows with
    | nil => rfl
    | cons r rows ih =>
      simp only [List.map_cons, List.zip_cons_cons, List.filter_cons, Function.comp, Option.some.injEq] at ih ⊢
      by_cases h : (r.row.pixel : ℝ) = pixel
      · simp [h, ih]
      · simp [h, ih]

theorem arrayMin_spec (x : List ℝ) (v : ℝ) (h : arrayMin x = .ok v) : v ∈ x ∧ ∀ y ∈ x, v ≤ y := by
  cases x with
  | nil => cases h
  | cons a xs =>
    rw [arrayMin, Except.ok.injEq] at h
    subst h
    induction xs using List.reverseRecOn with
    | nil => simp
    | append_singleton xs b ih =>
      rw [List.foldl_append, List.foldl_cons, List.foldl_nil]
      obtain ⟨i1, i2⟩ := ih
      constructor
      · rcases min_choice (xs.foldl min a) b with h | h
        · rw [h]; rcases List.mem_cons.1 i1 with h' | h'
          · rw [h']; simp
          · exact List.mem_cons_of_mem _ (List.mem_append_left _ h')
        · rw [h]; simp
      · intro y hy
        rcases List.mem_cons.1 hy with rfl | hy
        · exact le_trans (min_le_left _ _) (i2 y (by simp))
        · rcases List.mem_append.1 hy with hy | hy
          · exact le_trans (min_le_left _ _) (i2 y (by simp [hy]))
          · rw [List.mem_singleton.1 hy]; exact min_le_right _ _

theorem arrayMax_spec (x : List ℝ) (v : ℝ) (h : arrayMax x = .ok v) : v ∈ x ∧ ∀ y ∈ x, y ≤ v := by
  cases x with
  | nil => cases h
  | cons a xs =>
    rw [arrayMax, Except.ok.injEq] at h
    subst h
    induction xs using List.reverseRecOn with
    | nil => simp
    | append_singleton xs b ih =>
      rw [List.foldl_append, List.foldl_cons, List.foldl_nil]
      obtain ⟨i1, i2⟩ := ih
      constructor
      · rcases max_choice (xs.foldl max a) b with h | h
        · rw [h]; rcases List.mem_cons.1 i1 with h' | h'
          · rw [h']; simp
          · exact List.mem_cons_of_mem _ (List.mem_append_left _ h')
        · rw [h]; simp
      · intro y hy
        rcases List.mem_cons.1 hy with rfl | hy
        · exact le_trans (i2 y (by simp)) (le_max_left _ _)
        · rcases List.mem_append.1 hy with hy | hy
          · exact le_trans (i2 y (by simp [hy])) (le_max_left _ _)
          · rw [List.mem_singleton.1 hy]; exact le_max_right _ _

/-- the range recorded by the plotter is that of the charges drawn -/
def RangeOf (s : MeanPlot) : Prop :=
  (s.curves = [] ∧ s.xMin = none ∧ s.xMax = none) ∨
  ∃ a b, s.xMin = some a ∧ s.xMax = some b ∧ (∀ c ∈ s.curves, ∀ p ∈ c, a ≤ p.1 ∧ p.1 ≤ b) ∧ (∃ c ∈ s.curves, ∃ p ∈ c, p.1 = a) ∧ ∃ c ∈ s.curves, ∃ p ∈ c, p.1 = b

theorem plot_range (edges : List (ℝ × ℝ) → List ℝ) (s s' : MeanPlot) (points : List (ℝ × ℝ)) (h : s.plot edges points = .ok s') (hs : RangeOf s) :
    RangeOf s' ∧ s'.curves = s.curves ++ [(binPoints (edges points) points).map fun p => (p.1, p.2 / p.1)] := by
  unfold MeanPlot.plot at h
  simp only at h
  cases hlo : arrayMin ((binPoints (edges points) points).map (·.1)) with
  | error e => rw [hlo] at h; cases h
  | ok lo =>
    cases hhi : arrayMax ((binPoints (edges points) points).map (·.1)) with
    | error e => rw [hlo, hhi] at h; cases h
    | ok hi =>
      rw [hlo, hhi] at h
      simp only [Except.ok.injEq] at h
      subst h
      refine ⟨Or.inr ?_, rfl⟩
      obtain ⟨l1, l2⟩ := arrayMin_spec _ _ hlo
      obtain ⟨h1, h2⟩ := arrayMax_spec _ _ hhi
      have hnew : ∀ p ∈ (binPoints (edges points) points).map fun p => (p.1, p.2 / p.1), lo ≤ p.1 ∧ p.1 ≤ hi := by
        intro p hp
        obtain ⟨q, hq, rfl⟩ := List.mem_map.1 hp
        exact ⟨l2 _ (List.mem_map.2 ⟨q, hq, rfl⟩), h2 _ (List.mem_map.2 ⟨q, hq, rfl⟩)⟩
      have hlo' : ∃ p ∈ (binPoints (edges points) points).map fun p => (p.1, p.2 / p.1), p.1 = lo := by
        obtain ⟨q, hq, e⟩ := List.mem_map.1 l1
        exact ⟨_, List.mem_map.2 ⟨q, hq, rfl⟩, e⟩
      have hhi' : ∃ p ∈ (binPoints (edges points) points).map fun p => (p.1, p.2 / p.1), p.1 = hi := by
        obtain ⟨q, hq, e⟩ := List.mem_map.1 h1
        exact ⟨_, List.mem_map.2 ⟨q, hq, rfl⟩, e⟩
      rcases hs with ⟨c0, m0, x0⟩ | ⟨a, b, m0, x0, hall, ha, hb⟩
      · refine ⟨lo, hi, by simp only [m0], by simp only [x0], ?_, ⟨_, by simp, hlo'⟩, ⟨_, by simp, hhi'⟩⟩
        intro c hc p hp
        simp only [c0, List.nil_append, List.mem_singleton] at hc
        subst hc
        exact hnew p hp
      · refine ⟨min a lo, max b hi, ?_, ?_, ?_, ?_, ?_⟩
        · simp only [m0]
          by_cases hc : a > lo
          · rw [if_pos hc, min_eq_right (le_of_lt hc)]
          · rw [if_neg hc, min_eq_left (not_lt.1 hc)]
        · simp only [x0]
          by_cases hc : b < hi
          · rw [if_pos hc, max_eq_right (le_of_lt hc)]
          · rw [if_neg hc, max_eq_left (not_lt.1 hc)]
        · intro c hc p hp
          rcases List.mem_append.1 hc with hc | hc
          · have := hall c hc p hp
            exact ⟨le_trans (min_le_left _ _) this.1, le_trans this.2 (le_max_left _ _)⟩
          · rw [List.mem_singleton.1 hc] at hp
            have := hnew p hp
            exact ⟨le_trans (min_le_right _ _) this.1, le_trans this.2 (le_max_right _ _)⟩
        · rcases min_choice a lo with e | e
          · obtain ⟨c, hc, p, hp, hpe⟩ := ha
            exact ⟨c, List.mem_append_left _ hc, p, hp, by rw [hpe, e]⟩
          · obtain ⟨p, hp, hpe⟩ := hlo'
            exact ⟨_, List.mem_append_right _ (List.mem_singleton.2 rfl), p, hp, by rw [hpe, e]⟩
        · rcases max_choice b hi with e | e
          · obtain ⟨c, hc, p, hp, hpe⟩ := hb
            exact ⟨c, List.mem_append_left _ hc, p, hp, by rw [hpe, e]⟩
          · obtain ⟨p, hp, hpe⟩ := hhi'
            exact ⟨_, List.mem_append_right _ (List.mem_singleton.2 rfl), p, hp, by rw [hpe, e]⟩

theorem plots_range (edges : List (ℝ × ℝ) → List ℝ) (s s' : MeanPlot) (data : List (List (ℝ × ℝ))) (h : s.plots edges data = .ok s') (hs : RangeOf s) :
    RangeOf s' ∧ s'.curves = s.curves ++ data.map fun points => (binPoints (edges points) points).map fun p => (p.1, p.2 / p.1) := by
  induction data generalizing s with
  | nil =>
    rw [MeanPlot.plots, Except.ok.injEq] at h
    subst h
    exact ⟨hs, by simp⟩
  | cons d data ih =>
    rw [MeanPlot.plots] at h
    cases hp : s.plot edges d with
    | error e => rw [hp] at h; cases h
    | ok s1 =>
      rw [hp] at h
      simp only at h
      obtain ⟨r1, c1⟩ := plot_range edges s s1 d hp hs
      obtain ⟨r2, c2⟩ := ih s1 h r1
      exact ⟨r2, by rw [c2, c1, List.map_cons, List.append_assoc, List.singleton_append]⟩

/-- C106: after any number of plots, every curve shows the mean charge of the bins divided by their mean amplitude, and the reference line reaches from the
smallest to the largest amplitude of all curves. -/
theorem C106_curves (edges : List (ℝ × ℝ) → List ℝ) (data : List (List (ℝ × ℝ))) (hne : data ≠ []) (s : MeanPlot) (h : MeanPlot.init.plots edges data = .ok s) :
    s.curves = (data.map fun points => (binPoints (edges points) points).map fun p => (p.1, p.2 / p.1)) ∧
    ∃ a b, s.line = .ok (a, b) ∧ (∀ c ∈ s.curves, ∀ p ∈ c, a ≤ p.1 ∧ p.1 ≤ b) ∧ (∃ c ∈ s.curves, ∃ p ∈ c, p.1 = a) ∧ ∃ c ∈ s.curves, ∃ p ∈ c, p.1 = b := by
  obtain ⟨hr, hc⟩ := plots_range edges _ s data h (Or.inl ⟨rfl, rfl, rfl⟩)
  have hc' : s.curves = data.map fun points => (binPoints (edges points) points).map fun p => (p.1, p.2 / p.1) := by
    rw [hc]; rfl
  refine ⟨hc', ?_⟩
  rcases hr with ⟨h0, _⟩ | ⟨a, b, m, x, rest⟩
  · exfalso
    rw [hc'] at h0
    exact hne (List.map_eq_nil_iff.1 h0)
  · exact ⟨a, b, by unfold MeanPlot.line; rw [m, x], rest⟩

/-- C106: a plot without any charge inside the bins raises `ValueError`, finishing without a plot `TypeError`. -/
theorem C106_errors (edges : List (ℝ × ℝ) → List ℝ) (s : MeanPlot) (points : List (ℝ × ℝ)) :
    (s.plot edges points = .error .valueError ↔ binPoints (edges points) points = []) ∧ MeanPlot.init.line = .error .typeError := by
  refine ⟨?_, rfl⟩
  unfold MeanPlot.plot
  simp only
  cases hb : binPoints (edges points) points with
  | nil => simp [arrayMin]
  | cons p ps => simp [arrayMin, arrayMax]

/-- two tables, of amplitudes 1 and 10, and of amplitude 5 -/
example : ∃ s, MeanPlot.init.plots (fun _ => [0.1, 2, 10]) [[(1, 2), (10, 5)], [(5, 5)]] = .ok s ∧ s.line = .ok (1, 10) := by
  have h1 : binPoints [0.1, 2, 10] [(1, 2), (10, 5)] = [(1, 2), (10, 5)] := by
    have f1 : ([(1, 2), (10, 5)] : List (ℝ × ℝ)).filter (fun p => inBin (0.1, 2, false) p.1) = [(1, 2)] := by norm_num [inBin, List.filter_cons]
    have f2 : ([(1, 2), (10, 5)] : List (ℝ × ℝ)).filter (fun p => inBin (2, 10, true) p.1) = [(10, 5)] := by norm_num [inBin, List.filter_cons]
    simp only [binPoints, binsOf, List.isEmpty_nil, List.isEmpty_cons, List.filterMap_cons, List.filterMap_nil, f1, f2]
    norm_num
  have h2 : binPoints [0.1, 2, 10] [(5, 5)] = [(5, 5)] := by
    have f1 : ([(5, 5)] : List (ℝ × ℝ)).filter (fun p => inBin (0.1, 2, false) p.1) = [] := by norm_num [inBin, List.filter_cons]
    have f2 : ([(5, 5)] : List (ℝ × ℝ)).filter (fun p => inBin (2, 10, true) p.1) = [(5, 5)] := by norm_num [inBin, List.filter_cons]
    simp only [binPoints, binsOf, List.isEmpty_nil, List.isEmpty_cons, List.filterMap_cons, List.filterMap_nil, f1, f2]
    norm_num
  refine ⟨_, by simp only [MeanPlot.plots, MeanPlot.plot, h1, h2, List.map_cons, List.map_nil, arrayMin, arrayMax, List.foldl_cons, List.foldl_nil, MeanPlot.init]; rfl, ?_⟩
  simp only [MeanPlot.line]
  norm_num

end Verif.Props
