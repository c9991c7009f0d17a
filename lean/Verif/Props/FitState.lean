import Verif.Props.SpectrumFitter

/-! # C138: values, histogram and curve of a fitter belong to the same fit -/

namespace Verif.Props

open Verif.Py Verif.Model Verif.Spec Verif.Lemmas

/-- what a user does with a fitter -/
inductive FitAction
  | fit (charges : List (List ℚ))
  | load (config : Option SpecConfig)
  | initial (illumination : Nat)
  | update (params : List SpecParam)

/-- the fitter after an action, completed or not -/
def FitAction.after (m : FitRequest → Except Err (Dict String ℚ)) (f : Fitter) : FitAction → Fitter
  | .fit charges => (f.apply m charges).1
  | .load config => (f.loadConfig config).1
  | .initial i => (f.updateInitial i).1
  | .update params => { f with coll := (f.coll.update params).1 }

/-- the results of a fitter belong together: the values are those found for the histogram it shows, and the curve runs from the first to the last edge of it -/
def Together (m : FitRequest → Except Err (Dict String ℚ)) (f : Fitter) : Prop :=
  ∀ values, f.values = some values →
    (∃ request : FitRequest, m request = .ok values ∧ f.histX = some request.histX ∧ f.histY = some request.histY) ∧
    ∀ spectra x ys, f.curve spectra = .ok (x, ys) → ∃ edges, f.edges = some edges ∧ x.head? = edges.head? ∧ x.getLast? = edges.getLast?

/-- the claim: they do after any use of a fitter -/
def AlwaysTogether : Prop :=
  ∀ (m : FitRequest → Except Err (Dict String ℚ)) (n : Nat) (params : List SpecParam) (nBins : Nat) (range : ℚ × ℚ) (actions : List FitAction),
    Together m (actions.foldl (FitAction.after m) (Fitter.new n params nBins range))

/-- a minimiser that fails unless the first of two bins has a single count -/
def pickyMinimiser (r : FitRequest) : Except Err (Dict String ℚ) := if r.histY = [[1, 0]] then .ok [("a", 7)] else .error .runtimeError

/-- the claim is false: after a fit that failed the values of the fit before are shown with the new histogram -/
theorem C138_false : ¬ AlwaysTogether := by
  intro h
  obtain ⟨⟨r, h1, -, h3⟩, -⟩ := h pickyMinimiser 1 [⟨"a", 1, (0, 5), false, false⟩] 2 (0, 4) [.fit [[1]], .fit [[3]]] [("a", 7)] (by decide +kernel)
  have e : ([FitAction.fit [[1]], .fit [[3]]].foldl (FitAction.after pickyMinimiser) (Fitter.new 1 [⟨"a", 1, (0, 5), false, false⟩] 2 (0, 4))).histY = some [[0, 1]] := by
    decide +kernel
  rw [e, Option.some.injEq] at h3
  unfold pickyMinimiser at h1
  rw [← h3, if_neg (by decide)] at h1
  cases h1

theorem linspace_ends (lo hi : ℚ) (n : Nat) (h : 1 < n) : (linspace lo hi n).head? = some lo ∧ (linspace lo hi n).getLast? = some hi := by
  have h1 : ((n : ℚ) - 1) ≠ 0 := by
    have : (1 : ℚ) < n := by exact_mod_cast h
    linarith
  unfold linspace
  constructor
  · rw [List.head?_eq_getElem?, List.getElem?_map, List.getElem?_range (by omega)]
    simp
  · rw [List.getLast?_eq_getElem?, List.length_map, List.length_range, List.getElem?_map, List.getElem?_range (by omega)]
    have : ((n - 1 : Nat) : ℚ) = (n : ℚ) - 1 := by
      rw [Nat.cast_sub (by omega)]
      simp
    simp only [Option.map_some, Option.some.injEq, this]
    field_simp
    ring

theorem curve_x (f : Fitter) (spectra : List ℚ → List (Dict String Nat) → List ℚ → List (List ℚ)) (x : List ℚ) (ys : List (Option (List ℚ)))
    (h : f.curve spectra = .ok (x, ys)) : x = linspace f.range.1 f.range.2 (f.nBins * 10) := by
  unfold Fitter.curve at h
  split at h
  · simp only at h
    split at h
    · cases h
    · simp only [Except.ok.injEq, Prod.mk.injEq] at h
      exact h.1.symm
  · cases h

/-- A completed fit with a range of some width: whatever happened before, the values are those found for the histogram of the charges given, and the curve spans
the edges of it. Missing from the full claim: the state after a fit that failed (`C138_failed`, `C138_bad_range`) or after loading another range
(`C138_loaded`). -/
theorem C138_partial (m : FitRequest → Except Err (Dict String ℚ)) (f : Fitter) (charges : List (List ℚ)) (r : FitRequest)
    (h : (f.apply m charges).2 = .ok r) (hn : 0 < f.nBins) (hr : f.range.1 < f.range.2) :
    Together m (f.apply m charges).1 ∧ (∃ values, (f.apply m charges).1.values = some values ∧ m r = .ok values) ∧
      (f.apply m charges).1.histX = some r.histX ∧ (f.apply m charges).1.histY = some r.histY ∧
      List.Forall₂ (HistogramOf f.nBins f.range.1 f.range.2) charges r.histY := by
  obtain ⟨-, -, hq, values, hm, hs⟩ := apply_ok m f charges r h
  have ho : outerEdges f.range = f.range := by simp [outerEdges, hr.ne]
  obtain ⟨e1, e2, e3, -⟩ := C86_edges f.nBins f.range hn
  rw [hs]
  refine ⟨?_, ⟨values, rfl, hm⟩, rfl, rfl, by rw [hq, ho]; exact histogramsOf_counts _ _ _⟩
  intro v hv
  simp only [Option.some.injEq] at hv
  subst hv
  refine ⟨⟨r, hm, rfl, rfl⟩, ?_⟩
  intro spectra x ys hc
  have hx := curve_x _ _ _ _ hc
  simp only at hx
  obtain ⟨l1, l2⟩ := linspace_ends f.range.1 f.range.2 (f.nBins * 10) (by omega)
  refine ⟨_, rfl, ?_, ?_⟩
  · rw [hx, l1, ho, List.head?_eq_getElem?, e2]
  · rw [hx, l2, ho, List.getLast?_eq_getElem?, e1, Nat.add_sub_cancel, e3]

/-- actions that leave the results of the latest fit alone: preparing other starting values, a configuration with the same bins and range, charges for another
number of illuminations -/
def Harmless (n nBins : Nat) (range : ℚ × ℚ) : FitAction → Prop
  | .fit charges => charges.length ≠ n
  | .load none => True
  | .load (some c) => c.nBins.getD nBins = nBins ∧ c.range.getD range = range
  | .initial _ => True
  | .update _ => True

/-- the results and what they depend on -/
def resultsOf (f : Fitter) : Option (List ℚ) × Option (List (List ℚ)) × Option (List ℚ) × Option (Dict String ℚ) × Nat × (ℚ × ℚ) × Nat :=
  (f.histX, f.histY, f.edges, f.values, f.nBins, f.range, f.coll.n)

theorem harmless_step (m : FitRequest → Except Err (Dict String ℚ)) (f : Fitter) (a : FitAction) (h : Harmless f.coll.n f.nBins f.range a) :
    resultsOf (a.after m f) = resultsOf f := by
  cases a with
  | fit charges =>
    simp only [FitAction.after, Fitter.apply]
    rw [if_pos (show charges.length ≠ f.coll.n from h)]
  | load config =>
    cases config with
    | none => rfl
    | some c =>
      obtain ⟨h1, h2⟩ := h
      simp only [FitAction.after, Fitter.loadConfig, resultsOf, h1, h2]
  | initial i =>
    simp only [FitAction.after, Fitter.updateInitial]
    cases hv : f.values with
    | none => rfl
    | some values => simp only [resultsOf, hv]
  | update params =>
    simp only [FitAction.after, Collection.update, resultsOf]
    rcases replaceParams f.coll.params params with ⟨ps, ok⟩
    cases ok <;> rfl

/-- the results stay together while only such actions follow -/
theorem C138_kept (m : FitRequest → Except Err (Dict String ℚ)) (f : Fitter) (charges : List (List ℚ)) (r : FitRequest)
    (h : (f.apply m charges).2 = .ok r) (hn : 0 < f.nBins) (hr : f.range.1 < f.range.2) (actions : List FitAction)
    (ha : ∀ a ∈ actions, Harmless f.coll.n f.nBins f.range a) :
    Together m (actions.foldl (FitAction.after m) (f.apply m charges).1) ∧
      resultsOf (actions.foldl (FitAction.after m) (f.apply m charges).1) = resultsOf (f.apply m charges).1 := by
  have h0 := (C138_partial m f charges r h hn hr).1
  obtain ⟨-, -, -, values, -, hs⟩ := apply_ok m f charges r h
  have hset : (f.apply m charges).1.nBins = f.nBins ∧ (f.apply m charges).1.range = f.range ∧ (f.apply m charges).1.coll.n = f.coll.n ∧
      (f.apply m charges).1.edges = some (histEdges f.nBins f.range) := by
    rw [hs]
    refine ⟨rfl, rfl, ?_, by simp [outerEdges, hr.ne]⟩
    simp only [Collection.lookupTyped]
    cases f.coll.typed <;> rfl
  generalize (f.apply m charges).1 = g at h0 hset
  have key : ∀ (actions : List FitAction) (k : Fitter), resultsOf k = resultsOf g → (∀ a ∈ actions, Harmless f.coll.n f.nBins f.range a) →
      resultsOf (actions.foldl (FitAction.after m) k) = resultsOf g := by
    intro actions
    induction actions with
    | nil => exact fun k hk _ => hk
    | cons a actions ih =>
      intro k hk ha
      have hk' := hk
      simp only [resultsOf, Prod.mk.injEq] at hk'
      obtain ⟨-, -, -, -, k1, k2, k3⟩ := hk'
      refine ih _ ?_ fun b hb => ha b (by simp [hb])
      rw [harmless_step m k a (by rw [k1, k2, k3, hset.1, hset.2.1, hset.2.2.1]; exact ha a (by simp)), hk]
  have hres := key actions g rfl ha
  refine ⟨?_, hres⟩
  generalize actions.foldl (FitAction.after m) g = k at hres
  simp only [resultsOf, Prod.mk.injEq] at hres
  obtain ⟨k1, k2, k3, k4, k5, k6, k7⟩ := hres
  intro v hv
  rw [k4] at hv
  obtain ⟨t1, t2⟩ := h0 v hv
  rw [k1, k2, k3]
  refine ⟨t1, ?_⟩
  intro spectra x ys hc
  have hx := curve_x _ _ _ _ hc
  rw [k5, k6, hset.1, hset.2.1] at hx
  obtain ⟨l1, l2⟩ := linspace_ends f.range.1 f.range.2 (f.nBins * 10) (by omega)
  obtain ⟨e1, e2, e3, -⟩ := C86_edges f.nBins f.range hn
  refine ⟨_, hset.2.2.2, ?_, ?_⟩
  · rw [hx, l1, List.head?_eq_getElem?, e2]
  · rw [hx, l2, List.getLast?_eq_getElem?, e1, Nat.add_sub_cancel, e3]

/-- a fit followed by a look at other starting values and charges for two illuminations -/
example : ((Fitter.new 1 [⟨"a", 1, (0, 5), false, false⟩] 2 (0, 4)).apply pickyMinimiser [[1]]).2.isOk = true ∧
    ∀ a ∈ [FitAction.initial 0, .fit [[1], [2]], .load (some ⟨some 2, none, some (some [("a", 3)]), none, none⟩)], Harmless 1 2 (0, 4) a := by
  refine ⟨by decide +kernel, ?_⟩
  intro a ha
  simp only [List.mem_cons, List.not_mem_nil, or_false] at ha
  rcases ha with rfl | rfl | rfl
  · trivial
  · exact (by decide : [[(1 : ℚ)], [2]].length ≠ 1)
  · exact ⟨rfl, rfl⟩

/-- a fit that fails with charges for each illumination, bins and a range of some width: the minimiser gave up on a request with the histogram of the new
charges, which is what the fitter has from then on, while the values are still the old ones -/
theorem C138_failed (m : FitRequest → Except Err (Dict String ℚ)) (f : Fitter) (charges : List (List ℚ)) (e : Err) (hc : charges.length = f.coll.n)
    (hn : 0 < f.nBins) (hr : f.range.1 < f.range.2) (h : (f.apply m charges).2 = .error e) :
    (f.apply m charges).1.values = f.values ∧ ∃ r : FitRequest, m r = .error e ∧ (f.apply m charges).1.histX = some r.histX ∧
      (f.apply m charges).1.histY = some r.histY ∧ List.Forall₂ (HistogramOf f.nBins f.range.1 f.range.2) charges r.histY ∧
      ∀ k : Nat, r.histX[k]? = if k < f.nBins then some (f.range.1 + (k + 1 / 2) * (f.range.2 - f.range.1) / f.nBins) else none := by
  have ho : outerEdges f.range = f.range := by simp [outerEdges, hr.ne]
  unfold Fitter.apply at h ⊢
  rw [if_neg (by omega), if_neg (by rintro ⟨-, h⟩; exact h ⟨hn, hr.le⟩)] at h ⊢
  simp only [ho] at h ⊢
  cases hm : m ⟨f.coll.prep.kwargs, f.coll.prep.names, midpoints (histEdges f.nBins f.range), charges.map (histCounts f.nBins f.range), f.coll.lookupTyped.2⟩ with
  | ok v => rw [hm] at h; cases h
  | error e' =>
    rw [hm] at h
    simp only [Except.error.injEq] at h
    subst h
    exact ⟨rfl, _, hm, rfl, rfl, histogramsOf_counts _ _ _, fun k => midpoints_histEdges _ _ k⟩

/-- the minimiser of `C138_false` gives up on the charge of the second fit -/
example : (((Fitter.new 1 [⟨"a", 1, (0, 5), false, false⟩] 2 (0, 4)).apply pickyMinimiser [[1]]).1.apply pickyMinimiser [[3]]).2.isOk = false := by
  decide +kernel

/-- charges for another number of illuminations are refused, and the fitter has everything it had -/
theorem C138_refused (m : FitRequest → Except Err (Dict String ℚ)) (f : Fitter) (charges : List (List ℚ)) (hc : charges.length ≠ f.coll.n) :
    f.apply m charges = (f, .error .assertionError) := by
  unfold Fitter.apply
  rw [if_pos hc]

/-- charges of two illuminations for a fitter of one -/
example : (Fitter.new 1 [⟨"a", 1, (0, 5), false, false⟩] 2 (0, 4)).apply pickyMinimiser [[1], [2]] =
    (Fitter.new 1 [⟨"a", 1, (0, 5), false, false⟩] 2 (0, 4), .error .assertionError) := C138_refused _ _ _ (by decide)

/-- a fit with a decreasing range or without bins: no histogram is left and the curve cannot be had -/
theorem C138_bad_range (m : FitRequest → Except Err (Dict String ℚ)) (f : Fitter) (charges : List (List ℚ)) (hc : charges.length = f.coll.n) (h0 : 0 < f.coll.n)
    (h : f.nBins = 0 ∨ f.range.2 < f.range.1) (spectra : List ℚ → List (Dict String Nat) → List ℚ → List (List ℚ)) :
    (f.apply m charges).2 = .error .valueError ∧ (f.apply m charges).1.values = f.values ∧ (f.apply m charges).1.histY = some [] ∧
      ∃ e, (f.apply m charges).1.curve spectra = .error e := by
  unfold Fitter.apply
  rw [if_neg (by omega), if_pos ⟨h0, by rintro ⟨h1, h2⟩; rcases h with h | h <;> [omega; linarith]⟩]
  refine ⟨rfl, rfl, rfl, ?_⟩
  unfold Fitter.curve
  simp only
  cases f.values with
  | none => exact ⟨_, rfl⟩
  | some values =>
    cases f.histX with
    | none => exact ⟨_, rfl⟩
    | some x =>
      simp only [List.length_nil, h0, true_or, if_true]
      exact ⟨_, rfl⟩

/-- after loading another range the curve spans the new one, the histogram the old one -/
theorem C138_loaded (f : Fitter) (c : SpecConfig) (spectra : List ℚ → List (Dict String Nat) → List ℚ → List (List ℚ)) (x : List ℚ) (ys : List (Option (List ℚ)))
    (hn : 0 < c.nBins.getD f.nBins) (h : (f.loadConfig (some c)).1.curve spectra = .ok (x, ys)) :
    x.head? = some (c.range.getD f.range).1 ∧ x.getLast? = some (c.range.getD f.range).2 ∧
      (f.loadConfig (some c)).1.histX = f.histX ∧ (f.loadConfig (some c)).1.histY = f.histY ∧ (f.loadConfig (some c)).1.edges = f.edges ∧
      (f.loadConfig (some c)).1.values = f.values := by
  have hx := curve_x _ _ _ _ h
  simp only [Fitter.loadConfig] at hx
  obtain ⟨l1, l2⟩ := linspace_ends (c.range.getD f.range).1 (c.range.getD f.range).2 (c.nBins.getD f.nBins * 10) (by omega)
  rw [hx]
  exact ⟨l1, l2, rfl, rfl, rfl, rfl⟩

/-- The points of the curve: ten for every bin, the first and last where the range begins and ends, and all equally far apart. -/
theorem C138_points (f : Fitter) (spectra : List ℚ → List (Dict String Nat) → List ℚ → List (List ℚ)) (x : List ℚ) (ys : List (Option (List ℚ)))
    (hn : 0 < f.nBins) (h : f.curve spectra = .ok (x, ys)) :
    x.length = 10 * f.nBins ∧ x.head? = some f.range.1 ∧ x.getLast? = some f.range.2 ∧
      ∀ (k : Nat) (a b : ℚ), x[k]? = some a → x[k + 1]? = some b → (b - a) * (10 * f.nBins - 1) = f.range.2 - f.range.1 := by
  obtain rfl := curve_x _ _ _ _ h
  obtain ⟨l1, l2⟩ := linspace_ends f.range.1 f.range.2 (f.nBins * 10) (by omega)
  refine ⟨by simp [linspace, Nat.mul_comm], l1, l2, ?_⟩
  intro k a b ha hb
  have hb' : k + 1 < f.nBins * 10 := by
    have := (List.getElem?_eq_some_iff.1 hb).1
    simpa [linspace] using this
  have h1 : ((f.nBins * 10 : Nat) : ℚ) - 1 ≠ 0 := by
    have : ((1 : Nat) : ℚ) < ((f.nBins * 10 : Nat) : ℚ) := by exact_mod_cast (by omega : 1 < f.nBins * 10)
    push_cast at this ⊢
    linarith
  unfold linspace at ha hb
  rw [List.getElem?_map, List.getElem?_range (by omega), Option.map_some, Option.some.injEq] at ha
  rw [List.getElem?_map, List.getElem?_range hb', Option.map_some, Option.some.injEq] at hb
  subst ha hb
  push_cast at h1 ⊢
  have h2 : (10 * (f.nBins : ℚ) - 1) = (f.nBins : ℚ) * 10 - 1 := by ring
  rw [h2]
  field_simp
  ring

end Verif.Props
