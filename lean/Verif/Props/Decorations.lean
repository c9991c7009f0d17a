import Verif.Model.Decorations

/-!
# C184: what saved and shown plots carry
-/

namespace Verif.Props

open Verif.Py Verif.Model

/-! ### specification -/

/-- the label of an axis and its units in brackets -/
def AxisText (base units text : String) : Prop := (units = "" ∧ text = base) ∨ (units ≠ "" ∧ text.toList = base.toList ++ " (".toList ++ units.toList ++ ")".toList)

/-- the decorations a plot of this kind should have -/
def Decorated (k : Finisher) (f : Face) : Prop :=
  match k with
  | .plain => True
  | .waveform title units tunits => f.title = title ∧ AxisText "Time" tunits f.xlabel ∧ AxisText "Amplitude" units f.ylabel ∧ f.step = some 16
  | .resolution => f.xlabel = "True Charge (p.e.)" ∧ f.ylabel = "Charge Resolution / True" ∧ f.xlog ∧ f.ylog
  | .relative => f.xlabel = "True Charge (p.e.)" ∧ f.ylabel = "(Charge Resolution / True) / Requirement" ∧ f.xlog
  | .mean => f.xlabel = "True Charge (p.e.)" ∧ f.ylabel = "Charge Average / True" ∧ f.xlog ∧ 1 ≤ f.guides
  | .spectrum => f.xlabel = "Charge (mV ns)" ∧ f.ylabel = "N" ∧ f.legend ≠ none

/-- the curve a call draws: points from the two arrays, the numbers of the samples without the first -/
def IsCurve (x : Option (List ℚ)) (data : List ℚ) (points : List (ℚ × ℚ)) : Prop :=
  points.length = data.length ∧ ∀ (i : Nat) p, points[i]? = some p → data[i]? = some p.2 ∧
    match x with
    | none => p.1 = i
    | some xs => xs[i]? = some p.1

/-- the curves of the calls, in order -/
inductive Curves : List FaceOp → List (String × List (ℚ × ℚ)) → Prop
  | nil : Curves [] []
  | curve (label x data points ops l) : IsCurve x data points → Curves ops l → Curves (.curve label x data :: ops) ((label, points) :: l)
  | other (op ops l) : (∀ label x data, op ≠ .curve label x data) → Curves ops l → Curves (op :: ops) l

/-- calls that leave title and labels as they are -/
def KeepsText : FaceOp → Prop
  | .setTitle _ | .setXlabel _ | .setYlabel _ => False
  | _ => True

/-! ### proofs -/

theorem withUnits_text (base units : String) : AxisText base units (withUnits base units) := by
  unfold AxisText withUnits
  by_cases h : units = ""
  · left; simp [h]
  · right; simp [h, String.toList_append]

theorem finishFace_decorated (k : Finisher) (f g : Face) (h : finishFace k f = .ok g) : Decorated k g ∧ g.curves = f.curves := by
  cases k <;> simp only [finishFace] at h
  · cases h; exact ⟨trivial, rfl⟩
  · cases h; exact ⟨⟨rfl, withUnits_text _ _, withUnits_text _ _, rfl⟩, rfl⟩
  · cases h; exact ⟨⟨rfl, rfl, rfl, rfl⟩, rfl⟩
  · cases h; exact ⟨⟨rfl, rfl, rfl⟩, rfl⟩
  · split at h
    · cases h
    · cases h; exact ⟨⟨rfl, rfl, rfl, by simp⟩, rfl⟩
  · cases h; exact ⟨⟨rfl, rfl, by simp [Face.addLegend]⟩, rfl⟩

theorem addCurve_spec (f g : Face) (label : String) (x : Option (List ℚ)) (data : List ℚ) (h : addCurve f label x data = .ok g) :
    ∃ points, IsCurve x data points ∧ g = { f with curves := f.curves ++ [(label, points)] } := by
  cases x with
  | none =>
    simp only [addCurve] at h
    cases h
    refine ⟨_, ⟨by simp, fun i p hp => ?_⟩, rfl⟩
    rw [List.getElem?_map, List.getElem?_zipIdx] at hp
    cases hd : data[i]? with
    | none => rw [hd] at hp; cases hp
    | some d =>
      rw [hd] at hp
      simp at hp
      subst hp
      simp
  | some xs =>
    simp only [addCurve] at h
    split at h
    · cases h
    · rename_i hl
      cases h
      refine ⟨_, ⟨by simp; omega, fun i p hp => ?_⟩, rfl⟩
      rw [List.getElem?_zip_eq_some] at hp
      exact ⟨hp.2, hp.1⟩

theorem faceRun_append (k : Finisher) (s : FaceState) (a b : List FaceOp) :
    faceRun k s (a ++ b) = match faceRun k s a with
      | .error e => .error e
      | .ok t => faceRun k t b := by
  induction a generalizing s with
  | nil => rfl
  | cons op a ih =>
    rw [List.cons_append]
    simp only [faceRun]
    cases faceStep k s op with
    | error e => rfl
    | ok t => exact ih t

/-- **C184**, curves: whatever is called, the axes carry the curves of the calls in order, each with its label and its points: those of the two arrays, or
the numbers of the samples and the data. Every picture carries those drawn until then. -/
theorem C184_curves (k : Finisher) (s t : FaceState) (ops : List FaceOp) (h : faceRun k s ops = .ok t) :
    (∃ l, Curves ops l ∧ t.face.curves = s.face.curves ++ l) ∧
    ∃ new, t.pictures = s.pictures ++ new ∧ ∀ p ∈ new, ∃ pre post l, ops = pre ++ post ∧ Curves pre l ∧ p.curves = s.face.curves ++ l := by
  induction ops generalizing s with
  | nil =>
    unfold faceRun at h
    cases h
    exact ⟨⟨[], .nil, by simp⟩, [], by simp, by simp⟩
  | cons op ops ih =>
    unfold faceRun at h
    cases hs : faceStep k s op with
    | error e => rw [hs] at h; cases h
    | ok u =>
      rw [hs] at h
      obtain ⟨⟨l, hl, hc⟩, new, hn, hp⟩ := ih u h
      -- one call that draws no curve
      have key : (∀ label x data, op ≠ .curve label x data) → u.face.curves = s.face.curves → (∃ q, u.pictures = s.pictures ++ q ∧ ∀ p ∈ q, p.curves = s.face.curves) →
          (∃ l, Curves (op :: ops) l ∧ t.face.curves = s.face.curves ++ l) ∧
          ∃ new, t.pictures = s.pictures ++ new ∧ ∀ p ∈ new, ∃ pre post l, op :: ops = pre ++ post ∧ Curves pre l ∧ p.curves = s.face.curves ++ l := by
        rintro hop hu ⟨q, hq, hqc⟩
        refine ⟨⟨l, .other _ _ _ hop hl, by rw [hc, hu]⟩, q ++ new, by rw [hn, hq, List.append_assoc], fun p hpm => ?_⟩
        rcases List.mem_append.1 hpm with h1 | h1
        · exact ⟨[], _, [], rfl, .nil, by rw [hqc p h1]; simp⟩
        · obtain ⟨pre, post, m, e1, e2, e3⟩ := hp p h1
          exact ⟨op :: pre, post, m, by rw [e1]; rfl, .other _ _ _ hop e2, by rw [e3, hu]⟩
      cases op with
      | curve label x data =>
        simp only [faceStep] at hs
        cases ha : addCurve s.face label x data with
        | error e => rw [ha] at hs; cases hs
        | ok f =>
          rw [ha] at hs
          cases hs
          obtain ⟨points, hpt, rfl⟩ := addCurve_spec _ _ _ _ _ ha
          refine ⟨⟨(label, points) :: l, .curve _ _ _ _ _ _ hpt hl, by rw [hc]; simp⟩, new, hn, fun p hpm => ?_⟩
          obtain ⟨pre, post, m, e1, e2, e3⟩ := hp p hpm
          exact ⟨_ :: pre, post, (label, points) :: m, by rw [e1]; rfl, .curve _ _ _ _ _ _ hpt e2, by rw [e3]; simp⟩
      | setTitle x => cases hs; exact key (by simp) rfl ⟨[], by simp, by simp⟩
      | setXlabel x => cases hs; exact key (by simp) rfl ⟨[], by simp, by simp⟩
      | setYlabel x => cases hs; exact key (by simp) rfl ⟨[], by simp, by simp⟩
      | addLegend => cases hs; exact key (by simp) rfl ⟨[], by simp, by simp⟩
      | finish =>
        simp only [faceStep] at hs
        cases hf : finishFace k s.face with
        | error e => rw [hf] at hs; cases hs
        | ok f =>
          rw [hf] at hs
          cases hs
          exact key (by simp) (finishFace_decorated k _ _ hf).2 ⟨[], by simp, by simp⟩
      | save =>
        simp only [faceStep] at hs
        cases hf : finishFace k s.face with
        | error e => rw [hf] at hs; cases hs
        | ok f =>
          rw [hf] at hs
          cases hs
          exact key (by simp) (finishFace_decorated k _ _ hf).2 ⟨[f], rfl, by simpa using (finishFace_decorated k _ _ hf).2⟩
      | showWindow =>
        simp only [faceStep, Except.ok.injEq] at hs
        by_cases ho : s.opened = true
        · rw [if_pos ho] at hs
          subst hs
          exact key (by simp) rfl ⟨[s.face], rfl, by simp⟩
        · rw [if_neg ho] at hs
          subst hs
          exact key (by simp) rfl ⟨[], by simp, by simp⟩

/-- **C184**, saved pictures: every file has the labels of its kind, whatever the user set before; a title the user set on the axes of a
`WaveformPlotter` is replaced by that of the plotter, also by an empty one. -/
theorem C184_saved (k : Finisher) (s t : FaceState) (ops : List FaceOp) (h : faceRun k s (ops ++ [.save]) = .ok t) :
    ∃ p, t.pictures.getLast? = some p ∧ Decorated k p ∧ t.face = p ∧ t.opened = false := by
  rw [faceRun_append] at h
  cases ha : faceRun k s ops with
  | error e => rw [ha] at h; cases h
  | ok u =>
    rw [ha] at h
    simp only [faceRun, faceStep] at h
    cases hf : finishFace k u.face with
    | error e => rw [hf] at h; cases h
    | ok f =>
      rw [hf] at h
      cases h
      exact ⟨f, by simp, (finishFace_decorated k _ _ hf).1, rfl, rfl⟩

/-- **C184**, when saving fails: exactly for a `ChargeMeanPlotter` without a curve, with `TypeError` -/
theorem C184_save_fails (k : Finisher) (s : FaceState) :
    (∀ e, faceStep k s .save = .error e ↔ k = .mean ∧ s.face.curves = [] ∧ e = .typeError) := by
  intro e
  cases k <;> simp [faceStep, finishFace]
  by_cases hc : s.face.curves = []
  · simp [hc, eq_comm]
  · simp [hc]

/-- the claim for pictures that are shown: what the plotter draws and shows carries its labels -/
def ShownDecorated : Prop := ∀ (k : Finisher) (ops : List FaceOp) (t : FaceState), faceRun k .init (ops ++ [.showWindow]) = .ok t →
  ∀ p, t.pictures.getLast? = some p → Decorated k p

/-- **C184** is false for shown pictures: `show` does not call `finish`, the window has neither the labels of the axes nor a legend, as in the plot mode of
`extract_spe` (`scripts/extract_spe.py:135-144`) -/
theorem C184_false : ¬ ShownDecorated := by
  intro h
  have := h .spectrum [.curve "λ_0" none [1, 2]] _ rfl _ rfl
  exact absurd this.1 (by decide)

/-- keeping the decorations -/
theorem faceStep_keeps (k : Finisher) (s u : FaceState) (op : FaceOp) (hop : KeepsText op) (h : faceStep k s op = .ok u) (hd : Decorated k s.face) :
    Decorated k u.face := by
  cases op with
  | curve label x data =>
    simp only [faceStep] at h
    cases ha : addCurve s.face label x data with
    | error e => rw [ha] at h; cases h
    | ok f =>
      rw [ha] at h
      cases h
      obtain ⟨points, -, rfl⟩ := addCurve_spec _ _ _ _ _ ha
      cases k <;> exact hd
  | setTitle x => exact absurd hop id
  | setXlabel x => exact absurd hop id
  | setYlabel x => exact absurd hop id
  | addLegend =>
    cases h
    cases k <;> simp_all [Decorated, Face.addLegend]
  | finish =>
    simp only [faceStep] at h
    cases hf : finishFace k s.face with
    | error e => rw [hf] at h; cases h
    | ok f =>
      rw [hf] at h
      cases h
      exact (finishFace_decorated k _ _ hf).1
  | save =>
    simp only [faceStep] at h
    cases hf : finishFace k s.face with
    | error e => rw [hf] at h; cases h
    | ok f =>
      rw [hf] at h
      cases h
      exact (finishFace_decorated k _ _ hf).1
  | showWindow =>
    simp only [faceStep] at h
    cases h
    split <;> exact hd

theorem faceRun_keeps (k : Finisher) (s u : FaceState) (ops : List FaceOp) (hops : ∀ op ∈ ops, KeepsText op) (h : faceRun k s ops = .ok u)
    (hd : Decorated k s.face) : Decorated k u.face := by
  induction ops generalizing s with
  | nil => cases h; exact hd
  | cons op ops ih =>
    unfold faceRun at h
    cases hs : faceStep k s op with
    | error e => rw [hs] at h; cases h
    | ok v =>
      rw [hs] at h
      exact ih v (fun o ho => hops o (by simp [ho])) h (faceStep_keeps k s v op (hops op (by simp)) hs hd)

/-- **C184**, what holds of shown pictures: after a call of `finish` the figure, if it is open, is shown with its labels, as long as the user sets no others. Missing from the full
claim: plots shown without a call of `finish`. -/
theorem C184_shown_partial (k : Finisher) (s t : FaceState) (before after : List FaceOp) (hk : ∀ op ∈ after, KeepsText op)
    (h : faceRun k s (before ++ [.finish] ++ after ++ [.showWindow]) = .ok t) (ho : t.opened = true) :
    ∃ p, t.pictures.getLast? = some p ∧ Decorated k p := by
  rw [faceRun_append, faceRun_append, faceRun_append] at h
  cases h1 : faceRun k s before with
  | error e => rw [h1] at h; cases h
  | ok a =>
    rw [h1] at h
    simp only [faceRun, faceStep] at h
    cases hf : finishFace k a.face with
    | error e => rw [hf] at h; cases h
    | ok f =>
      rw [hf] at h
      simp only at h
      cases h2 : faceRun k { a with face := f } after with
      | error e => rw [h2] at h; cases h
      | ok b =>
        rw [h2] at h
        simp only [Except.ok.injEq] at h
        have hd := faceRun_keeps k _ b after hk h2 (finishFace_decorated k _ _ hf).1
        subst h
        by_cases hb : b.opened = true
        · rw [if_pos hb]
          exact ⟨b.face, by simp, hd⟩
        · rw [if_neg hb] at ho
          exact absurd ho hb

/-- **C184**, exactly: a new plotter on which only curves were drawn is shown decorated exactly when it is a plain one -/
theorem C184_shown_exactly_partial (k : Finisher) (ops : List FaceOp) (hc : ∀ op ∈ ops, ∃ label x data, op = .curve label x data) (t : FaceState)
    (h : faceRun k .init (ops ++ [.showWindow]) = .ok t) (p : Face) (hp : t.pictures.getLast? = some p) : Decorated k p ↔ k = .plain := by
  have key : ∀ (s u : FaceState) (l : List FaceOp), (∀ op ∈ l, ∃ label x data, op = .curve label x data) → faceRun k s l = .ok u →
      u.opened = s.opened ∧ u.face.xlabel = s.face.xlabel := by
    intro s u l hl hr
    induction l generalizing s with
    | nil => cases hr; exact ⟨rfl, rfl⟩
    | cons op l ih =>
      obtain ⟨label, x, data, rfl⟩ := hl op (by simp)
      simp only [faceRun, faceStep] at hr
      cases ha : addCurve s.face label x data with
      | error e => rw [ha] at hr; cases hr
      | ok f =>
        rw [ha] at hr
        obtain ⟨points, -, rfl⟩ := addCurve_spec _ _ _ _ _ ha
        obtain ⟨h1, h2⟩ := ih _ (fun o ho => hl o (by simp [ho])) hr
        exact ⟨h1, h2⟩
  rw [faceRun_append] at h
  cases h1 : faceRun k .init ops with
  | error e => rw [h1] at h; cases h
  | ok u =>
    rw [h1] at h
    obtain ⟨ho, hx⟩ := key _ u ops hc h1
    have ho' : u.opened = true := ho
    simp only [faceRun, faceStep, ho', if_true, Except.ok.injEq] at h
    subst h
    simp only [List.getLast?_append, List.getLast?_singleton, Option.some_or, Option.some.injEq] at hp
    subst hp
    have hx' : u.face.xlabel = "" := hx
    cases k with
    | plain => simp [Decorated]
    | waveform title units tunits =>
      simp only [Decorated, hx', reduceCtorEq, iff_false]
      rintro ⟨-, h, -⟩
      rcases h with ⟨-, h⟩ | ⟨-, h⟩
      · exact absurd h (by decide)
      · have := congrArg List.length h
        simp at this
    | resolution => simp [Decorated, hx']
    | relative => simp [Decorated, hx']
    | mean => simp [Decorated, hx']
    | spectrum => simp [Decorated, hx']

/-- **C184**, saving again: the second file has the same picture; only that of a `ChargeMeanPlotter` has one more grey line, over the first -/
theorem C184_twice (k : Finisher) (s t : FaceState) (h : faceRun k s [.save, .save] = .ok t) :
    ∃ p q, t.pictures = s.pictures ++ [p, q] ∧ q = { p with guides := if k = .mean then p.guides + 1 else p.guides } := by
  simp only [faceRun, faceStep] at h
  cases hf : finishFace k s.face with
  | error e => rw [hf] at h; cases h
  | ok f =>
    rw [hf] at h
    simp only at h
    cases hg : finishFace k f with
    | error e => rw [hg] at h; cases h
    | ok g =>
      rw [hg] at h
      cases h
      refine ⟨f, g, by simp, ?_⟩
      cases k <;> simp only [finishFace] at hf hg
      · cases hf; cases hg; rfl
      · cases hf; cases hg; rfl
      · cases hf; cases hg; rfl
      · cases hf; cases hg; rfl
      · split at hf
        · cases hf
        · cases hf
          split at hg
          · cases hg
          · cases hg; rfl
      · cases hf; cases hg; rfl

/-- **C184**, the legend: that of a saved spectrum has an entry for each curve that has a label, in the order of the curves; one made before by
`add_legend` lacks the curves drawn after it, and is replaced. -/
theorem C184_legend (s t : FaceState) (h : faceStep .spectrum s .save = .ok t) :
    ∃ l, t.face.legend = some l ∧ l.Sublist (s.face.curves.map Prod.fst) ∧
      ∀ x, l.count x = if x = "" ∨ x.toList.head? = some '_' then 0 else (s.face.curves.map Prod.fst).count x := by
  simp only [faceStep, finishFace] at h
  cases h
  refine ⟨_, rfl, List.filter_sublist, fun x => ?_⟩
  unfold legendLabels
  split
  · rename_i hx
    rw [List.count_eq_zero]
    intro hm
    have := (List.mem_filter.1 hm).2
    simp only [Bool.and_eq_true, decide_eq_true_eq, ne_eq] at this
    rcases hx with hx | hx
    · exact this.1 hx
    · exact this.2 hx
  · rename_i hx
    rw [not_or] at hx
    rw [List.count_filter]
    simp only [Bool.and_eq_true, decide_eq_true_eq, ne_eq]
    exact hx

/-- **C184**, `add_legend` of any plotter keeps its entries when curves are drawn later -/
theorem C184_early_legend (k : Finisher) (s t : FaceState) (ops : List FaceOp) (hc : ∀ op ∈ ops, ∃ label x data, op = .curve label x data)
    (h : faceRun k s (.addLegend :: ops) = .ok t) : t.face.legend = some (legendLabels s.face.curves) := by
  simp only [faceRun, faceStep] at h
  have key : ∀ (a b : FaceState) (l : List FaceOp), (∀ op ∈ l, ∃ label x data, op = .curve label x data) → faceRun k a l = .ok b →
      b.face.legend = a.face.legend := by
    intro a b l hl hr
    induction l generalizing a with
    | nil => cases hr; rfl
    | cons op l ih =>
      obtain ⟨label, x, data, rfl⟩ := hl op (by simp)
      simp only [faceRun, faceStep] at hr
      cases ha : addCurve a.face label x data with
      | error e => rw [ha] at hr; cases hr
      | ok f =>
        rw [ha] at hr
        obtain ⟨points, -, rfl⟩ := addCurve_spec _ _ _ _ _ ha
        have := ih { a with face := { a.face with curves := a.face.curves ++ [(label, points)] } } (fun o ho => hl o (by simp [ho])) hr
        exact this
  exact key _ t ops hc h

/-- **C184**, arrays of other lengths: `ValueError`, nothing is drawn -/
theorem C184_lengths (k : Finisher) (s : FaceState) (label : String) (x : Option (List ℚ)) (data : List ℚ) :
    (∃ e, faceStep k s (.curve label x data) = .error e) ↔ ∃ xs, x = some xs ∧ xs.length ≠ data.length := by
  cases x with
  | none => simp [faceStep, addCurve]
  | some xs =>
    by_cases h : xs.length = data.length <;> simp [faceStep, addCurve, h]

/-! ### cases -/

/-- two waveforms, a title of the user, saved -/
def twoWaveforms : List FaceOp := [.curve "a" none [4, 5], .setTitle "mine", .curve "" (some [10, 11]) [6, 7], .save]

example : ∃ t, faceRun (.waveform "" "mV" "ns") .init twoWaveforms = .ok t ∧
    t.pictures.map (fun p => (p.title, p.xlabel, p.ylabel)) = [("", "Time (ns)", "Amplitude (mV)")] := ⟨_, rfl, by decide⟩

example : ∃ t p, faceRun (.waveform "" "mV" "ns") .init ([.curve "a" none [4, 5], .setTitle "mine"] ++ [.save]) = .ok t ∧ t.pictures.getLast? = some p ∧
    Decorated (.waveform "" "mV" "ns") p := by
  obtain ⟨p, h1, h2, -⟩ := C184_saved (.waveform "" "mV" "ns") .init _ [.curve "a" none [4, 5], .setTitle "mine"] rfl
  exact ⟨_, p, rfl, h1, h2⟩

example : ∃ t, faceRun .spectrum .init ([.curve "λ_0" none [1, 2]] ++ [.finish] ++ [.curve "λ_1" none [3]] ++ [.showWindow]) = .ok t ∧ t.opened = true :=
  ⟨_, rfl, rfl⟩

example : ∃ t, faceRun .mean .init [.curve "" none [1], .save, .save] = .ok t ∧ t.pictures.map Face.guides = [1, 2] := ⟨_, rfl, by decide⟩

example : ∃ t, faceRun .spectrum .init [.curve "λ_0" none [1], .addLegend, .curve "λ_1" none [1], .curve "" none [2]] = .ok t ∧
    t.face.legend = some ["λ_0"] ∧ ∃ u, faceStep .spectrum t .save = .ok u ∧ u.face.legend = some ["λ_0", "λ_1"] := by
  refine ⟨_, rfl, ?_, _, rfl, ?_⟩ <;> decide

example : ∃ e, faceStep .plain .init (.curve "" (some [1]) [1, 2]) = .error e := (C184_lengths _ _ _ _ _).2 ⟨[1], rfl, by decide⟩

example : faceStep .mean .init .save = .error .typeError := rfl

end Verif.Props
