import Verif.Model.Plotting
import Verif.Lemmas.Dl1Session
import Verif.Props.Nnls
import Mathlib.Data.List.Induction
import Mathlib.Algebra.Order.Floor.Ring
import Mathlib.Data.Nat.Basic
import Mathlib.Tactic.NormNum
import Mathlib.Tactic.Linarith

/-! # C99–C102: plots of cameras -/

namespace Verif.Props

open Verif.Py Verif.Model Verif.Lemmas

/-! ### C99 -/

theorem succ_div_ne (c w : Nat) (hw : 0 < w) : (c + 1) / w ≠ c / w ↔ c % w = w - 1 := by
  rw [Nat.succ_div]
  have h1 : w ∣ c + 1 ↔ c % w = w - 1 := by
    have hm := Nat.mod_lt c hw
    have hd := Nat.div_add_mod c w
    constructor
    · rintro ⟨k, hk⟩
      have hk' : c + 1 = w * (c / w) + (c % w + 1) := by omega
      have : w ∣ c % w + 1 := by
        have h2 : w ∣ w * (c / w) + (c % w + 1) := by rw [← hk']; exact ⟨k, hk⟩
        exact (Nat.dvd_add_right ⟨c / w, rfl⟩).1 h2
      have := Nat.le_of_dvd (by omega) this
      omega
    · intro h
      refine ⟨c / w + 1, ?_⟩
      rw [Nat.mul_add, Nat.mul_one]
      omega
  rw [← h1]
  split <;> simp_all

theorem pred_div_ne (c w : Nat) (hw : 0 < w) : (c = 0 ∨ (c - 1) / w ≠ c / w) ↔ c % w = 0 := by
  cases c with
  | zero => simp
  | succ c =>
    rw [Nat.add_sub_cancel]
    have := succ_div_ne c w hw
    have h2 : (c + 1) % w = 0 ↔ c % w = w - 1 := by
      have hm := Nat.mod_lt c hw
      rw [Nat.add_mod_eq_ite]
      by_cases hw1 : w = 1
      · subst hw1; simp [Nat.mod_one]
      · rw [Nat.mod_eq_of_lt (show 1 < w by omega)]
        split <;> omega
    rw [h2, ← this]
    constructor
    · rintro (h | h)
      · omega
      · exact fun h' => h h'.symm
    · exact fun h => Or.inr fun h' => h h'.symm

/-- C99, what holds: in a camera of 6 by 6 modules of any size, each pixel has its own place (row 0 at the bottom), and a border line is drawn exactly where the
neighbouring pixel would belong to another module, in black and a tenth of a point wide. (The full claim is for all cameras.) -/
theorem C99_partial (m : PixelGrid) (h w : Nat) (hh : 0 < h) (hw : 0 < w) (hr : m.nRows = 6 * h) (hc : m.nCols = 6 * w) (hm : m.nModules ≠ 0) (hpm : m.nModules ≤ m.pixels.length)
    (hin : ∀ p ∈ m.pixels, p.1 < m.nRows ∧ p.2 < m.nCols) (hnd : m.pixels.Nodup) :
    ∃ axes, newPixelPlotter m = .ok axes ∧ axes.length = m.pixels.length ∧ (axes.map fun a => (a.row, a.col)).Nodup ∧
      ∀ (k r c : Nat), m.pixels[k]? = some (r, c) → ∃ a, axes[k]? = some a ∧ a.row + r + 1 = m.nRows ∧ a.col = c ∧
        (a.spines.left = true ↔ c = 0 ∨ (c - 1) / w ≠ c / w) ∧ (a.spines.right = true ↔ (c + 1) / w ≠ c / w) ∧
        (a.spines.bottom = true ↔ r = 0 ∨ (r - 1) / h ≠ r / h) ∧ (a.spines.top = true ↔ (r + 1) / h ≠ r / h) ∧
        a.spines.color = "black" ∧ a.spines.width = 1 / 10 := by
  have e1 : m.nRows / 6 = h := by omega
  have e2 : m.nCols / 6 = w := by omega
  refine ⟨_, by unfold newPixelPlotter; rw [if_neg hm, if_neg (by have := Nat.div_pos hpm (by omega); omega)], by simp, ?_, ?_⟩
  · rw [List.map_map]
    refine List.Nodup.map_on ?_ hnd
    rintro ⟨r, c⟩ h1 ⟨r', c'⟩ h2 heq
    have a1 := hin _ h1
    have a2 := hin _ h2
    simp only [Function.comp_apply, Prod.mk.injEq] at heq
    simp only at a1 a2
    rw [Prod.mk.injEq]
    omega
  · intro k r c hk
    have hmem := hin (r, c) (List.mem_of_getElem? hk)
    refine ⟨_, by rw [List.getElem?_map, hk]; rfl, by simp only; omega, rfl, ?_, ?_, ?_, ?_, rfl, rfl⟩
    · rw [pred_div_ne c w hw]; simp [outline, e2]
    · rw [succ_div_ne c w hw]; simp [outline, e2]
    · rw [pred_div_ne r h hh]; simp [outline, e1]
    · rw [succ_div_ne r h hh]; simp [outline, e1]

/-- remainders that vanish at the same places below `n` have the same divisor -/
theorem mod_zero_same (n a b : Nat) (ha : 0 < a) (hb : 0 < b) (han : a ≤ n) (hbn : b ≤ n) (h : ∀ c < n, c % a = 0 ↔ c % b = 0) : a = b := by
  rcases Nat.lt_trichotomy a b with hlt | heq | hgt
  · have h1 := (h a (by omega)).1 (Nat.mod_self a)
    rw [Nat.mod_eq_of_lt hlt] at h1
    omega
  · exact heq
  · have h1 := (h b (by omega)).2 (Nat.mod_self b)
    rw [Nat.mod_eq_of_lt hgt] at h1
    omega

/-- C99, for which cameras: if modules have `h` rows and `w` columns of pixels and there are pixels in every row and column of the camera, the border lines are drawn exactly
between modules if and only if `h` and `w` are a sixth of the rows and columns (rounded down). -/
theorem C99_exactly_partial (m : PixelGrid) (h w : Nat) (hh : 0 < h) (hw : 0 < w) (hhr : h ≤ m.nRows) (hwc : w ≤ m.nCols) (axes : List PixelAxes)
    (hax : newPixelPlotter m = .ok axes) (hrows : ∀ r < m.nRows, ∃ c, (r, c) ∈ m.pixels) (hcols : ∀ c < m.nCols, ∃ r, (r, c) ∈ m.pixels) :
    (∀ (k r c : Nat) a, m.pixels[k]? = some (r, c) → axes[k]? = some a →
        (a.spines.left = true ↔ c = 0 ∨ (c - 1) / w ≠ c / w) ∧ (a.spines.right = true ↔ (c + 1) / w ≠ c / w) ∧
        (a.spines.bottom = true ↔ r = 0 ∨ (r - 1) / h ≠ r / h) ∧ (a.spines.top = true ↔ (r + 1) / h ≠ r / h)) ↔ m.nRows / 6 = h ∧ m.nCols / 6 = w := by
  have hne : m.pixels ≠ [] := by
    obtain ⟨c, hc⟩ := hrows 0 (by omega)
    exact List.ne_nil_of_mem hc
  unfold newPixelPlotter at hax
  split at hax
  · cases hax
  split at hax
  · cases hax
  rename_i hno
  have h6 : 0 < m.nRows / 6 ∧ 0 < m.nCols / 6 := by
    constructor <;> refine Nat.pos_of_ne_zero fun h0 => hno ⟨hne, ?_⟩
    · exact Or.inr (Or.inl h0)
    · exact Or.inr (Or.inr h0)
  cases hax
  constructor
  · intro hall
    refine ⟨?_, ?_⟩
    · refine mod_zero_same m.nRows _ _ h6.1 hh (Nat.div_le_self _ _) hhr fun r hr => ?_
      obtain ⟨c, hc⟩ := hrows r hr
      obtain ⟨k, hk⟩ := List.getElem?_of_mem hc
      have := (hall k r c _ hk (by rw [List.getElem?_map, hk]; rfl)).2.2.1
      rw [pred_div_ne r h hh] at this
      simpa [outline] using this
    · refine mod_zero_same m.nCols _ _ h6.2 hw (Nat.div_le_self _ _) hwc fun c hc => ?_
      obtain ⟨r, hr⟩ := hcols c hc
      obtain ⟨k, hk⟩ := List.getElem?_of_mem hr
      have := (hall k r c _ hk (by rw [List.getElem?_map, hk]; rfl)).1
      rw [pred_div_ne c w hw] at this
      simpa [outline] using this
  · rintro ⟨e1, e2⟩ k r c a hk ha
    rw [List.getElem?_map, hk] at ha
    cases ha
    refine ⟨?_, ?_, ?_, ?_⟩
    · rw [pred_div_ne c w hw]; simp [outline, e2]
    · rw [succ_div_ne c w hw]; simp [outline, e2]
    · rw [pred_div_ne r h hh]; simp [outline, e1]
    · rw [succ_div_ne r h hh]; simp [outline, e1]

/-- a camera of 6 by 6 pixels, in modules of one pixel -/
example : ∃ (m : PixelGrid) (axes : List PixelAxes), newPixelPlotter m = .ok axes ∧ (∀ r < m.nRows, ∃ c, (r, c) ∈ m.pixels) ∧ ∀ c < m.nCols, ∃ r, (r, c) ∈ m.pixels :=
  have six : ∀ r < 6, (r, r) ∈ [(0, 0), (1, 1), (2, 2), (3, 3), (4, 4), (5, 5)] := by decide
  ⟨⟨[(0, 0), (1, 1), (2, 2), (3, 3), (4, 4), (5, 5)], 6, 6, 2⟩, _, rfl, fun r hr => ⟨r, six r hr⟩, fun r hr => ⟨r, six r hr⟩⟩

/-- C99 is false for a camera of a single module of 8 by 8 pixels: every pixel is outlined, also inside the module. A camera with fewer than six rows or columns
cannot be plotted. -/
theorem C99_false : (∃ m axes, m.nRows = 8 ∧ m.nCols = 8 ∧ m.nModules = 1 ∧ m.pixels = [(3, 3), (3, 4)] ∧ newPixelPlotter m = .ok axes ∧
      ∀ a ∈ axes, a.spines.left = true ∧ a.spines.right = true ∧ a.spines.bottom = true ∧ a.spines.top = true) ∧
    ∀ m : PixelGrid, m.pixels ≠ [] → m.nModules ≠ 0 → m.nRows < 6 ∨ m.nCols < 6 → newPixelPlotter m = .error .zeroDivision := by
  refine ⟨⟨⟨[(3, 3), (3, 4)], 8, 8, 1⟩, _, rfl, rfl, rfl, rfl, rfl, by decide +kernel⟩, fun m h1 h2 h3 => ?_⟩
  unfold newPixelPlotter
  rw [if_neg h2, if_pos ⟨h1, by omega⟩]

/-- same places -/
def samePlaces (a b : List PixelAxes) : Prop := a.map (fun x => (x.row, x.col)) = b.map (fun x => (x.row, x.col))

theorem highlightAxes_places (color : String) (k : Nat) (mask : List Bool) (axes : List PixelAxes) : samePlaces (highlightAxes color k mask axes).1 axes := by
  induction mask generalizing k axes with
  | nil => rfl
  | cons b mask ih =>
    unfold highlightAxes
    cases h : axes[k]? with
    | none => rfl
    | some ax =>
      simp only
      refine (ih _ _).trans ?_
      split
      · rw [List.map_set]
        obtain ⟨hk, he⟩ := List.getElem?_eq_some_iff.1 h
        apply List.ext_getElem (by simp)
        intro i h1 h2
        rw [List.getElem_set]
        split
        · rename_i hi; subst hi; simp [he]
        · rfl
      · rfl

theorem resetAxes_places (m : PixelGrid) (axes : List PixelAxes) (hl : axes.length = m.pixels.length) : samePlaces (resetAxes m axes) axes := by
  unfold samePlaces resetAxes
  rw [List.map_map]
  conv_rhs => rw [← List.map_fst_zip (show axes.length ≤ m.pixels.length by omega)]
  rw [List.map_map]
  rfl

theorem resetAxes_eq (m : PixelGrid) (axes : List PixelAxes) (h : samePlaces axes (m.pixels.map fun p => { row := m.nRows - 1 - p.1, col := p.2, spines := outline (m.nRows / 6) (m.nCols / 6) p.1 p.2 })) :
    resetAxes m axes = m.pixels.map fun p => { row := m.nRows - 1 - p.1, col := p.2, spines := outline (m.nRows / 6) (m.nCols / 6) p.1 p.2 } := by
  unfold samePlaces at h
  have hl : axes.length = m.pixels.length := by simpa using congrArg List.length h
  unfold resetAxes
  apply List.ext_getElem (by simp [hl])
  intro i h1 h2
  have h3 : i < m.pixels.length := by simpa using h2
  have h4 := congrArg (fun l => l[i]?) h
  simp only [List.getElem?_map, List.getElem?_eq_getElem h3, List.getElem?_eq_getElem (show i < axes.length by omega), Option.map_some, Option.some.injEq, Prod.mk.injEq] at h4
  simp only [List.getElem_map, List.getElem_zip]
  rw [h4.1, h4.2]

/-- C99: after any sequence of highlights and resets, a reset restores the plot to what it was when it was made. -/
theorem C99_reset (m : PixelGrid) (axes : List PixelAxes) (hn : newPixelPlotter m = .ok axes) (ops : List PlotOp) :
    resetAxes m (ops.foldl (PlotOp.run m) axes) = axes := by
  unfold newPixelPlotter at hn
  split at hn
  · cases hn
  split at hn
  · cases hn
  injection hn with hn
  subst hn
  apply resetAxes_eq
  induction ops using List.reverseRecOn with
  | nil => rfl
  | append_singleton ops op ih =>
    rw [List.foldl_append, List.foldl_cons, List.foldl_nil]
    cases op with
    | highlight mask color => exact (highlightAxes_places color 0 mask _).trans ih
    | reset => exact (resetAxes_places m _ (by simpa [samePlaces] using congrArg List.length ih)).trans ih

theorem highlightAxes_get (color : String) (k : Nat) (mask : List Bool) (axes : List PixelAxes) (hl : k + mask.length ≤ axes.length) :
    (highlightAxes color k mask axes).2 = none ∧ (highlightAxes color k mask axes).1.length = axes.length ∧ ∀ (i : Nat) a, axes[i]? = some a → (highlightAxes color k mask axes).1[i]? =
      some (if k ≤ i ∧ mask[i - k]? = some true then { a with spines := { left := true, right := true, bottom := true, top := true, color := color, width := 1 } } else a) := by
  induction mask generalizing k axes with
  | nil => exact ⟨rfl, rfl, fun i a ha => by simp [highlightAxes, ha]⟩
  | cons b mask ih =>
    simp only [List.length_cons] at hl
    unfold highlightAxes
    rw [List.getElem?_eq_getElem (show k < axes.length by omega)]
    simp only
    obtain ⟨h1, h2, h3⟩ := ih (k + 1) (if b then axes.set k { axes[k] with spines := { left := true, right := true, bottom := true, top := true, color := color, width := 1 } } else axes) (by split <;> (try rw [List.length_set]) <;> omega)
    refine ⟨h1, by rw [h2]; split <;> simp, fun i a ha => ?_⟩
    by_cases hik : i = k
    · subst hik
      have hlt : i < axes.length := by omega
      have hax : axes[i] = a := by rw [List.getElem?_eq_getElem hlt] at ha; exact Option.some.inj ha
      cases b with
      | true =>
        have := h3 i { a with spines := { left := true, right := true, bottom := true, top := true, color := color, width := 1 } } (by simp [hlt, hax])
        rw [this]
        simp
      | false =>
        have := h3 i a (by simpa using ha)
        rw [this]
        simp
    · have := h3 i a (by
        cases b with
        | true => simpa [List.getElem?_set_ne (Ne.symm hik)] using ha
        | false => simpa using ha)
      rw [this]
      by_cases hlt : k ≤ i
      · have e : i - k = (i - (k + 1)) + 1 := by omega
        rw [e, List.getElem?_cons_succ]
        simp [hlt, show k + 1 ≤ i by omega]
      · simp [hlt, show ¬ k + 1 ≤ i by omega]

/-- C99: highlighting outlines exactly the pixels of the mask, in the colour asked for, and leaves the others as they are; a mask longer than the camera raises
`KeyError`, a shorter one is accepted. -/
theorem C99_highlight (color : String) (mask : List Bool) (axes : List PixelAxes) :
    (mask.length ≤ axes.length → (highlightAxes color 0 mask axes).2 = none ∧ ∀ (i : Nat) a, axes[i]? = some a → ∃ b, (highlightAxes color 0 mask axes).1[i]? = some b ∧
      (mask[i]? = some true → b.spines = { left := true, right := true, bottom := true, top := true, color := color, width := 1 }) ∧ (mask[i]? ≠ some true → b = a)) ∧
    (axes.length < mask.length → (highlightAxes color 0 mask axes).2 = some .keyError) := by
  constructor
  · intro hl
    obtain ⟨h1, -, h3⟩ := highlightAxes_get color 0 mask axes (by omega)
    refine ⟨h1, fun i a ha => ⟨_, h3 i a ha, fun h => ?_, fun h => ?_⟩⟩
    · rw [if_pos ⟨by omega, by simpa using h⟩]
    · rw [if_neg (by simpa using h)]
  · have key : ∀ (k : Nat) (mask : List Bool) (axes : List PixelAxes), k ≤ axes.length → axes.length < k + mask.length → (highlightAxes color k mask axes).2 = some .keyError := by
      intro k mask
      induction mask generalizing k with
      | nil => intro axes h1 h2; simp at h2; omega
      | cons b mask ih =>
        intro axes h1 h2
        unfold highlightAxes
        by_cases hk : k < axes.length
        · rw [List.getElem?_eq_getElem hk]
          simp only
          apply ih
          · split <;> (try rw [List.length_set]) <;> omega
          · simp only [List.length_cons] at h2
            split <;> (try rw [List.length_set]) <;> omega
        · rw [List.getElem?_eq_none (by omega)]
    intro hl
    exact key 0 mask axes (by omega) (by omega)

/-- a camera of 12 by 12 pixels in modules of 2 by 2: pixel (3, 4) has its borders left and top -/
example : ∃ a, newPixelPlotter ⟨[(3, 4)], 12, 12, 1⟩ = .ok [a] ∧ a.row = 8 ∧ a.col = 4 ∧ a.spines.left = true ∧ a.spines.right = false ∧ a.spines.bottom = false ∧
    a.spines.top = true := ⟨_, rfl, rfl, rfl, rfl, rfl, rfl, rfl⟩

/-! ### C100 -/

theorem npMax_spec (xs : List ℚ) (h : xs ≠ []) : ∃ m, npMax xs = .ok m ∧ m ∈ xs ∧ ∀ y ∈ xs, y ≤ m := by
  cases xs with
  | nil => exact absurd rfl h
  | cons x xs =>
    refine ⟨_, rfl, ?_, ?_⟩
    · rcases foldl_max_mem xs x with h | h
      · rw [h]; simp
      · exact List.mem_cons_of_mem _ h
    · intro y hy
      rcases List.mem_cons.1 hy with rfl | h
      · exact (foldl_max_ge xs y).1
      · exact (foldl_max_ge xs x).2 _ h

/-- colour of the ASIC of a pixel of a module -/
def colorOf (tmpix : Nat) : String :=
  if tmpix < 16 then "firebrick" else if tmpix < 32 then "dodgerblue" else if tmpix < 48 then "darkgreen" else "orchid"

theorem asicColor_eq (t : Nat) (h : t < 64) : asicColor[t / 16]? = some (colorOf t) := by
  unfold colorOf
  by_cases h1 : t < 16
  · rw [if_pos h1, show t / 16 = 0 by omega]; rfl
  · rw [if_neg h1]
    by_cases h2 : t < 32
    · rw [if_pos h2, show t / 16 = 1 by omega]; rfl
    · rw [if_neg h2]
      by_cases h3 : t < 48
      · rw [if_pos h3, show t / 16 = 2 by omega]; rfl
      · rw [if_neg h3, show t / 16 = 3 by omega]; rfl

theorem tmPixelLoop_ok (waveforms : List (List ℚ)) (thresh : ℚ) (tm : Nat) (peak : Nat → ℚ)
    (hp : ∀ p, p / 64 = tm → ∃ wf, waveforms[p]? = some wf ∧ npMax wf = .ok (peak p)) (ts : List Nat) (hts : ∀ t ∈ ts, t < 64) (acc : TmPlot) :
    tmPixelLoop waveforms thresh tm ts acc = .ok ⟨acc.lines ++ ts.map (fun t => (tm * 64 + t, colorOf t)),
      acc.text ++ ((ts.map (tm * 64 + ·)).filter (fun p => peak p < thresh)).flatMap fun p => outlierText (p % 64) p⟩ := by
  induction ts generalizing acc with
  | nil => simp [tmPixelLoop]
  | cons t ts ih =>
    have ht := hts t (by simp)
    unfold tmPixelLoop
    simp only
    rw [asicColor_eq t ht]
    obtain ⟨wf, h1, h2⟩ := hp (tm * 64 + t) (by omega)
    simp only [h1, h2]
    rw [ih fun u hu => hts u (by simp [hu])]
    have e : (tm * 64 + t) % 64 = t := by omega
    by_cases hlt : peak (tm * 64 + t) < thresh
    · simp [hlt, e]
    · simp [hlt]

/-- C100: the plot of each module shows the waveforms of its own 64 pixels, coloured by ASIC, and lists exactly those pixels, in order, whose largest sample is
below the given fraction of the largest sample of the camera average. -/
theorem C100_outliers (slots : List Nat) (nModules nSamples : Nat) (hs : 0 < nSamples) (waveforms : List (List ℚ)) (fraction : ℚ)
    (hl : waveforms.length = 64 * nModules) (hrow : ∀ wf ∈ waveforms, wf.length = nSamples) (hslots : ∀ tm ∈ slots, tm < nModules) :
    ∃ (top : ℚ) (plots : List (Nat × TmPlot)), (∃ s < nSamples, top = mean (waveforms.map fun wf => wf.getD s 0)) ∧ (∀ s < nSamples, mean (waveforms.map fun wf => wf.getD s 0) ≤ top) ∧
      plotTmWaveforms slots nSamples waveforms fraction = .ok plots ∧ plots.map Prod.fst = slots ∧
      ∀ tm plot, (tm, plot) ∈ plots → plot.lines = (List.range 64).map (fun t => (64 * tm + t, colorOf t)) ∧
        ∃ outliers : List Nat, outliers.Pairwise (· < ·) ∧ plot.text = outliers.flatMap (fun p => outlierText (p % 64) p) ∧
          ∀ p, p ∈ outliers ↔ p / 64 = tm ∧ ∃ wf, waveforms[p]? = some wf ∧ ∀ x ∈ wf, x < top * fraction := by
  obtain ⟨top, h1, h2, h3⟩ := npMax_spec (colMeans nSamples waveforms) (by
    intro h
    have := congrArg List.length h
    simp [colMeans] at this
    omega)
  have hcol : ∀ y, y ∈ colMeans nSamples waveforms ↔ ∃ s < nSamples, y = mean (waveforms.map fun wf => wf.getD s 0) := by
    intro y
    simp only [colMeans, column, List.mem_map, List.mem_range]
    constructor
    · rintro ⟨s, hs, rfl⟩; exact ⟨s, hs, rfl⟩
    · rintro ⟨s, hs, rfl⟩; exact ⟨s, hs, rfl⟩
  have hpeak : ∀ p : Nat, ∃ m : ℚ, ∀ wf, waveforms[p]? = some wf → npMax wf = .ok m ∧ m ∈ wf ∧ ∀ y ∈ wf, y ≤ m := by
    intro p
    cases hwf : waveforms[p]? with
    | none => exact ⟨0, fun wf h => by cases h⟩
    | some wf =>
      have hlen := hrow wf (List.mem_of_getElem? hwf)
      obtain ⟨m, a, b, c⟩ := npMax_spec wf (by rintro rfl; simp at hlen; omega)
      exact ⟨m, fun wf' h => by injection h with h; subst h; exact ⟨a, b, c⟩⟩
  choose peak hpk using hpeak
  let plot : Nat → TmPlot := fun tm => ⟨(List.range 64).map (fun t => (tm * 64 + t, colorOf t)),
    (((List.range 64).map (tm * 64 + ·)).filter (fun p => peak p < top * fraction)).flatMap fun p => outlierText (p % 64) p⟩
  refine ⟨top, slots.map fun tm => (tm, plot tm), (hcol top).1 h2, fun s hs => h3 _ ((hcol _).2 ⟨s, hs, rfl⟩), ?_, ?_, ?_⟩
  · unfold plotTmWaveforms
    rw [if_neg (by omega), h1]
    simp only
    apply mapM_ok
    intro tm htm
    have htm' := hslots tm htm
    rw [tmPixelLoop_ok waveforms (top * fraction) tm peak (fun p hp => by
      have hlt : p < waveforms.length := by omega
      exact ⟨waveforms[p], List.getElem?_eq_getElem hlt, (hpk p _ (List.getElem?_eq_getElem hlt)).1⟩) (List.range 64) (fun t ht => List.mem_range.1 ht) ⟨[], []⟩]
    simp only
    rw [if_pos (by omega)]
    simp [plot]
  · rw [List.map_map]
    exact List.map_id slots
  · intro tm pl hpl
    obtain ⟨tm', htm, he⟩ := List.mem_map.1 hpl
    rw [Prod.mk.injEq] at he
    obtain ⟨rfl, rfl⟩ := he
    have htm' := hslots tm' htm
    refine ⟨by simp only [plot]; apply List.map_congr_left; intro t _; rw [Nat.mul_comm], _, ?_, rfl, ?_⟩
    · apply List.Pairwise.filter
      rw [List.pairwise_map]
      exact List.pairwise_lt_range.imp fun h => by omega
    · intro p
      rw [List.mem_filter, List.mem_map]
      constructor
      · rintro ⟨⟨t, ht, rfl⟩, hlt⟩
        have ht := List.mem_range.1 ht
        have hl' : tm' * 64 + t < waveforms.length := by omega
        refine ⟨by omega, _, List.getElem?_eq_getElem hl', fun x hx => ?_⟩
        have := (hpk _ _ (List.getElem?_eq_getElem hl')).2.2 x hx
        have hlt := of_decide_eq_true hlt
        linarith
      · rintro ⟨hp, wf, hwf, hx⟩
        refine ⟨⟨p % 64, List.mem_range.2 (by omega), by omega⟩, ?_⟩
        exact decide_eq_true (hx _ (hpk p wf hwf).2.1)

theorem outlierText_append_inj (a b a' b' : Nat) (x y : List Char) (h : outlierText a b ++ x = outlierText a' b' ++ y) : a = a' ∧ b = b' ∧ x = y := by
  unfold outlierText at h
  simp only [List.cons_append, List.append_assoc, List.cons.injEq, true_and] at h
  have t1 := takeWhile_digits (decimal a) (decimal b ++ ([']', '\n'] ++ x)) '|' (decimal_digits a) (by decide)
  have t2 := takeWhile_digits (decimal a') (decimal b' ++ ([']', '\n'] ++ y)) '|' (decimal_digits a') (by decide)
  have e1 : decimal a = decimal a' := by
    have := congrArg (List.takeWhile isDigitChar) h
    simp only [List.cons_append, List.nil_append] at this t1 t2
    rw [t1.1, t2.1] at this
    exact this
  have ha : a = a' := by rw [← parseDec_decimal a, e1, parseDec_decimal]
  subst ha
  have h2 := List.append_cancel_left h
  simp only [List.cons.injEq, true_and] at h2
  have t3 := takeWhile_digits (decimal b) ('\n' :: x) ']' (decimal_digits b) (by decide)
  have t4 := takeWhile_digits (decimal b') ('\n' :: y) ']' (decimal_digits b') (by decide)
  have e2 : decimal b = decimal b' := by
    have := congrArg (List.takeWhile isDigitChar) h2
    simp only [List.nil_append] at this t3 t4
    rw [t3.1, t4.1] at this
    exact this
  have hb : b = b' := by rw [← parseDec_decimal b, e2, parseDec_decimal]
  subst hb
  have h3 := List.append_cancel_left h2
  simp only [List.nil_append, List.cons.injEq, true_and] at h3
  exact ⟨rfl, rfl, h3⟩

/-- C100: two different lists of pixels are never written as the same text. -/
theorem C100_readable (l l' : List Nat) (h : l.flatMap (fun p => outlierText (p % 64) p) = l'.flatMap (fun p => outlierText (p % 64) p)) : l = l' := by
  induction l generalizing l' with
  | nil =>
    cases l' with
    | nil => rfl
    | cons p l' => simp [outlierText] at h
  | cons p l ih =>
    cases l' with
    | nil => simp [outlierText] at h
    | cons p' l' =>
      rw [List.flatMap_cons, List.flatMap_cons] at h
      obtain ⟨-, h1, h2⟩ := outlierText_append_inj _ _ _ _ _ _ h
      rw [h1, ih l' h2]

/-- C100: a number of pixels that is not a multiple of 64 raises `ValueError`, as do waveforms without samples; a module beyond the pixels raises `IndexError`. -/
theorem C100_errors (slots : List Nat) (nSamples : Nat) (waveforms : List (List ℚ)) (fraction : ℚ) :
    (waveforms.length % 64 ≠ 0 → plotTmWaveforms slots nSamples waveforms fraction = .error .valueError) ∧
    (∀ tm, slots = [tm] → waveforms.length % 64 = 0 → waveforms.length / 64 ≤ tm → 0 < nSamples → plotTmWaveforms slots nSamples waveforms fraction = .error .indexError) ∧
    (nSamples = 0 → plotTmWaveforms slots nSamples waveforms fraction = .error .valueError) := by
  refine ⟨?_, ?_, ?_⟩
  · intro h
    unfold plotTmWaveforms
    rw [if_pos h]
  · rintro tm rfl h1 h2 h3
    unfold plotTmWaveforms
    rw [if_neg (by omega)]
    obtain ⟨top, h4, -⟩ := npMax_spec (colMeans nSamples waveforms) (by
      intro h
      have := congrArg List.length h
      simp [colMeans] at this
      omega)
    rw [h4]
    have h5 : tmPixelLoop waveforms (top * fraction) tm (List.range 64) ⟨[], []⟩ = .error .indexError := by
      rw [show List.range 64 = 0 :: (List.range 63).map Nat.succ from List.range_succ_eq_map]
      unfold tmPixelLoop
      simp only
      rw [asicColor_eq 0 (by omega), List.getElem?_eq_none (by omega)]
    simp only [List.mapM_cons, List.mapM_nil, h5]
    rfl
  · rintro rfl
    unfold plotTmWaveforms
    split
    · rfl
    · rfl

/-- one module; pixel 2 is lower than half of the average -/
example : (plotTmWaveforms [0] 2 ((List.range 64).map fun p => if p = 2 then [1, 0] else [4, 2]) (1 / 2)).toOption.map (fun l => l.map fun e => (e.1, e.2.text)) =
    some [(0, "[2|2]\n".toList)] := by decide +kernel

/-! ### C101 -/

theorem foldl_set_get (ps : List Nat) (w : ℚ) (lw : List ℚ) (i : Nat) (hi : i < lw.length) :
    (ps.foldl (fun a p => a.set p w) lw)[i]? = some (if i ∈ ps then w else lw[i]) := by
  induction ps generalizing lw with
  | nil => simp [hi]
  | cons p ps ih =>
    rw [List.foldl_cons, ih (lw.set p w) (by simpa using hi)]
    rw [List.getElem_set]
    by_cases h1 : i ∈ ps
    · simp [h1]
    · by_cases h2 : p = i
      · subst h2; simp
      · simp [h1, h2, Ne.symm h2]

/-- C101, what holds: for an image of floating-point numbers, the lines have the width asked for around exactly the given pixels, and no width around the others.
(The full claim is for all images.) -/
theorem C101_partial (im : List ℚ) (w : ℚ) :
    (∀ mask : List Bool, mask.length = im.length → ∃ lw, highlightWidths (some (.float, im)) (.mask mask) w = .ok lw ∧ lw.length = im.length ∧
      ∀ i < im.length, lw[i]? = some (if mask[i]? = some true then w else 0)) ∧
    (∀ ps : List Nat, (∀ p ∈ ps, p < im.length) → ∃ lw, highlightWidths (some (.float, im)) (.numbers (ps.map fun (p : Nat) => (p : Int))) w = .ok lw ∧ lw.length = im.length ∧
      ∀ i < im.length, lw[i]? = some (if i ∈ ps then w else 0)) := by
  constructor
  · intro mask hm
    refine ⟨List.zipWith (fun b x => if b then w else x) mask (List.replicate im.length 0), ?_, by simp [hm], ?_⟩
    · unfold highlightWidths assignWidth storeAs
      simp [hm]
    · intro i hi
      rw [List.getElem?_zipWith, List.getElem?_eq_getElem (show i < mask.length by omega)]
      simp [hi]
  · intro ps hps
    have h1 : (ps.map fun (p : Nat) => (p : Int)).mapM (normIndex (List.replicate im.length (0 : ℚ)).length) = .ok ps := by
      have := mapM_ok (fun (p : Nat) => normIndex (List.replicate im.length (0 : ℚ)).length (p : Int)) ps id fun p hp => by
        rw [List.length_replicate]
        exact normIndex_nat _ p (hps p hp)
      rw [List.mapM_map]
      simpa [Function.comp_def] using this
    refine ⟨ps.foldl (fun a p => a.set p w) (List.replicate im.length 0), ?_, ?_, ?_⟩
    · unfold highlightWidths assignWidth storeAs
      simp only
      rw [h1]
    · have : ∀ (ps : List Nat) (lw : List ℚ), (ps.foldl (fun a p => a.set p w) lw).length = lw.length := by
        intro ps
        induction ps with
        | nil => intro lw; rfl
        | cons p ps ih => intro lw; rw [List.foldl_cons, ih]; simp
      rw [this]; simp
    · intro i hi
      rw [foldl_set_get ps w _ i (by simpa using hi)]
      simp

/-- C101 is false: on an image of whole numbers a line width below 1, such as the default 0.5, becomes 0, so that no pixel at all is highlighted, whatever
pixels are given. -/
theorem C101_false (im : List ℚ) (pixels : PixelIndex) (w : ℚ) (h0 : 0 ≤ w) (h1 : w < 1) (lw : List ℚ) (h : highlightWidths (some (.int, im)) pixels w = .ok lw) :
    ∀ x ∈ lw, x = 0 := by
  have hs : storeAs .int w = 0 := by
    unfold storeAs
    have : ⌊w⌋ = 0 := Int.floor_eq_zero_iff.2 ⟨h0, h1⟩
    simp [h0, this]
  unfold highlightWidths at h
  simp only [hs] at h
  cases pixels with
  | mask l =>
    unfold assignWidth at h
    simp only at h
    split at h
    · cases h
    · injection h with h
      subst h
      intro x hx
      obtain ⟨i, hi, he⟩ := List.mem_iff_getElem.1 hx
      rw [List.getElem_zipWith] at he
      rw [← he]
      split <;> simp
  | numbers l =>
    unfold assignWidth at h
    simp only at h
    cases hm : l.mapM (normIndex (List.replicate im.length (0 : ℚ)).length) with
    | error e => rw [hm] at h; cases h
    | ok ps =>
      rw [hm] at h
      injection h with h
      subst h
      have : ∀ (ps : List Nat) (lw : List ℚ), (∀ x ∈ lw, x = 0) → ∀ x ∈ ps.foldl (fun a p => a.set p (0 : ℚ)) lw, x = 0 := by
        intro ps
        induction ps with
        | nil => intro lw h; exact h
        | cons p ps ih =>
          intro lw h
          apply ih
          intro x hx
          rcases List.mem_or_eq_of_mem_set hx with h' | h'
          · exact h x h'
          · exact h'
      exact this ps _ (by simp)

/-- C101, the other element types: exactly the given pixels get a line, of the whole-number part of the width for an image of whole numbers, and of width 1 for
an image of truth values (none if the width asked for is 0). -/
theorem C101_types (im : List ℚ) (w : ℚ) (hw : 0 ≤ w) (mask : List Bool) (hm : mask.length = im.length) :
    (∃ lw, highlightWidths (some (.int, im)) (.mask mask) w = .ok lw ∧ lw.length = im.length ∧ ∀ i < im.length, ∃ x, lw[i]? = some x ∧
      (mask[i]? = some true → (∃ n : Nat, x = n) ∧ x ≤ w ∧ w < x + 1) ∧ (mask[i]? = some false → x = 0)) ∧
    (∃ lw, highlightWidths (some (.bool, im)) (.mask mask) w = .ok lw ∧ lw.length = im.length ∧
      ∀ i < im.length, lw[i]? = some (if mask[i]? = some true ∧ w ≠ 0 then 1 else 0)) := by
  constructor
  · refine ⟨List.zipWith (fun b x => if b then ((⌊w⌋ : Int) : ℚ) else x) mask (List.replicate im.length 0), ?_, by simp [hm], ?_⟩
    · unfold highlightWidths assignWidth storeAs
      simp [hm, hw]
    · intro i hi
      have hi' : i < mask.length := by omega
      rw [List.getElem?_zipWith, List.getElem?_eq_getElem hi', List.getElem?_replicate_of_lt hi]
      refine ⟨_, rfl, ?_, ?_⟩
      · intro h
        have h' : mask[i] = true := by simpa using h
        simp only [h', if_true]
        refine ⟨⟨⌊w⌋.toNat, ?_⟩, Int.floor_le w, Int.lt_floor_add_one w⟩
        have : ((⌊w⌋.toNat : Int)) = ⌊w⌋ := Int.toNat_of_nonneg (Int.floor_nonneg.2 hw)
        calc ((⌊w⌋ : Int) : ℚ) = (((⌊w⌋.toNat : Nat) : Int) : ℚ) := by rw [this]
          _ = _ := Int.cast_natCast _
      · intro h
        have h' : mask[i] = false := by simpa using h
        simp [h']
  · refine ⟨List.zipWith (fun b x => if b then (if w = 0 then 0 else 1) else x) mask (List.replicate im.length 0), ?_, by simp [hm], ?_⟩
    · unfold highlightWidths assignWidth storeAs
      simp [hm]
    · intro i hi
      rw [List.getElem?_zipWith, List.getElem?_eq_getElem (show i < mask.length by omega)]
      by_cases h0 : w = 0 <;> simp [hi, h0]

example : highlightWidths (some (.int, [3, 4, 5])) (.mask [false, true, true]) (5 / 2) = .ok [0, 2, 2] ∧
    highlightWidths (some (.bool, [1, 0, 1])) (.mask [false, true, true]) (5 / 2) = .ok [0, 1, 1] := by decide +kernel

/-- C101: on an image of whole numbers the lines have the width asked for around exactly the pixels of the mask if and only if the width is a whole number, or no pixel is
chosen; on an image of truth values if and only if the width is 0 or 1, or no pixel is chosen. -/
theorem C101_exactly_partial (im : List ℚ) (w : ℚ) (hw : 0 ≤ w) (mask : List Bool) (hm : mask.length = im.length) :
    (highlightWidths (some (.int, im)) (.mask mask) w = .ok (mask.map fun b => if b then w else 0) ↔ (∃ n : Nat, w = n) ∨ ∀ b ∈ mask, b = false) ∧
    (highlightWidths (some (.bool, im)) (.mask mask) w = .ok (mask.map fun b => if b then w else 0) ↔ w = 0 ∨ w = 1 ∨ ∀ b ∈ mask, b = false) := by
  have zip : ∀ v : ℚ, List.zipWith (fun b x => if b then v else x) mask (List.replicate im.length 0) = mask.map fun b => if b then v else 0 := by
    intro v
    rw [← hm]
    clear hm
    induction mask with
    | nil => rfl
    | cons b mask ih => simp [List.replicate_succ, ih]
  have key : ∀ t, highlightWidths (some (t, im)) (.mask mask) w = .ok (mask.map fun b => if b then storeAs t w else 0) := by
    intro t
    unfold highlightWidths assignWidth
    simp only [List.length_replicate, hm, ne_eq, not_true_eq_false, if_false, zip]
  have same : ∀ v : ℚ, (mask.map (fun b => if b then v else 0) = mask.map fun b => if b then w else 0) ↔ v = w ∨ ∀ b ∈ mask, b = false := by
    intro v
    rw [List.map_inj_left]
    constructor
    · intro h
      by_cases hv : v = w
      · exact Or.inl hv
      · refine Or.inr fun b hb => ?_
        have := h b hb
        cases b
        · rfl
        · exact absurd (by simpa using this) hv
    · rintro (rfl | h) b hb
      · rfl
      · simp [h b hb]
  rw [key, key, Except.ok.injEq, Except.ok.injEq, same, same]
  constructor
  · refine or_congr ?_ Iff.rfl
    have hs : storeAs .int w = ((⌊w⌋ : Int) : ℚ) := by unfold storeAs; simp [hw]
    rw [hs]
    constructor
    · intro h
      refine ⟨⌊w⌋.toNat, ?_⟩
      have h2 : ((⌊w⌋.toNat : Int)) = ⌊w⌋ := Int.toNat_of_nonneg (Int.floor_nonneg.2 hw)
      calc w = ((⌊w⌋ : Int) : ℚ) := h.symm
        _ = (((⌊w⌋.toNat : Nat) : Int) : ℚ) := by rw [h2]
        _ = _ := Int.cast_natCast _
    · rintro ⟨n, rfl⟩
      simp
  · rw [← or_assoc]
    refine or_congr ?_ Iff.rfl
    have hs : storeAs .bool w = if w = 0 then 0 else 1 := by unfold storeAs; rfl
    rw [hs]
    by_cases h0 : w = 0
    · simp [h0]
    · rw [if_neg h0]
      constructor
      · intro h; exact Or.inr h.symm
      · rintro (h | h)
        · exact absurd h h0
        · exact h.symm

theorem mapM_normIndex (n : Nat) (ps : List Int) :
    (∃ ks, ps.mapM (normIndex n) = .ok ks ∧ (∀ p ∈ ps, -(n : Int) ≤ p ∧ p < n) ∧ ∀ k, k ∈ ks ↔ k < n ∧ ((k : Int) ∈ ps ∨ (k : Int) - n ∈ ps)) ∨
      (ps.mapM (normIndex n) = .error .indexError ∧ ∃ p ∈ ps, p < -(n : Int) ∨ (n : Int) ≤ p) := by
  induction ps with
  | nil => exact Or.inl ⟨[], rfl, by simp, by simp⟩
  | cons p ps ih =>
    by_cases hp : p < -(n : Int) ∨ (n : Int) ≤ p
    · right
      refine ⟨?_, p, by simp, hp⟩
      rw [List.mapM_cons, normIndex_outside n p hp]
      rfl
    · have hw : ∃ k : Nat, k < n ∧ ((k : Int) = p ∨ (k : Int) - n = p) ∧ normIndex n p = .ok k := by
        by_cases h0 : 0 ≤ p
        · exact ⟨p.toNat, by omega, Or.inl (by omega), by unfold normIndex; rw [if_pos (by omega)]⟩
        · exact ⟨(p + n).toNat, by omega, Or.inr (by omega), by unfold normIndex; rw [if_neg (by omega), if_pos (by omega)]⟩
      obtain ⟨k, hk, hkp, hn⟩ := hw
      rcases ih with ⟨ks, h1, h2, h3⟩ | ⟨h1, q, hq, h2⟩
      · left
        refine ⟨k :: ks, ?_, ?_, ?_⟩
        · rw [List.mapM_cons, hn, h1]
          rfl
        · intro q hq
          rcases List.mem_cons.1 hq with rfl | hq
          · omega
          · exact h2 q hq
        · intro j
          rw [List.mem_cons, h3, List.mem_cons, List.mem_cons]
          constructor
          · rintro (rfl | ⟨a, b | b⟩)
            · exact ⟨hk, by rcases hkp with h | h <;> simp [h]⟩
            · exact ⟨a, Or.inl (Or.inr b)⟩
            · exact ⟨a, Or.inr (Or.inr b)⟩
          · rintro ⟨a, (b | b) | (b | b)⟩
            · left; omega
            · exact Or.inr ⟨a, Or.inl b⟩
            · left; omega
            · exact Or.inr ⟨a, Or.inr b⟩
      · right
        refine ⟨?_, q, by simp [hq], h2⟩
        rw [List.mapM_cons, hn, h1]
        rfl

/-- C101: choosing pixels by number is the same as choosing them by the mask of these pixels, for images of all types; negative numbers count from the last pixel. -/
theorem C101_numbers (t : Dtype) (im : List ℚ) (w : ℚ) (ps : List Int) (hps : ∀ p ∈ ps, -(im.length : Int) ≤ p ∧ p < im.length) :
    highlightWidths (some (t, im)) (.numbers ps) w =
      highlightWidths (some (t, im)) (.mask ((List.range im.length).map fun i : Nat => decide ((i : Int) ∈ ps ∨ (i : Int) - im.length ∈ ps))) w := by
  unfold highlightWidths assignWidth
  simp only [List.length_replicate, List.length_map, List.length_range, ne_eq, not_true_eq_false, if_false]
  rcases mapM_normIndex im.length ps with ⟨ks, h1, -, h3⟩ | ⟨-, p, hp, h⟩
  · rw [h1]
    simp only [Except.ok.injEq]
    have hlen : ∀ (ks : List Nat) (lw : List ℚ), (ks.foldl (fun a p => a.set p (storeAs t w)) lw).length = lw.length := by
      intro ks
      induction ks with
      | nil => intro lw; rfl
      | cons p ks ih => intro lw; rw [List.foldl_cons, ih]; simp
    apply List.ext_getElem?
    intro i
    by_cases hi : i < im.length
    · rw [foldl_set_get ks _ _ i (by simpa using hi), List.getElem?_zipWith, List.getElem?_map, List.getElem?_range hi, List.getElem?_replicate_of_lt hi]
      simp only [Option.map_some, Option.some.injEq, List.getElem_replicate, decide_eq_true_eq]
      by_cases hk : i ∈ ks
      · rw [if_pos hk, if_pos ((h3 i).1 hk).2]
      · rw [if_neg hk, if_neg fun h => hk ((h3 i).2 ⟨hi, h⟩)]
    · rw [List.getElem?_eq_none (by rw [hlen]; simpa using hi), List.getElem?_eq_none (by simp; omega)]
  · have := hps p hp
    omega

/-- pixels 1 and 2 of four, the latter counted from the end -/
example : highlightWidths (some (.int, [3, 4, 5, 6])) (.numbers [-2, 1, 1]) (5 / 2) = .ok [0, 2, 2, 0] ∧ ∀ p ∈ [(-2 : Int), 1, 1], -(([3, 4, 5, 6] : List ℚ).length : Int) ≤ p ∧ p < ([3, 4, 5, 6] : List ℚ).length := by
  decide +kernel

/-- C101: before the first image, with a mask of the wrong length, or with pixel numbers one of which is outside the camera, `IndexError` is raised; these are the only failures. -/
theorem C101_errors (t : Dtype) (im : List ℚ) (w : ℚ) :
    (∀ pixels, highlightWidths none pixels w = .error .indexError) ∧ (∀ mask : List Bool, mask.length ≠ im.length → highlightWidths (some (t, im)) (.mask mask) w = .error .indexError) ∧
    (∀ ps : List Int, (∃ p ∈ ps, p < -im.length ∨ (im.length : Int) ≤ p) → highlightWidths (some (t, im)) (.numbers ps) w = .error .indexError) ∧
    (∀ mask : List Bool, mask.length = im.length → ∃ lw, highlightWidths (some (t, im)) (.mask mask) w = .ok lw) ∧
    (∀ ps : List Int, (∀ p ∈ ps, -(im.length : Int) ≤ p ∧ p < im.length) → ∃ lw, highlightWidths (some (t, im)) (.numbers ps) w = .ok lw) := by
  have hmask : ∀ mask : List Bool, mask.length = im.length → ∃ lw, highlightWidths (some (t, im)) (.mask mask) w = .ok lw := by
    intro mask h
    unfold highlightWidths assignWidth
    simp [h]
  refine ⟨fun _ => rfl, fun mask h => ?_, fun ps ⟨p, hp, h⟩ => ?_, hmask, fun ps h => ?_⟩
  · unfold highlightWidths assignWidth
    simp [h]
  · unfold highlightWidths assignWidth
    simp only [List.length_replicate]
    rcases mapM_normIndex im.length ps with ⟨ks, -, h2, -⟩ | ⟨h1, -⟩
    · have := h2 p hp
      omega
    · rw [h1]
  · rw [C101_numbers t im w ps h]
    exact hmask _ (by simp)

/-- the same pixel highlighted on the image `[3, 4, 5]` of floating-point and of whole numbers -/
example : highlightWidths (some (.float, [3, 4, 5])) (.numbers [1]) (1 / 2) = .ok [0, 1 / 2, 0] ∧ highlightWidths (some (.int, [3, 4, 5])) (.numbers [1]) (1 / 2) = .ok [0, 0, 0] := by
  decide +kernel

/-! ### C102 -/

/-- the limits chosen by the caller and not reset since -/
def chosen (ops : List ColorOp) : Option (ℚ × ℚ) := ops.foldl (fun c op => match op with
  | .setLimits a b => some (a, b)
  | .resetLimits => none
  | _ => c) none

/-- the image shown: the last one of the right size -/
def shownImage (n : Nat) (ops : List ColorOp) : List (Option ℚ) := ops.foldl (fun im op => match op with
  | .image val => if val.length = n then val else im
  | _ => im) (List.replicate n (some 0))

/-- limits spanned by the values of an image that are not NaN (and positive, on a logarithmic scale) -/
def Spans (log : Bool) (im : List (Option ℚ)) : Option (ℚ × ℚ) → Prop
  | none => ∀ x, some x ∈ im → log = true ∧ x ≤ 0
  | some (lo, hi) => (some lo ∈ im ∧ some hi ∈ im) ∧ (log = true → 0 < lo) ∧ ∀ x, some x ∈ im → (log = true → 0 < x) → lo ≤ x ∧ x ≤ hi

theorem foldl_min_spec (l : List ℚ) (x : ℚ) : (l.foldl min x ∈ x :: l) ∧ ∀ y ∈ x :: l, l.foldl min x ≤ y := by
  induction l generalizing x with
  | nil => simp
  | cons a l ih =>
    rw [List.foldl_cons]
    obtain ⟨h1, h2⟩ := ih (min x a)
    constructor
    · rcases List.mem_cons.1 h1 with h | h
      · rw [h]
        rcases min_choice x a with h' | h' <;> rw [h'] <;> simp
      · simp [h]
    · intro y hy
      have hm := h2 (min x a) (by simp)
      rcases List.mem_cons.1 hy with rfl | hy
      · exact hm.trans (min_le_left _ _)
      · rcases List.mem_cons.1 hy with rfl | hy
        · exact hm.trans (min_le_right _ _)
        · exact h2 y (by simp [hy])

theorem autoLimits_spans (log : Bool) (im : List (Option ℚ)) : Spans log im (autoLimits log im) := by
  have hmem : ∀ x, x ∈ (im.filterMap id).filter (fun x => !log || decide (0 < x)) ↔ some x ∈ im ∧ (log = true → 0 < x) := by
    intro x
    simp only [List.mem_filter, List.mem_filterMap, id, exists_eq_right]
    cases log <;> simp
  unfold autoLimits
  cases h : (im.filterMap id).filter (fun x => !log || decide (0 < x)) with
  | nil =>
    intro x hx
    rw [h] at hmem
    by_contra hc
    have := (hmem x).2 ⟨hx, fun hl => by
      by_contra h0
      exact hc ⟨hl, not_lt.1 h0⟩⟩
    cases this
  | cons a l =>
    rw [h] at hmem
    have hlo := foldl_min_spec l a
    have hhi : l.foldl max a ∈ a :: l ∧ ∀ y ∈ a :: l, y ≤ l.foldl max a := by
      constructor
      · rcases foldl_max_mem l a with h | h
        · rw [h]; simp
        · exact List.mem_cons_of_mem _ h
      · intro y hy
        rcases List.mem_cons.1 hy with rfl | h
        · exact (foldl_max_ge l y).1
        · exact (foldl_max_ge l a).2 _ h
    exact ⟨⟨((hmem _).1 hlo.1).1, ((hmem _).1 hhi.1).1⟩, ((hmem _).1 hlo.1).2, fun x hx hp => ⟨hlo.2 x ((hmem x).2 ⟨hx, hp⟩), hhi.2 x ((hmem x).2 ⟨hx, hp⟩)⟩⟩

/-- `set_z_log` is only called while no limits are chosen -/
def LogBeforeLimits (ops : List ColorOp) : Prop := ∀ pre post, ops = pre ++ .setZLog :: post → chosen pre = none

/-- C102, what holds: if the scale is not made logarithmic while limits are chosen, then after any sequence of calls the limits are those chosen by the caller, if
any and not reset since, and otherwise the smallest and largest value of the image shown. (The full claim is for all sequences.) -/
theorem C102_partial (n : Nat) (ops : List ColorOp) (h : LogBeforeLimits ops) :
    let s := ops.foldl ColorScale.step (ColorScale.init n)
    s.array = shownImage n ops ∧ (∀ l, chosen ops = some l → s.clim = some l) ∧
      (chosen ops = none → Spans (ops.any fun op => match op with | .setZLog => true | _ => false) (shownImage n ops) s.clim) := by
  have key : let s := ops.foldl ColorScale.step (ColorScale.init n)
      s.array = shownImage n ops ∧ s.array.length = n ∧ s.log = (ops.any fun op => match op with | .setZLog => true | _ => false) ∧
      (s.autoscale = true ↔ chosen ops = none) ∧ (∀ l, chosen ops = some l → s.clim = some l) ∧ (chosen ops = none → s.clim = autoLimits s.log s.array) := by
    induction ops using List.reverseRecOn with
    | nil => exact ⟨rfl, by simp [ColorScale.init], rfl, by simp [ColorScale.init, chosen], by simp [chosen], fun _ => rfl⟩
    | append_singleton ops op ih =>
      obtain ⟨h1, h2, h3, h4, h5, h6⟩ := ih fun pre post he => h pre (post ++ [op]) (by rw [he]; simp)
      have hch : chosen (ops ++ [op]) = (match op with | .setLimits a b => some (a, b) | .resetLimits => none | _ => chosen ops) := by
        unfold chosen; rw [List.foldl_append]; cases op <;> rfl
      have him : shownImage n (ops ++ [op]) = (match op with | .image val => if val.length = n then val else shownImage n ops | _ => shownImage n ops) := by
        unfold shownImage; rw [List.foldl_append]; cases op <;> rfl
      have hlg : ((ops ++ [op]).any fun op => match op with | .setZLog => true | _ => false) = ((ops.any fun op => match op with | .setZLog => true | _ => false) || (match op with | .setZLog => true | _ => false)) := by
        rw [List.any_append]; cases op <;> rfl
      simp only at h1 h2 h3 h4 h5 h6 ⊢
      rw [List.foldl_append, List.foldl_cons, List.foldl_nil, hch, him, hlg]
      set s := ops.foldl ColorScale.step (ColorScale.init n) with hs
      cases op with
      | image val =>
        simp only [ColorScale.step]
        by_cases hl : val.length = n
        · rw [if_neg (by rw [h2]; simpa using hl), if_pos hl]
          refine ⟨rfl, hl, by simp [h3], h4, fun l hc => ?_, fun hc => ?_⟩
          · have : s.autoscale = false := by
              cases ha : s.autoscale with
              | false => rfl
              | true => rw [h4.1 ha] at hc; cases hc
            simp only [this]
            exact h5 l hc
          · simp only [h4.2 hc]
            rfl
        · rw [if_pos (by rw [h2]; exact hl), if_neg hl]
          exact ⟨h1, h2, by simp [h3], h4, h5, h6⟩
      | setLimits a b => exact ⟨h1, h2, by simp [ColorScale.step, h3], by simp [ColorScale.step], fun l hc => hc, fun hc => by cases hc⟩
      | setZLog =>
        have hnone := h ops [] rfl
        refine ⟨h1, h2, by simp [ColorScale.step], h4, fun l hc => ?_, fun _ => rfl⟩
        simp only at hc
        rw [hnone] at hc
        cases hc
      | resetLimits => exact ⟨h1, h2, by simp [ColorScale.step, h3], by simp [ColorScale.step], fun l hc => by (cases hc), fun _ => rfl⟩
  obtain ⟨h1, h2, h3, h4, h5, h6⟩ := key
  refine ⟨h1, h5, fun hc => ?_⟩
  rw [h6 hc, ← h3, ← h1]
  exact autoLimits_spans _ _

/-- C102 is false: making the scale logarithmic discards the limits chosen by the caller, and because they still count as chosen, the limits do not follow later
images either. -/
theorem C102_false : ∃ ops : List ColorOp, chosen ops = some (0, 50) ∧ shownImage 2 ops = [some 30, some 40] ∧
    (ops.foldl ColorScale.step (ColorScale.init 2)).clim = some (1, 2) :=
  ⟨[.image [some 1, some 2], .setLimits 0 50, .setZLog, .image [some 30, some 40]], by decide +kernel, by decide +kernel, by decide +kernel⟩

/-- logarithmic scale first, then limits, an image with NaN, reset -/
example : (([.image [some 1, some 2, none], .setZLog, .setLimits 3 4, .image [some (-1), some 7, some 9]] : List ColorOp).foldl ColorScale.step (ColorScale.init 3)).clim = some (3, 4) ∧
    (([.image [some 1, some 2, none], .setZLog, .setLimits 3 4, .image [some (-1), some 7, some 9], .resetLimits] : List ColorOp).foldl ColorScale.step (ColorScale.init 3)).clim = some (7, 9) := by
  decide +kernel

/-- the calls that only show images -/
def OnlyImages (ops : List ColorOp) : Prop := ∀ op ∈ ops, ∃ val, op = .image val

theorem scale_state (n : Nat) (ops : List ColorOp) :
    let s := ops.foldl ColorScale.step (ColorScale.init n)
    s.array = shownImage n ops ∧ s.array.length = n ∧ s.log = (ops.any fun op => match op with | .setZLog => true | _ => false) ∧
      (s.autoscale = true ↔ chosen ops = none) ∧ (chosen ops = none → s.clim = autoLimits s.log s.array) := by
  induction ops using List.reverseRecOn with
  | nil => exact ⟨rfl, by simp [ColorScale.init], rfl, by simp [ColorScale.init, chosen], fun _ => rfl⟩
  | append_singleton ops op ih =>
    obtain ⟨h1, h2, h3, h4, h6⟩ := ih
    have hch : chosen (ops ++ [op]) = (match op with | .setLimits a b => some (a, b) | .resetLimits => none | _ => chosen ops) := by
      unfold chosen; rw [List.foldl_append]; cases op <;> rfl
    have him : shownImage n (ops ++ [op]) = (match op with | .image val => if val.length = n then val else shownImage n ops | _ => shownImage n ops) := by
      unfold shownImage; rw [List.foldl_append]; cases op <;> rfl
    have hlg : ((ops ++ [op]).any fun op => match op with | .setZLog => true | _ => false) = ((ops.any fun op => match op with | .setZLog => true | _ => false) || (match op with | .setZLog => true | _ => false)) := by
      rw [List.any_append]; cases op <;> rfl
    simp only at h1 h2 h3 h4 h6 ⊢
    rw [List.foldl_append, List.foldl_cons, List.foldl_nil, hch, him, hlg]
    set s := ops.foldl ColorScale.step (ColorScale.init n) with hs
    cases op with
    | image val =>
      simp only [ColorScale.step]
      by_cases hl : val.length = n
      · rw [if_neg (by rw [h2]; simpa using hl), if_pos hl]
        refine ⟨rfl, hl, by simp [h3], h4, fun hc => ?_⟩
        simp only [h4.2 hc]
        rfl
      · rw [if_pos (by rw [h2]; exact hl), if_neg hl]
        exact ⟨h1, h2, by simp [h3], h4, h6⟩
    | setLimits a b => exact ⟨h1, h2, by simp [ColorScale.step, h3], by simp [ColorScale.step], fun hc => by cases hc⟩
    | setZLog => exact ⟨h1, h2, by simp [ColorScale.step], h4, fun _ => rfl⟩
    | resetLimits => exact ⟨h1, h2, by simp [ColorScale.step, h3], by simp [ColorScale.step], fun _ => rfl⟩

/-- with limits chosen, showing images does not move the limits -/
theorem images_keep_limits (post : List ColorOp) (h : OnlyImages post) (s : ColorScale) (ha : s.autoscale = false) : (post.foldl ColorScale.step s).clim = s.clim := by
  induction post generalizing s with
  | nil => rfl
  | cons op post ih =>
    obtain ⟨val, rfl⟩ := h op (by simp)
    rw [List.foldl_cons]
    have hstep : (s.step (.image val)).autoscale = false ∧ (s.step (.image val)).clim = s.clim := by
      unfold ColorScale.step
      simp only
      split_ifs <;> simp_all
    rw [ih (fun o ho => h o (by simp [ho])) _ hstep.1, hstep.2]

/-- C102 for every sequence of calls. The image is the last one of the right size. While no limits are chosen the limits span this image. After choosing
limits, and showing any images, they are the chosen ones. After making the scale logarithmic while limits were chosen, and showing any images, they span the
image that was shown at that moment. (Every sequence is of one of these kinds: the last call that is not about images decides.) -/
theorem C102_all_partial (n : Nat) (ops : List ColorOp) :
    let s := ops.foldl ColorScale.step (ColorScale.init n)
    s.array = shownImage n ops ∧
    (chosen ops = none → Spans (ops.any fun op => match op with | .setZLog => true | _ => false) (shownImage n ops) s.clim) ∧
    (∀ pre a b post, ops = pre ++ .setLimits a b :: post → OnlyImages post → s.clim = some (a, b)) ∧
    (∀ pre post, ops = pre ++ .setZLog :: post → OnlyImages post → chosen pre ≠ none → Spans true (shownImage n pre) s.clim) := by
  obtain ⟨h1, -, h3, -, h6⟩ := scale_state n ops
  refine ⟨h1, fun hc => ?_, ?_, ?_⟩
  · rw [h6 hc, ← h3, ← h1]
    exact autoLimits_spans _ _
  · rintro pre a b post rfl hp
    rw [List.foldl_append, List.foldl_cons, images_keep_limits post hp]
    · rfl
    · rfl
  · rintro pre post rfl hp hc
    obtain ⟨g1, -, -, g4, -⟩ := scale_state n pre
    have ha : (pre.foldl ColorScale.step (ColorScale.init n)).autoscale = false := by
      cases ha : (pre.foldl ColorScale.step (ColorScale.init n)).autoscale with
      | false => rfl
      | true => exact absurd (g4.1 ha) hc
    rw [List.foldl_append, List.foldl_cons, images_keep_limits post hp, ← g1]
    · exact autoLimits_spans _ _
    · exact ha

/-- the kinds of `C102_all_partial` are all there are -/
theorem C102_kinds (ops : List ColorOp) : chosen ops = none ∨ (∃ pre a b post, ops = pre ++ .setLimits a b :: post ∧ OnlyImages post) ∨
    ∃ pre post, ops = pre ++ .setZLog :: post ∧ OnlyImages post ∧ chosen pre ≠ none := by
  induction ops using List.reverseRecOn with
  | nil => exact Or.inl rfl
  | append_singleton ops op ih =>
    have hch : chosen (ops ++ [op]) = (match op with | .setLimits a b => some (a, b) | .resetLimits => none | _ => chosen ops) := by
      unfold chosen; rw [List.foldl_append]; cases op <;> rfl
    cases op with
    | resetLimits => exact Or.inl hch
    | setLimits a b => exact Or.inr (Or.inl ⟨ops, a, b, [], rfl, by simp [OnlyImages]⟩)
    | setZLog =>
      by_cases hc : chosen ops = none
      · exact Or.inl (hch.trans hc)
      · exact Or.inr (Or.inr ⟨ops, [], rfl, by simp [OnlyImages], hc⟩)
    | image val =>
      have hadd : ∀ post, OnlyImages post → OnlyImages (post ++ [.image val]) := by
        intro post h op hop
        rcases List.mem_append.1 hop with h' | h'
        · exact h op h'
        · exact ⟨val, by simpa using h'⟩
      rcases ih with h | ⟨pre, a, b, post, rfl, hp⟩ | ⟨pre, post, rfl, hp, hc⟩
      · exact Or.inl (hch.trans h)
      · exact Or.inr (Or.inl ⟨pre, a, b, post ++ [.image val], by simp, hadd post hp⟩)
      · exact Or.inr (Or.inr ⟨pre, post ++ [.image val], by simp, hadd post hp, hc⟩)

/-- limits chosen, logarithmic scale, then other images: the limits are those of the image shown when the scale became logarithmic, without the value 0 -/
example : (([.image [some 0, some 1, some 2], .setLimits 0 50, .setZLog, .image [some 30, some 40, none]] : List ColorOp).foldl ColorScale.step (ColorScale.init 3)).clim = some (1, 2) := by
  decide +kernel

end Verif.Props
