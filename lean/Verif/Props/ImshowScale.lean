import Verif.Model.ImshowScale
import Verif.Props.Camera
import Verif.Props.Plotting

/-! # C159: colour limits of a camera image made of cells -/

namespace Verif.Props

open Verif.Py Verif.Model Verif.Spec Verif.Lemmas

/-- the limits chosen by the caller and not reset since -/
def chosenCells (ops : List ImshowOp) : Option (ℚ × ℚ) := ops.foldl (fun c op => match op with
  | .setLimits a b => some (a, b)
  | .resetLimits => none
  | .image _ => c) none

/-- the image shown: the last one of the right size -/
def shownCells (n : Nat) (ops : List ImshowOp) : Option (List (Option ℚ)) := ops.foldl (fun im op => match op with
  | .image val => if val.length = n then some val else im
  | _ => im) none

/-- a cell that is neither in a corner nor of a pixel -/
def EmptyCell (nRows nCols : Nat) (pos : List (Nat × Nat)) : Prop := ∃ r c, r < nRows ∧ c < nCols ∧ ¬ isCorner nRows nCols r c ∧ (r, c) ∉ pos

/-- limits of an image as the claim has them: the smallest and largest value that is a number; nothing is said if there is none -/
def SpansImage (im : List (Option ℚ)) (clim : Option (ℚ × ℚ)) : Prop :=
  (∃ x, some x ∈ im) → ∃ lo hi, clim = some (lo, hi) ∧ some lo ∈ im ∧ some hi ∈ im ∧ ∀ x, some x ∈ im → lo ≤ x ∧ x ≤ hi

theorem mem_gridCells (nRows nCols : Nat) (data : Nat → Nat → Option ℚ) (x : Option ℚ) :
    x ∈ gridCells nRows nCols data ↔ ∃ r c, r < nRows ∧ c < nCols ∧ data r c = x := by
  simp only [gridCells, List.mem_flatMap, List.mem_map, List.mem_range]
  constructor
  · rintro ⟨r, hr, c, hc, h⟩; exact ⟨r, c, hr, hc, h⟩
  · rintro ⟨r, c, hr, hc, h⟩; exact ⟨r, hr, c, hc, h⟩

/-- the data shows the image -/
structure ShowsCells (nRows nCols : Nat) (pos : List (Nat × Nat)) (im : List (Option ℚ)) (data : Nat → Nat → Option ℚ) : Prop where
  pixel : ∀ (i : Nat) p v, pos[i]? = some p → im[i]? = some v → data p.1 p.2 = v
  other : ∀ r c, (r, c) ∉ pos → (isCorner nRows nCols r c → data r c = none) ∧ (¬ isCorner nRows nCols r c → data r c = some 0)

theorem shows_values (nRows nCols : Nat) (pos : List (Nat × Nat)) (hpos : ∀ p ∈ pos, p.1 < nRows ∧ p.2 < nCols) (im : List (Option ℚ)) (hlen : im.length = pos.length)
    (data : Nat → Nat → Option ℚ) (h : ShowsCells nRows nCols pos im data) (x : ℚ) :
    some x ∈ gridCells nRows nCols data ↔ some x ∈ im ∨ EmptyCell nRows nCols pos ∧ x = 0 := by
  rw [mem_gridCells]
  constructor
  · rintro ⟨r, c, hr, hc, hd⟩
    by_cases hp : (r, c) ∈ pos
    · obtain ⟨i, hi⟩ := List.mem_iff_getElem?.1 hp
      have hil : i < im.length := by rw [hlen]; exact (List.getElem?_eq_some_iff.1 hi).1
      have := h.pixel i _ _ hi (List.getElem?_eq_getElem hil)
      left
      rw [← hd]
      simp only at this
      rw [this]
      exact List.getElem_mem hil
    · by_cases hcorner : isCorner nRows nCols r c
      · rw [(h.other r c hp).1 hcorner] at hd; cases hd
      · rw [(h.other r c hp).2 hcorner] at hd
        injection hd with hd
        exact Or.inr ⟨⟨r, c, hr, hc, hcorner, hp⟩, hd.symm⟩
  · rintro (hx | ⟨⟨r, c, hr, hc, hcorner, hp⟩, rfl⟩)
    · obtain ⟨i, hi⟩ := List.mem_iff_getElem?.1 hx
      have hil : i < pos.length := by rw [← hlen]; exact (List.getElem?_eq_some_iff.1 hi).1
      obtain ⟨h1, h2⟩ := hpos _ (List.getElem_mem hil)
      exact ⟨_, _, h1, h2, h.pixel i _ _ (List.getElem?_eq_getElem hil) hi⟩
    · exact ⟨r, c, hr, hc, (h.other r c hp).2 hcorner⟩

theorem shows_written (nRows nCols : Nat) (pos : List (Nat × Nat)) (hpos : ∀ p ∈ pos, p.1 < nRows ∧ p.2 < nCols) (hnd : pos.Nodup) (im : List (Option ℚ)) (hlen : im.length = pos.length) :
    ∃ data, fancySet nRows nCols (maskCorners nRows nCols fun _ _ => some (0 : ℚ)) (pos.map fun p => (p.1 : Int)) (pos.map fun p => (p.2 : Int)) im = .ok data ∧
      ShowsCells nRows nCols pos im data := by
  have hz : (pos.map fun p => (p.1 : Int)).zip (pos.map fun p => (p.2 : Int)) = pos.map fun p => ((p.1 : Int), (p.2 : Int)) := by
    clear hpos hnd hlen
    induction pos with
    | nil => rfl
    | cons a l ih => simp [ih]
  refine ⟨writeAll (maskCorners nRows nCols fun _ _ => some (0 : ℚ)) (pos.zip im), ?_, ?_, ?_⟩
  · unfold fancySet
    rw [hz, gridPositions_nat nRows nCols pos hpos]
  · intro i p v hp hv
    apply writeAll_mem
    · rw [List.map_fst_zip (by omega)]; exact hnd
    · apply List.mem_of_getElem? (i := i)
      rw [List.getElem?_zip_eq_some]
      exact ⟨hp, hv⟩
  · intro r c hrc
    have : ∀ g : Nat → Nat → Option ℚ, writeAll g (pos.zip im) r c = g r c := by
      intro g
      apply writeAll_not_mem
      intro w hw he
      exact hrc (by rw [← he]; exact (List.of_mem_zip hw).1)
    simp only [this]
    exact maskCorners_spec nRows nCols _ r c

/-- the state after some calls -/
theorem imshow_state (nRows nCols : Nat) (pos : List (Nat × Nat)) (hpos : ∀ p ∈ pos, p.1 < nRows ∧ p.2 < nCols) (hnd : pos.Nodup) (s0 : ImshowScale)
    (h0 : ImshowScale.init (pos.map fun p => (p.1 : Int)) (pos.map fun p => (p.2 : Int)) nRows nCols = .ok s0) (ops : List ImshowOp) (s : ImshowScale)
    (hs : ops.foldl ImshowScale.step s0 = s) :
    s.row = pos.map (fun p => (p.1 : Int)) ∧ s.col = pos.map (fun p => (p.2 : Int)) ∧ s.nRows = nRows ∧ s.nCols = nCols ∧
    (∀ im, shownCells pos.length ops = some im → im.length = pos.length ∧ ShowsCells nRows nCols pos im s.data) ∧ (s.autoscale = true ↔ chosenCells ops = none) ∧
    (∀ l, chosenCells ops = some l → s.clim = some l) ∧ (chosenCells ops = none → s.clim = autoLimits false (gridCells nRows nCols s.data)) := by
  induction ops using List.reverseRecOn generalizing s with
  | nil =>
    unfold ImshowScale.init at h0
    rw [if_neg (by simp)] at h0
    injection h0 with h0
    rw [List.foldl_nil, ← h0] at hs
    subst hs
    exact ⟨rfl, rfl, rfl, rfl, by simp [shownCells], by simp [chosenCells], by simp [chosenCells], fun _ => rfl⟩
  | append_singleton ops op ih =>
    obtain ⟨h1, h2, h3, h4, h5, h6, h7, h8⟩ := ih _ rfl
    rw [List.foldl_append, List.foldl_cons, List.foldl_nil] at hs
    generalize ops.foldl ImshowScale.step s0 = t at *
    have hc : ∀ o, chosenCells (ops ++ [o]) = match o with
        | .setLimits a b => some (a, b)
        | .resetLimits => none
        | .image _ => chosenCells ops := by
      intro o; simp only [chosenCells, List.foldl_append, List.foldl_cons, List.foldl_nil]
    have hi : ∀ o, shownCells pos.length (ops ++ [o]) = match o with
        | .image val => if val.length = pos.length then some val else shownCells pos.length ops
        | _ => shownCells pos.length ops := by
      intro o; simp only [shownCells, List.foldl_append, List.foldl_cons, List.foldl_nil]
    cases op with
    | setLimits a b =>
      simp only [ImshowScale.step] at hs
      subst hs
      rw [hc, hi]
      exact ⟨h1, h2, h3, h4, h5, by simp, by simp, by simp⟩
    | resetLimits =>
      simp only [ImshowScale.step] at hs
      subst hs
      rw [hc, hi]
      exact ⟨h1, h2, h3, h4, h5, by simp, by simp, fun _ => by simp only [h3, h4]⟩
    | image val =>
      rw [hc, hi]
      simp only
      simp only [ImshowScale.step, h1, h2, h3, h4, List.length_map] at hs
      by_cases hl : val.length = pos.length
      · rw [if_neg (by simp [hl])] at hs
        obtain ⟨data, hd, hshow⟩ := shows_written nRows nCols pos hpos hnd val hl
        rw [hd] at hs
        simp only at hs
        subst hs
        rw [if_pos hl]
        refine ⟨rfl, rfl, rfl, rfl, ?_, h6, ?_, ?_⟩
        · intro im him
          injection him with him
          subst him
          exact ⟨hl, hshow⟩
        · intro l hl'
          have : ¬ t.autoscale = true := by rw [h6, hl']; simp
          simp only [this]
          exact h7 l hl'
        · intro hn
          simp only [h6.2 hn, if_true]
      · rw [if_pos hl] at hs
        subst hs
        rw [if_neg hl]
        exact ⟨h1, h2, h3, h4, h5, h6, h7, h8⟩

/-- **C159, as far as it holds.** `pos` are the row and column of each pixel, all different and inside the grid. After any sequence of images (of any size), chosen limits and resets: limits chosen and
not reset since are the ones in use; otherwise, once an image of the right size was assigned, the limits are the smallest and largest number of it, provided that every cell outside the masked corners
belongs to a pixel. Missing: grids with cells of no pixel (`C159_uncovered`, `C159_false`). -/
theorem C159_partial (nRows nCols : Nat) (pos : List (Nat × Nat)) (hpos : ∀ p ∈ pos, p.1 < nRows ∧ p.2 < nCols) (hnd : pos.Nodup) (s0 : ImshowScale)
    (h0 : ImshowScale.init (pos.map fun p => (p.1 : Int)) (pos.map fun p => (p.2 : Int)) nRows nCols = .ok s0) (ops : List ImshowOp) :
    (∀ l, chosenCells ops = some l → (ops.foldl ImshowScale.step s0).clim = some l) ∧
    (∀ im, chosenCells ops = none → shownCells pos.length ops = some im → ¬ EmptyCell nRows nCols pos → SpansImage im (ops.foldl ImshowScale.step s0).clim) := by
  obtain ⟨-, -, -, -, h5, -, h7, h8⟩ := imshow_state nRows nCols pos hpos hnd s0 h0 ops _ rfl
  refine ⟨h7, fun im hc him hcov ⟨x, hx⟩ => ?_⟩
  obtain ⟨hlen, hshow⟩ := h5 im him
  have hv := shows_values nRows nCols pos hpos im hlen _ hshow
  have hsp := autoLimits_spans false (gridCells nRows nCols (ops.foldl ImshowScale.step s0).data)
  rw [← h8 hc] at hsp
  have hv' : ∀ x : ℚ, some x ∈ gridCells nRows nCols (ops.foldl ImshowScale.step s0).data ↔ some x ∈ im := fun x => by rw [hv x]; simp [hcov]
  cases hl : (ops.foldl ImshowScale.step s0).clim with
  | none =>
    rw [hl] at hsp
    have := (hsp x ((hv' x).2 hx)).1
    cases this
  | some l =>
    obtain ⟨lo, hi⟩ := l
    rw [hl] at hsp
    obtain ⟨⟨a, b⟩, -, c⟩ := hsp
    exact ⟨lo, hi, rfl, (hv' lo).1 a, (hv' hi).1 b, fun y hy => c y ((hv' y).2 hy) (by simp)⟩

/-- **C159, the rest.** With a cell of no pixel outside the masked corners the limits are those of the image and the number 0, whatever the image. -/
theorem C159_uncovered (nRows nCols : Nat) (pos : List (Nat × Nat)) (hpos : ∀ p ∈ pos, p.1 < nRows ∧ p.2 < nCols) (hnd : pos.Nodup) (s0 : ImshowScale)
    (h0 : ImshowScale.init (pos.map fun p => (p.1 : Int)) (pos.map fun p => (p.2 : Int)) nRows nCols = .ok s0) (ops : List ImshowOp) (im : List (Option ℚ))
    (hc : chosenCells ops = none) (him : shownCells pos.length ops = some im) (hun : EmptyCell nRows nCols pos) :
    SpansImage (some 0 :: im) (ops.foldl ImshowScale.step s0).clim := by
  obtain ⟨-, -, -, -, h5, -, -, h8⟩ := imshow_state nRows nCols pos hpos hnd s0 h0 ops _ rfl
  intro _
  obtain ⟨hlen, hshow⟩ := h5 im him
  have hv := shows_values nRows nCols pos hpos im hlen _ hshow
  have hsp := autoLimits_spans false (gridCells nRows nCols (ops.foldl ImshowScale.step s0).data)
  rw [← h8 hc] at hsp
  have hv' : ∀ x : ℚ, some x ∈ gridCells nRows nCols (ops.foldl ImshowScale.step s0).data ↔ some x ∈ (some 0 :: im : List (Option ℚ)) := fun x => by
    rw [hv x, List.mem_cons, Option.some_inj]
    exact ⟨fun h => h.elim Or.inr fun h => Or.inl h.2, fun h => h.elim (fun h => Or.inr ⟨hun, h⟩) Or.inl⟩
  cases hl : (ops.foldl ImshowScale.step s0).clim with
  | none =>
    rw [hl] at hsp
    have := (hsp 0 ((hv' 0).2 (by simp))).1
    cases this
  | some l =>
    obtain ⟨lo, hi⟩ := l
    rw [hl] at hsp
    obtain ⟨⟨a, b⟩, -, c⟩ := hsp
    exact ⟨lo, hi, rfl, (hv' lo).1 a, (hv' hi).1 b, fun y hy => c y ((hv' y).2 hy) (by simp)⟩

instance (nRows nCols r c : Nat) : Decidable (isCorner nRows nCols r c) := by unfold isCorner; infer_instance

/-- the cells outside the corners -/
def openCells (n : Nat) : List (Nat × Nat) := ((List.range n).flatMap fun r => (List.range n).map fun c => (r, c)).filter fun p => decide (¬ isCorner n n p.1 p.2)

theorem full_of_count (n : Nat) (pos : List (Nat × Nat)) (hpos : ∀ p ∈ pos, p.1 < n ∧ p.2 < n) (hnd : pos.Nodup) (hcorner : ∀ p ∈ pos, ¬ isCorner n n p.1 p.2)
    (hcount : (openCells n).length ≤ pos.length) : ¬ EmptyCell n n pos := by
  rintro ⟨r, c, hr, hc, hrc, hp⟩
  have hsub : ∀ p ∈ (r, c) :: pos, p ∈ openCells n := by
    have hm : ∀ p : Nat × Nat, p.1 < n → p.2 < n → ¬ isCorner n n p.1 p.2 → p ∈ openCells n := by
      rintro ⟨a, b⟩ h1 h2 h3
      simp only [openCells, List.mem_filter, List.mem_flatMap, List.mem_map, List.mem_range, decide_eq_true_eq]
      exact ⟨⟨a, h1, b, h2, rfl⟩, h3⟩
    intro p hp'
    rcases List.mem_cons.1 hp' with rfl | hp'
    · exact hm _ hr hc hrc
    · exact hm p (hpos p hp').1 (hpos p hp').2 (hcorner p hp')
  have := (List.subperm_of_subset (List.nodup_cons.2 ⟨hp, hnd⟩) hsub).length_le
  rw [List.length_cons] at this
  omega

/-- **C159, arguments**: an image is made exactly if there is a column for every row; an image of another size changes nothing. -/
theorem C159_sizes (row col : List Int) (nRows nCols : Nat) :
    (row.length = col.length ↔ ∃ s, ImshowScale.init row col nRows nCols = .ok s) ∧
    (row.length ≠ col.length → ImshowScale.init row col nRows nCols = .error .assertionError) ∧
    ∀ (s : ImshowScale) (val : List (Option ℚ)), val.length ≠ s.row.length → s.step (.image val) = s := by
  refine ⟨⟨fun h => ⟨_, if_neg (by simpa using h)⟩, fun ⟨s, h⟩ => ?_⟩, fun h => if_pos h, fun s val h => if_pos h⟩
  by_contra hne
  unfold ImshowScale.init at h
  rw [if_pos hne] at h
  cases h

example : ([0, 1, 1] : List Int).length ≠ ([0, 1] : List Int).length ∧ ([some 3, none, some 1, some 2] : List (Option ℚ)).length ≠ ([0, 1, 1] : List Int).length := by
  decide

/-- **C159 for the full camera**: 2048 pixels on 48 rows and columns, 512 superpixels on 24 or 32 modules on 6, none in a corner, leave no cell over. -/
theorem C159_full (n : Nat) (pos : List (Nat × Nat)) (hsize : n = 48 ∧ pos.length = 2048 ∨ n = 24 ∧ pos.length = 512 ∨ n = 6 ∧ pos.length = 32) (hpos : ∀ p ∈ pos, p.1 < n ∧ p.2 < n)
    (hnd : pos.Nodup) (hcorner : ∀ p ∈ pos, ¬ isCorner n n p.1 p.2) : ¬ EmptyCell n n pos := by
  apply full_of_count n pos hpos hnd hcorner
  rcases hsize with ⟨rfl, h⟩ | ⟨rfl, h⟩ | ⟨rfl, h⟩ <;> rw [h] <;> decide +kernel

/-- modules of the full camera, and a camera with the last one missing -/
example : (openCells 6).length = 32 ∧ (openCells 6).Nodup ∧ (∀ p ∈ openCells 6, p.1 < 6 ∧ p.2 < 6) ∧ (∀ p ∈ openCells 6, ¬ isCorner 6 6 p.1 p.2) ∧ EmptyCell 6 6 (openCells 6).dropLast := by
  refine ⟨by decide +kernel, by decide +kernel, by decide +kernel, by decide +kernel, 5, 4, by decide, by decide, by decide +kernel, by decide +kernel⟩

/-- **C159, exactly**: for a grid with at least one pixel the automatic limits are those of the image, whatever the history, exactly if no cell outside the corners is without a pixel. -/
theorem C159_exactly_partial (nRows nCols : Nat) (pos : List (Nat × Nat)) (hpos : ∀ p ∈ pos, p.1 < nRows ∧ p.2 < nCols) (hnd : pos.Nodup) (hne : pos ≠ []) (s0 : ImshowScale)
    (h0 : ImshowScale.init (pos.map fun p => (p.1 : Int)) (pos.map fun p => (p.2 : Int)) nRows nCols = .ok s0) :
    (∀ ops im, chosenCells ops = none → shownCells pos.length ops = some im → SpansImage im (ops.foldl ImshowScale.step s0).clim) ↔ ¬ EmptyCell nRows nCols pos := by
  constructor
  · intro h hempty
    have hshown : shownCells pos.length [.image (List.replicate pos.length (some 5))] = some (List.replicate pos.length (some 5)) := by simp [shownCells]
    have hmem : (some 5 : Option ℚ) ∈ List.replicate pos.length (some (5 : ℚ)) := List.mem_replicate.2 ⟨by simpa using hne, rfl⟩
    obtain ⟨lo, hi, hcl, h1, -, -⟩ := h _ _ rfl hshown ⟨5, hmem⟩
    obtain ⟨lo', hi', hcl', -, -, h3⟩ := C159_uncovered nRows nCols pos hpos hnd s0 h0 _ _ rfl hshown hempty ⟨0, by simp⟩
    rw [hcl'] at hcl
    injection hcl with hcl
    injection hcl with e1 e2
    have hle := (h3 0 (by simp)).1
    rw [e1, Option.some.inj (List.eq_of_mem_replicate h1)] at hle
    exact absurd hle (by decide)
  · intro hcov ops im hc him
    exact (C159_partial nRows nCols pos hpos hnd s0 h0 ops).2 im hc him hcov

/-- **C159**, before the first image: zeros are shown outside the corners and both limits are zero -/
theorem C159_initial (row col : List Int) (nRows nCols : Nat) (h : row.length = col.length) (hcell : ∃ r c, r < nRows ∧ c < nCols ∧ ¬ isCorner nRows nCols r c) :
    ∃ s, ImshowScale.init row col nRows nCols = .ok s ∧ s.autoscale = true ∧ s.clim = some (0, 0) ∧
      ∀ r c, (isCorner nRows nCols r c → s.data r c = none) ∧ (¬ isCorner nRows nCols r c → s.data r c = some 0) := by
  refine ⟨_, if_neg (by simpa using h), rfl, ?_, fun r c => maskCorners_spec nRows nCols _ r c⟩
  have hz : ∀ x : ℚ, some x ∈ gridCells nRows nCols (maskCorners nRows nCols fun _ _ => some (0 : ℚ)) → x = 0 := by
    intro x hx
    obtain ⟨r, c, -, -, hd⟩ := (mem_gridCells nRows nCols _ _).1 hx
    have hs := maskCorners_spec nRows nCols (fun _ _ => some (0 : ℚ)) r c
    by_cases hc : isCorner nRows nCols r c
    · rw [hs.1 hc] at hd; cases hd
    · rw [hs.2 hc] at hd; exact (Option.some.inj hd).symm
  obtain ⟨r, c, hr, hc, hn⟩ := hcell
  have h0 : some (0 : ℚ) ∈ gridCells nRows nCols (maskCorners nRows nCols fun _ _ => some (0 : ℚ)) :=
    (mem_gridCells nRows nCols _ _).2 ⟨r, c, hr, hc, (maskCorners_spec nRows nCols (fun _ _ => some (0 : ℚ)) r c).2 hn⟩
  have hsp := autoLimits_spans false (gridCells nRows nCols (maskCorners nRows nCols fun _ _ => some (0 : ℚ)))
  show autoLimits false (gridCells nRows nCols (maskCorners nRows nCols fun _ _ => some (0 : ℚ))) = some (0, 0)
  cases hl : autoLimits false (gridCells nRows nCols (maskCorners nRows nCols fun _ _ => some (0 : ℚ))) with
  | none =>
    rw [hl] at hsp
    cases (hsp 0 h0).1
  | some l =>
    obtain ⟨lo, hi⟩ := l
    rw [hl] at hsp
    obtain ⟨⟨a, b⟩, -, -⟩ := hsp
    rw [hz lo a, hz hi b]

example : ∃ s, ImshowScale.init [0, 0] [0, 1] 1 2 = .ok s ∧ s.clim = some (0, 0) :=
  let ⟨s, h, _, h', _⟩ := C159_initial [0, 0] [0, 1] 1 2 rfl ⟨0, 1, by decide, by decide, by unfold isCorner; decide⟩
  ⟨s, h, h'⟩

/-- **C159 is false as stated**: two cells, a pixel in the first only. The image 5, 5 being its smallest and largest value, is coloured from 0 to 5. -/
theorem C159_false : ∃ (nRows nCols : Nat) (pos : List (Nat × Nat)) (_ : ∀ p ∈ pos, p.1 < nRows ∧ p.2 < nCols) (_ : pos.Nodup) (s0 : ImshowScale)
    (_ : ImshowScale.init (pos.map fun p => (p.1 : Int)) (pos.map fun p => (p.2 : Int)) nRows nCols = .ok s0) (im : List (Option ℚ)),
    shownCells pos.length [.image im] = some im ∧ ¬ SpansImage im (([.image im] : List ImshowOp).foldl ImshowScale.step s0).clim := by
  refine ⟨2, 1, [(0, 0)], by simp, by simp, _, rfl, [some 5], rfl, ?_⟩
  intro h
  have hempty : EmptyCell 2 1 [(0, 0)] := ⟨1, 0, by decide, by decide, by unfold isCorner; decide, by decide⟩
  obtain ⟨lo, hi, hcl, h1, -, -⟩ := h ⟨5, by simp⟩
  obtain ⟨lo', hi', hcl', -, -, h3⟩ := C159_uncovered 2 1 [(0, 0)] (by simp) (by simp) _ rfl [.image [some 5]] [some 5] rfl rfl hempty ⟨0, by simp⟩
  rw [hcl'] at hcl
  injection hcl with hcl
  injection hcl with e1 e2
  have := (h3 0 (by simp)).1
  rw [e1] at this
  simp only [List.mem_singleton, Option.some_inj] at h1
  rw [h1] at this
  exact absurd this (by decide)

/-- a covered grid: three pixels in a row, an image with a number missing, limits chosen in between -/
example : ¬ EmptyCell 1 3 [(0, 2), (0, 0), (0, 1)] ∧ [((0, 2) : Nat × Nat), (0, 0), (0, 1)].Nodup ∧
    chosenCells [.setLimits 0 1, .image [some 4, none, some 2], .resetLimits, .image [some 1]] = none ∧
    shownCells 3 [.setLimits 0 1, .image [some 4, none, some 2], .resetLimits, .image [some 1]] = some [some 4, none, some 2] := by
  refine ⟨?_, by decide, rfl, rfl⟩
  rintro ⟨r, c, hr, hc, -, h⟩
  simp only [List.mem_cons, Prod.mk.injEq, List.not_mem_nil, or_false] at h
  omega

end Verif.Props
