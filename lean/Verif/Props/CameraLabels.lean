import Verif.Model.CameraLabels
import Verif.Props.Camera
import Verif.Props.Nnls
import Verif.Props.Plotting

/-!
# C118, C119: texts and marks on camera images
-/

namespace Verif.Props

open Verif.Py Verif.Model

/-! ## C118 -/

/-- no two rows of the mapping share a position in the grid -/
def DistinctPositions (m : List EdgeRow) : Prop := ∀ r ∈ m, ∀ r' ∈ m, r.row = r'.row → r.col = r'.col → r = r'

/-- `slot` holds the highest (`top`) or lowest pixel of some column of the camera -/
def AtEdge (top : Bool) (m : List EdgeRow) (slot : Nat) : Prop :=
  ∃ r ∈ m, r.slot = slot ∧ ∀ r' ∈ m, r'.col = r.col → if top then r'.row ≤ r.row else r.row ≤ r'.row

/-- the label names the module and is centred on its pixels, `gap` above the highest or below the lowest of them;
`x`, `y` are the coordinates of a pixel in the units of the axes -/
structure LabelsModule (top : Bool) (x y : EdgeRow → ℚ) (gap : ℚ) (m : List EdgeRow) (slot : Nat) (l : Label) : Prop where
  text : ∃ ds, l.text = 'T' :: 'M' :: ds ∧ (∀ c ∈ ds, '0' ≤ c ∧ c ≤ '9') ∧ 2 ≤ ds.length ∧ parseDec ds = slot
  centre : l.x * ((m.filter fun r => r.slot = slot).length : ℚ) = ((m.filter fun r => r.slot = slot).map x).sum
  beside : ∃ r ∈ m, r.slot = slot ∧ l.y = if top then y r + gap else y r - gap
  beyond : ∀ r ∈ m, r.slot = slot → if top then y r + gap ≤ l.y else l.y ≤ y r - gap

/-- exactly the modules at an edge are labelled, each once, in ascending order -/
def LabelsEdge (top : Bool) (x y : EdgeRow → ℚ) (gap : ℚ) (m : List EdgeRow) (ls : List Label) : Prop :=
  ∃ slots : List Nat, slots.Pairwise (· < ·) ∧ (∀ s, s ∈ slots ↔ AtEdge top m s) ∧
    List.Forall₂ (LabelsModule top x y gap m) slots ls

theorem extreme_exists (top : Bool) (g : List EdgeRow) (h : g ≠ []) :
    ∃ r ∈ g, ∀ r' ∈ g, if top then r'.row ≤ r.row else r.row ≤ r'.row := by
  induction g with
  | nil => exact absurd rfl h
  | cons a g ih =>
    by_cases hg : g = []
    · subst hg
      refine ⟨a, by simp, fun r' hr' => ?_⟩
      rw [List.mem_singleton] at hr'
      subst hr'
      split <;> exact le_refl _
    · obtain ⟨r, hr, hm⟩ := ih hg
      cases top with
      | true =>
        simp only [if_true] at hm ⊢
        rcases le_total a.row r.row with hle | hle
        · exact ⟨r, by simp [hr], fun r' hr' => by rcases List.mem_cons.1 hr' with rfl | h'; exacts [hle, hm r' h']⟩
        · exact ⟨a, by simp, fun r' hr' => by
            rcases List.mem_cons.1 hr' with rfl | h'; exacts [le_refl _, le_trans (hm r' h') hle]⟩
      | false =>
        simp only [Bool.false_eq_true, if_false] at hm ⊢
        rcases le_total a.row r.row with hle | hle
        · exact ⟨a, by simp, fun r' hr' => by
            rcases List.mem_cons.1 hr' with rfl | h'; exacts [le_refl _, le_trans hle (hm r' h')]⟩
        · exact ⟨r, by simp [hr], fun r' hr' => by rcases List.mem_cons.1 hr' with rfl | h'; exacts [hle, hm r' h']⟩

theorem extremeRow_spec (top : Bool) (g : List EdgeRow) (h : g ≠ []) :
    ∃ r, extremeRow top g = some r ∧ r ∈ g ∧ ∀ r' ∈ g, if top then r'.row ≤ r.row else r.row ≤ r'.row := by
  obtain ⟨r, hr, hm⟩ := extreme_exists top g h
  have hs : (extremeRow top g).isSome := by
    unfold extremeRow
    rw [List.find?_isSome]
    refine ⟨r, hr, ?_⟩
    rw [List.all_eq_true]
    intro r' hr'
    have := hm r' hr'
    cases top <;> simpa using this
  obtain ⟨a, ha⟩ := Option.isSome_iff_exists.1 hs
  refine ⟨a, ha, List.mem_of_find?_eq_some ha, fun r' hr' => ?_⟩
  have := List.find?_some ha
  rw [List.all_eq_true] at this
  have := this r' hr'
  cases top <;> simpa using this

theorem mem_edgeSlots (top : Bool) (m : List EdgeRow) (hd : DistinctPositions m) (s : Nat) :
    s ∈ edgeSlots top m ↔ AtEdge top m s := by
  unfold edgeSlots AtEdge
  rw [mem_unique, List.mem_filterMap]
  constructor
  · rintro ⟨c, -, h⟩
    obtain ⟨r, hr, rfl⟩ := Option.map_eq_some_iff.1 h
    have hne : (m.filter fun r => r.col = c) ≠ [] := by
      intro h0; rw [h0] at hr; cases hr
    obtain ⟨r0, h0, h1, h2⟩ := extremeRow_spec top _ hne
    obtain rfl : r0 = r := by rw [h0] at hr; exact Option.some.inj hr
    obtain ⟨h3, h4⟩ := List.mem_filter.1 h1
    have h4 : r0.col = c := by simpa using h4
    exact ⟨r0, h3, rfl, fun r' hr' hc => h2 r' (List.mem_filter.2 ⟨hr', by simp [hc, h4]⟩)⟩
  · rintro ⟨r, hr, rfl, hm⟩
    refine ⟨r.col, (mem_unique _ _).2 (List.mem_map_of_mem hr), ?_⟩
    have hrm : r ∈ m.filter fun r' => r'.col = r.col := List.mem_filter.2 ⟨hr, by simp⟩
    obtain ⟨r0, h0, h1, h2⟩ := extremeRow_spec top _ (List.ne_nil_of_mem hrm)
    obtain ⟨h3, h4⟩ := List.mem_filter.1 h1
    have h4 : r0.col = r.col := by simpa using h4
    have ha := hm r0 h3 h4
    have hb := h2 r hrm
    have : r0 = r := by
      refine hd r0 h3 r hr ?_ h4
      cases top
      · simp only [Bool.false_eq_true, if_false] at ha hb; omega
      · simp only [if_true] at ha hb; omega
    rw [h0, this]; rfl

theorem maxQ_spec (l : List ℚ) (h : l ≠ []) : maxQ l ∈ l ∧ ∀ x ∈ l, x ≤ maxQ l := by
  cases l with
  | nil => exact absurd rfl h
  | cons a l =>
    obtain ⟨h1, h2⟩ := foldl_max_ge l a
    refine ⟨?_, fun x hx => ?_⟩
    · rcases foldl_max_mem l a with h | h
      · show l.foldl max a ∈ _; rw [h]; simp
      · exact List.mem_cons_of_mem _ h
    · rcases List.mem_cons.1 hx with rfl | hx
      exacts [h1, h2 x hx]

theorem minQ_spec (l : List ℚ) (h : l ≠ []) : minQ l ∈ l ∧ ∀ x ∈ l, minQ l ≤ x := by
  cases l with
  | nil => exact absurd rfl h
  | cons a l => exact foldl_min_spec l a

theorem tmText_spec (s : Nat) :
    ∃ ds, tmText s = 'T' :: 'M' :: ds ∧ (∀ c ∈ ds, '0' ≤ c ∧ c ≤ '9') ∧ 2 ≤ ds.length ∧ parseDec ds = s := by
  refine ⟨decimalPad 2 s, rfl, fun c hc => ?_, ?_, parseDec_decimalPad 2 s⟩
  · have := decimalPad_digits 2 s c hc
    unfold isDigitChar at this
    simp only [Bool.and_eq_true, decide_eq_true_eq] at this
    exact ⟨this.1, this.2⟩
  · unfold decimalPad
    rw [List.length_append, List.length_replicate]; omega

theorem labelsModule_top (x y : EdgeRow → ℚ) (gap : ℚ) (m : List EdgeRow) (s : Nat)
    (hs : (m.filter fun r => r.slot = s) ≠ []) :
    LabelsModule true x y gap m s ⟨mean ((m.filter fun r => r.slot = s).map x),
      maxQ ((m.filter fun r => r.slot = s).map y) + gap, tmText s⟩ := by
  have hl : (((m.filter fun r => r.slot = s).length : Nat) : ℚ) ≠ 0 := by
    rw [Nat.cast_ne_zero]; exact fun h => hs (List.length_eq_zero_iff.1 h)
  obtain ⟨h1, h2⟩ := maxQ_spec ((m.filter fun r => r.slot = s).map y) (by simpa using hs)
  refine ⟨tmText_spec s, ?_, ?_, fun r hr hrs => ?_⟩
  · show mean _ * _ = _
    unfold mean
    rw [List.length_map, div_mul_cancel₀ _ hl]
  · obtain ⟨r, hr, he⟩ := List.mem_map.1 h1
    obtain ⟨hr, hrs⟩ := List.mem_filter.1 hr
    exact ⟨r, hr, by simpa using hrs, by simp only [if_true]; rw [← he]⟩
  · simp only [if_true]
    have := h2 (y r) (List.mem_map_of_mem (List.mem_filter.2 ⟨hr, by simpa using hrs⟩))
    linarith

theorem labelsModule_bottom (x y : EdgeRow → ℚ) (gap : ℚ) (m : List EdgeRow) (s : Nat)
    (hs : (m.filter fun r => r.slot = s) ≠ []) :
    LabelsModule false x y gap m s ⟨mean ((m.filter fun r => r.slot = s).map x),
      minQ ((m.filter fun r => r.slot = s).map y) - gap, tmText s⟩ := by
  have hl : (((m.filter fun r => r.slot = s).length : Nat) : ℚ) ≠ 0 := by
    rw [Nat.cast_ne_zero]; exact fun h => hs (List.length_eq_zero_iff.1 h)
  obtain ⟨h1, h2⟩ := minQ_spec ((m.filter fun r => r.slot = s).map y) (by simpa using hs)
  refine ⟨tmText_spec s, ?_, ?_, fun r hr hrs => ?_⟩
  · show mean _ * _ = _
    unfold mean
    rw [List.length_map, div_mul_cancel₀ _ hl]
  · obtain ⟨r, hr, he⟩ := List.mem_map.1 h1
    obtain ⟨hr, hrs⟩ := List.mem_filter.1 hr
    exact ⟨r, hr, by simpa using hrs, by simp only [Bool.false_eq_true, if_false]; rw [← he]⟩
  · simp only [Bool.false_eq_true, if_false]
    have := h2 (y r) (List.mem_map_of_mem (List.mem_filter.2 ⟨hr, by simpa using hrs⟩))
    linarith

theorem forall₂_map_of {α β : Type} (R : α → β → Prop) (f : α → β) (l : List α) (h : ∀ a ∈ l, R a (f a)) :
    List.Forall₂ R l (l.map f) := by
  induction l with
  | nil => exact .nil
  | cons a l ih => exact .cons (h a (by simp)) (ih fun b hb => h b (by simp [hb]))

theorem labelsEdge_of (top : Bool) (x y : EdgeRow → ℚ) (gap : ℚ) (m : List EdgeRow) (hd : DistinctPositions m) (f : Nat → Label)
    (hf : ∀ s, (m.filter fun r => r.slot = s) ≠ [] → LabelsModule top x y gap m s (f s)) :
    LabelsEdge top x y gap m ((edgeSlots top m).map f) := by
  refine ⟨edgeSlots top m, pairwise_unique _, mem_edgeSlots top m hd, forall₂_map_of _ _ _ fun s hs => hf s ?_⟩
  obtain ⟨r, hr, hrs, -⟩ := (mem_edgeSlots top m hd s).1 hs
  exact List.ne_nil_of_mem (List.mem_filter.2 ⟨hr, by simpa using hrs⟩)

/-- C118 (image of squares in metres): exactly the modules with the highest (lowest) pixel of some column get a label, once; it
names the module, is centred on it, and is 0.7 pixels beyond its outermost pixel. -/
theorem C118_patch_edge_labels (size : ℚ) (m : List EdgeRow) (hd : DistinctPositions m) :
    LabelsEdge true (·.xpix) (·.ypix) (7 / 10 * size) m (patchEdgeLabels size m).1 ∧
      LabelsEdge false (·.xpix) (·.ypix) (7 / 10 * size) m (patchEdgeLabels size m).2 := by
  constructor
  · refine labelsEdge_of true _ _ _ m hd _ fun s hs => ?_
    have := labelsModule_top (·.xpix) (·.ypix) (7 / 10 * size) m s hs
    rw [mul_comm (7 / 10 : ℚ) size] at this ⊢
    exact this
  · refine labelsEdge_of false _ _ _ m hd _ fun s hs => ?_
    have := labelsModule_bottom (·.xpix) (·.ypix) (7 / 10 * size) m s hs
    rw [mul_comm (7 / 10 : ℚ) size] at this ⊢
    exact this

/-- C118 (image in the units of the grid): the same, 0.4 pixels and a 48th of the rows of the camera beyond. -/
theorem C118_imshow_edge_labels (nRows : ℚ) (m : List EdgeRow) (hd : DistinctPositions m) :
    LabelsEdge true (fun r => (r.col : ℚ)) (fun r => (r.row : ℚ)) (nRows / 48 + 2 / 5) m (imshowEdgeLabels nRows m).1 ∧
      LabelsEdge false (fun r => (r.col : ℚ)) (fun r => (r.row : ℚ)) (nRows / 48 + 2 / 5) m (imshowEdgeLabels nRows m).2 := by
  constructor
  · refine labelsEdge_of true _ _ _ m hd _ fun s hs => ?_
    have := labelsModule_top (fun r => (r.col : ℚ)) (fun r => (r.row : ℚ)) (nRows / 48 + 2 / 5) m s hs
    rw [← add_assoc, show (2 / 5 : ℚ) = 4 / 10 by norm_num] at this
    rw [show (2 / 5 : ℚ) = 4 / 10 by norm_num]
    exact this
  · refine labelsEdge_of false _ _ _ m hd _ fun s hs => ?_
    have := labelsModule_bottom (fun r => (r.col : ℚ)) (fun r => (r.row : ℚ)) (nRows / 48 + 2 / 5) m s hs
    rw [← sub_sub, show (2 / 5 : ℚ) = 4 / 10 by norm_num] at this
    rw [show (2 / 5 : ℚ) = 4 / 10 by norm_num]
    exact this

/-- C118: with rows counted upwards, no label lies on a pixel of the columns its module closes. -/
theorem C118_labels_outside (size : ℚ) (hsize : 0 < size) (m : List EdgeRow) (hd : DistinctPositions m)
    (hup : ∀ r ∈ m, ∀ r' ∈ m, r.row ≤ r'.row → r.ypix ≤ r'.ypix) :
    (∀ l ∈ (patchEdgeLabels size m).1, ∃ c, (∃ r ∈ m, r.col = c) ∧ ∀ r ∈ m, r.col = c → r.ypix + size / 2 < l.y) ∧
      ∀ l ∈ (patchEdgeLabels size m).2, ∃ c, (∃ r ∈ m, r.col = c) ∧ ∀ r ∈ m, r.col = c → l.y < r.ypix - size / 2 := by
  obtain ⟨⟨s1, -, m1, f1⟩, ⟨s2, -, m2, f2⟩⟩ := C118_patch_edge_labels size m hd
  constructor
  · intro l hl
    obtain ⟨i, hi, rfl⟩ := List.mem_iff_getElem.1 hl
    have hi' : i < s1.length := by rw [f1.length_eq]; exact hi
    have hm := (List.forall₂_iff_get.1 f1).2 i hi' hi
    obtain ⟨r, hr, hrs, hmax⟩ := (m1 _).1 (List.getElem_mem hi')
    refine ⟨r.col, ⟨r, hr, rfl⟩, fun r' hr' hc => ?_⟩
    have h1 := hup r' hr' r hr (by simpa using hmax r' hr' hc)
    have h2 := hm.beyond r hr hrs
    simp only [if_true, List.get_eq_getElem] at h2
    linarith
  · intro l hl
    obtain ⟨i, hi, rfl⟩ := List.mem_iff_getElem.1 hl
    have hi' : i < s2.length := by rw [f2.length_eq]; exact hi
    have hm := (List.forall₂_iff_get.1 f2).2 i hi' hi
    obtain ⟨r, hr, hrs, hmax⟩ := (m2 _).1 (List.getElem_mem hi')
    refine ⟨r.col, ⟨r, hr, rfl⟩, fun r' hr' hc => ?_⟩
    have h1 := hup r hr r' hr' (by simpa using hmax r' hr' hc)
    have h2 := hm.beyond r hr hrs
    simp only [Bool.false_eq_true, if_false, List.get_eq_getElem] at h2
    linarith

/-- three columns; module 12 holds the two columns on the left, modules 3 (top) and 7 (bottom) the third -/
def edgeExample : List EdgeRow :=
  [⟨12, 0, 0, 0, 0⟩, ⟨12, 1, 0, 0, 1⟩, ⟨12, 0, 1, 1, 0⟩, ⟨12, 1, 1, 1, 1⟩, ⟨7, 0, 2, 2, 0⟩, ⟨3, 1, 2, 2, 1⟩]

example : DistinctPositions edgeExample ∧ (∀ r ∈ edgeExample, ∀ r' ∈ edgeExample, r.row ≤ r'.row → r.ypix ≤ r'.ypix) := by
  unfold DistinctPositions; decide +kernel

example : patchEdgeLabels 1 edgeExample =
    ([⟨2, 17 / 10, "TM03".toList⟩, ⟨1 / 2, 17 / 10, "TM12".toList⟩], [⟨2, -7 / 10, "TM07".toList⟩, ⟨1 / 2, -7 / 10, "TM12".toList⟩]) := by
  decide +kernel

/-- C118: texts for the pixels are placed one on each pixel, or refused as a whole. -/
theorem C118_pixel_texts (xs ys : List ℚ) (hxy : xs.length = ys.length) (values : List (List Char)) :
    (values.length = xs.length → ∃ ls, pixelTexts xs ys values = .ok ls ∧ ls.length = xs.length ∧
      ∀ (i : Nat) l, ls[i]? = some l → xs[i]? = some l.x ∧ ys[i]? = some l.y ∧ values[i]? = some l.text) ∧
      (values.length ≠ xs.length → pixelTexts xs ys values = .error .assertionError) := by
  constructor
  · intro hv
    obtain ⟨ls, hls⟩ : ∃ ls, ls = (List.range xs.length).map fun i => (⟨xs.getD i 0, ys.getD i 0, values.getD i []⟩ : Label) := ⟨_, rfl⟩
    refine ⟨ls, ?_, by rw [hls]; simp, fun i l hl => ?_⟩
    · unfold pixelTexts
      rw [if_pos hv, hls]
      refine Lemmas.mapM_ok _ _ _ fun i hi => ?_
      have hi := List.mem_range.1 hi
      have h1 : i < ys.length := by omega
      have h2 : i < values.length := by omega
      simp [List.getElem?_eq_getElem hi, List.getElem?_eq_getElem h1, List.getElem?_eq_getElem h2]
    · rw [hls, List.getElem?_map] at hl
      obtain ⟨j, hj, rfl⟩ := Option.map_eq_some_iff.1 hl
      obtain ⟨hi, hj⟩ := List.getElem?_eq_some_iff.1 hj
      rw [List.getElem_range] at hj
      subst hj
      rw [List.length_range] at hi
      have h1 : i < ys.length := by omega
      have h2 : i < values.length := by omega
      simp [List.getElem?_eq_getElem hi, List.getElem?_eq_getElem h1, List.getElem?_eq_getElem h2]
  · intro hv
    unfold pixelTexts
    rw [if_neg hv]

example : pixelTexts [0, 1] [5, 6] ["a".toList, "b".toList] = .ok [⟨0, 5, "a".toList⟩, ⟨1, 6, "b".toList⟩] ∧
    pixelTexts [0, 1] [5, 6] ["a".toList] = .error .assertionError := ⟨rfl, rfl⟩

/-! ## C119 -/

/-- the metadata holds the number `v` under `key`, as its first entry of that name -/
def HasNum (num : String → ℚ) (md : MapMeta) (key : String) (v : ℚ) : Prop :=
  ∃ pre t post, md.others = pre ++ (key, t) :: post ∧ (∀ e ∈ pre, e.1 ≠ key) ∧ num t = v

theorem metaNum_ok (num : String → ℚ) (md : MapMeta) (key : String) (v : ℚ) (h : HasNum num md key v) :
    metaNum num md key = .ok v := by
  obtain ⟨pre, t, post, ho, hp, rfl⟩ := h
  unfold metaNum
  rw [ho, List.find?_append, List.find?_eq_none.2 (by intro e he; simpa using hp e he)]
  simp

/-- C119: the arrow leads from the lower to the upper point of the metadata; without them a KeyError. -/
theorem C119_up_arrow (num : String → ℚ) (md : MapMeta) (h v : String) (xl yl xu yu : ℚ)
    (hxl : HasNum num md ("fOTUp" ++ h ++ "_l") xl) (hyl : HasNum num md ("fOTUp" ++ v ++ "_l") yl)
    (hxu : HasNum num md ("fOTUp" ++ h ++ "_u") xu) (hyu : HasNum num md ("fOTUp" ++ v ++ "_u") yu) :
    ∃ a, upArrow num md h v = .ok a ∧ a.x = xl ∧ a.y = yl ∧ a.x + a.dx = xu ∧ a.y + a.dy = yu := by
  unfold upArrow
  rw [metaNum_ok num md _ _ hxl, metaNum_ok num md _ _ hyl, metaNum_ok num md _ _ hxu, metaNum_ok num md _ _ hyu]
  exact ⟨_, rfl, rfl, rfl, by simp, by simp⟩

theorem metaNum_missing (num : String → ℚ) (md : MapMeta) (key : String) (h : ∀ e ∈ md.others, e.1 ≠ key) :
    metaNum num md key = .error .keyError := by
  unfold metaNum
  rw [List.find?_eq_none.2 (by intro e he; simpa using h e he)]

theorem metaNum_keyError (num : String → ℚ) (md : MapMeta) (key : String) (e : Err) (h : metaNum num md key = .error e) :
    e = .keyError := by
  unfold metaNum at h
  split at h
  · cases h; rfl
  · cases h

/-- C119: with any of the four entries missing, nothing but a KeyError. -/
theorem C119_up_arrow_missing (num : String → ℚ) (md : MapMeta) (h v key : String)
    (hk : key ∈ ["fOTUp" ++ h ++ "_l", "fOTUp" ++ v ++ "_l", "fOTUp" ++ h ++ "_u", "fOTUp" ++ v ++ "_u"])
    (hm : ∀ e ∈ md.others, e.1 ≠ key) : upArrow num md h v = .error .keyError := by
  have hmiss := metaNum_missing num md key hm
  unfold upArrow
  cases h1 : metaNum num md ("fOTUp" ++ h ++ "_l") with
  | error e => rw [metaNum_keyError _ _ _ _ h1]
  | ok x =>
    cases h2 : metaNum num md ("fOTUp" ++ v ++ "_l") with
    | error e => simp only; rw [metaNum_keyError _ _ _ _ h2]
    | ok y =>
      cases h3 : metaNum num md ("fOTUp" ++ h ++ "_u") with
      | error e => simp only; rw [metaNum_keyError _ _ _ _ h3]
      | ok xu =>
        cases h4 : metaNum num md ("fOTUp" ++ v ++ "_u") with
        | error e => simp only; rw [metaNum_keyError _ _ _ _ h4]
        | ok yu =>
          exfalso
          simp only [List.mem_cons, List.not_mem_nil, or_false] at hk
          rcases hk with rfl | rfl | rfl | rfl
          · rw [h1] at hmiss; cases hmiss
          · rw [h2] at hmiss; cases hmiss
          · rw [h3] at hmiss; cases hmiss
          · rw [h4] at hmiss; cases hmiss

theorem upArrow_others (num : String → ℚ) (md md' : MapMeta) (h v : String) (ho : md'.others = md.others) :
    upArrow num md' h v = upArrow num md h v := by
  unfold upArrow metaNum; rw [ho]

/-- C119 (partial): in metres, the arrow on the images of superpixels and of modules is the arrow on the image of pixels. Missing:
images in units of the grid, refuted by `C119_false`. -/
theorem C119_arrow_coarse_partial (num : String → ℚ) (heap : List MapMeta) (m : Mapping MapRow) (md : MapMeta)
    (hmd : heap[m.metaRef]? = some md) (hne : m.rows ≠ []) :
    (∃ heap' out md', getSuperpixelMapping heap m = .ok (heap', out) ∧ heap'[out.metaRef]? = some md' ∧
      upArrow num md' "X" "Y" = upArrow num md "X" "Y") ∧
    ∃ heap' out md', getTmMapping heap m = .ok (heap', out) ∧ heap'[out.metaRef]? = some md' ∧
      upArrow num md' "X" "Y" = upArrow num md "X" "Y" := by
  obtain ⟨h1, o1, d1, e1, -, -, -, r1, -, t1, -⟩ := C39_superpixel_mapping heap m md hmd hne
  obtain ⟨h2, o2, d2, e2, -, -, -, r2, -, t2, -⟩ := C39_tm_mapping heap m md hmd hne
  exact ⟨⟨h1, o1, d1, e1, r1, upArrow_others _ _ _ _ _ t1⟩, ⟨h2, o2, d2, e2, r2, upArrow_others _ _ _ _ _ t2⟩⟩

/-- position `c` of a grid of cells of `k` pixels is the place of position `p` of the grid of pixels -/
def SamePlace (k c p : ℚ) : Prop := p + 1 / 2 = k * (c + 1 / 2)

/-- C119 is false: on images in units of the grid, the arrow on superpixels is drawn at the numbers of the pixels; with the metadata of
an arrow beside the camera of pixels it starts twice as far out. -/
theorem C119_false : ¬ ∀ (num : String → ℚ) (heap : List MapMeta) (m : Mapping MapRow) (md md' : MapMeta) heap' out a a',
    heap[m.metaRef]? = some md → m.rows ≠ [] → getSuperpixelMapping heap m = .ok (heap', out) → heap'[out.metaRef]? = some md' →
    upArrow num md "Col" "Row" = .ok a → upArrow num md' "Col" "Row" = .ok a' →
    SamePlace 2 a'.x a.x ∧ SamePlace 2 a'.y a.y := by
  intro h
  obtain ⟨md, hmd⟩ : ∃ md : MapMeta, md = ⟨some 2, some 2, 1, [("fOTUpCol_l", "44"), ("fOTUpRow_l", "42"), ("fOTUpCol_u", "44"), ("fOTUpRow_u", "46")]⟩ :=
    ⟨_, rfl⟩
  obtain ⟨num, hnum⟩ : ∃ num : String → ℚ, num = fun t => if t = "44" then 44 else if t = "42" then 42 else 46 := ⟨_, rfl⟩
  obtain ⟨m, hm⟩ : ∃ m : Mapping MapRow, m = ⟨[⟨0, 0, 0, 0, 0, 0, 0⟩], 0⟩ := ⟨_, rfl⟩
  have h0 : [md][m.metaRef]? = some md := by rw [hm]; rfl
  have h1 : m.rows ≠ [] := by rw [hm]; simp
  obtain ⟨heap', out, md', e1, -, -, -, r1, -, t1, -⟩ := C39_superpixel_mapping [md] m md h0 h1
  have ha : upArrow num md "Col" "Row" = .ok ⟨44, 42, 0, 4⟩ := by rw [hnum, hmd]; decide +kernel
  have := (h num [md] m md md' heap' out _ _ h0 h1 e1 r1 ha ((upArrow_others num md md' _ _ t1).trans ha)).1
  unfold SamePlace at this
  norm_num at this

/-- C119: the four flashers lie in the four corners of a rectangle around the centre, numbered left to right from the side of the
arrow. -/
theorem C119_led_flashers (num : String → ℚ) (md : MapMeta) (x y : ℚ) (hx : HasNum num md "fOTUpX_l" x)
    (hy : HasNum num md "fOTUpY_l" y) :
    ∃ ls, ledFlashers num md = .ok ls ∧ ls.map (·.text) = [['0'], ['1'], ['2'], ['3']] ∧
      ls.map (·.x) = [x, -x, x, -x] ∧ ls.map (·.y) = [y + 2 * md.size, y + 2 * md.size, -(y + 2 * md.size), -(y + 2 * md.size)] := by
  unfold ledFlashers
  rw [metaNum_ok num md _ _ hx, metaNum_ok num md _ _ hy]
  exact ⟨_, rfl, rfl, rfl, rfl⟩

/-- C119: without the position of the arrow, a KeyError. -/
theorem C119_led_missing (num : String → ℚ) (md : MapMeta)
    (hm : (∀ e ∈ md.others, e.1 ≠ "fOTUpX_l") ∨ ∀ e ∈ md.others, e.1 ≠ "fOTUpY_l") :
    ledFlashers num md = .error .keyError := by
  unfold ledFlashers
  cases h1 : metaNum num md "fOTUpX_l" with
  | error e => rw [metaNum_keyError _ _ _ _ h1]
  | ok x =>
    cases h2 : metaNum num md "fOTUpY_l" with
    | error e => simp only; rw [metaNum_keyError _ _ _ _ h2]
    | ok y =>
      exfalso
      rcases hm with hm | hm
      · rw [metaNum_missing num md _ hm] at h1; cases h1
      · rw [metaNum_missing num md _ hm] at h2; cases h2

/-- C119 is false for the flashers: on the image of superpixels all of them lie two pixels, on that of modules fourteen pixels, further
out along y, although the axes are in metres. -/
theorem C119_led_moves (num : String → ℚ) (heap : List MapMeta) (m : Mapping MapRow) (md : MapMeta)
    (hmd : heap[m.metaRef]? = some md) (hne : m.rows ≠ []) (x y : ℚ) (hx : HasNum num md "fOTUpX_l" x)
    (hy : HasNum num md "fOTUpY_l" y) :
    (∃ heap' out md' ls, getSuperpixelMapping heap m = .ok (heap', out) ∧ heap'[out.metaRef]? = some md' ∧
      ledFlashers num md' = .ok ls ∧ ls.map (·.x) = [x, -x, x, -x] ∧ ls.map (·.y) =
        [y + 2 * md.size + 2 * md.size, y + 2 * md.size + 2 * md.size, -(y + 2 * md.size + 2 * md.size), -(y + 2 * md.size + 2 * md.size)]) ∧
    ∃ heap' out md' ls, getTmMapping heap m = .ok (heap', out) ∧ heap'[out.metaRef]? = some md' ∧
      ledFlashers num md' = .ok ls ∧ ls.map (·.x) = [x, -x, x, -x] ∧ ls.map (·.y) =
        [y + 2 * md.size + 14 * md.size, y + 2 * md.size + 14 * md.size, -(y + 2 * md.size + 14 * md.size), -(y + 2 * md.size + 14 * md.size)] := by
  obtain ⟨h1, o1, d1, e1, -, -, -, r1, s1, t1, -⟩ := C39_superpixel_mapping heap m md hmd hne
  obtain ⟨h2, o2, d2, e2, -, -, -, r2, s2, t2, -⟩ := C39_tm_mapping heap m md hmd hne
  have hcopy : ∀ d : MapMeta, d.others = md.others → ∀ k v, HasNum num md k v → HasNum num d k v := by
    intro d hd k v h; unfold HasNum at h ⊢; rw [hd]; exact h
  obtain ⟨l1, a1, -, b1, c1⟩ := C119_led_flashers num d1 x y (hcopy d1 t1 _ _ hx) (hcopy d1 t1 _ _ hy)
  obtain ⟨l2, a2, -, b2, c2⟩ := C119_led_flashers num d2 x y (hcopy d2 t2 _ _ hx) (hcopy d2 t2 _ _ hy)
  refine ⟨⟨h1, o1, d1, l1, e1, r1, a1, b1, ?_⟩, ⟨h2, o2, d2, l2, e2, r2, a2, b2, ?_⟩⟩
  · rw [c1, s1, show y + 2 * (2 * md.size) = y + 2 * md.size + 2 * md.size by ring]
  · rw [c2, s2, show y + 2 * (8 * md.size) = y + 2 * md.size + 14 * md.size by ring]

/-- metadata with an arrow beside a camera of 0.3 m, and a reading of its numbers -/
def arrowMeta : MapMeta :=
  ⟨some 48, some 48, 6 / 1000, [("cam", "x"), ("fOTUpX_l", "a"), ("fOTUpY_l", "b"), ("fOTUpX_u", "a"), ("fOTUpY_u", "c")]⟩

def arrowNum (t : String) : ℚ := if t = "a" then 14 / 100 else if t = "b" then 11 / 100 else 13 / 100

example : HasNum arrowNum arrowMeta "fOTUpX_l" (14 / 100) ∧ HasNum arrowNum arrowMeta "fOTUpY_l" (11 / 100) ∧
    HasNum arrowNum arrowMeta "fOTUpX_u" (14 / 100) ∧ HasNum arrowNum arrowMeta "fOTUpY_u" (13 / 100) := by
  refine ⟨⟨[("cam", "x")], "a", _, rfl, by decide, by decide +kernel⟩,
    ⟨[("cam", "x"), ("fOTUpX_l", "a")], "b", _, rfl, by decide, by decide +kernel⟩,
    ⟨[("cam", "x"), ("fOTUpX_l", "a"), ("fOTUpY_l", "b")], "a", _, rfl, by decide, by decide +kernel⟩,
    ⟨[("cam", "x"), ("fOTUpX_l", "a"), ("fOTUpY_l", "b"), ("fOTUpX_u", "a")], "c", _, rfl, by decide, by decide +kernel⟩⟩

example : upArrow arrowNum arrowMeta "X" "Y" = .ok ⟨14 / 100, 11 / 100, 0, 2 / 100⟩ ∧
    upArrow arrowNum arrowMeta "Col" "Row" = .error .keyError := by decide +kernel

end Verif.Props
