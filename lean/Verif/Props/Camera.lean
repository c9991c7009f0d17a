import Verif.Model.Camera
import Mathlib.Data.List.Nodup
import Mathlib.Tactic.Ring

/-!
# Camera geometry (C08, C39, C66)
-/

namespace Verif.Props

open Verif.Py Verif.Model

/-! ## C08 -/

/-- pixel order in terms of positions -/
theorem pixelOrder_spec (nRows nCols : Nat) (sim cam : List (Nat × Nat)) (hsim : ∀ p ∈ sim, p.1 < nRows ∧ p.2 < nCols)
    (hcam : ∀ p ∈ cam, p.1 < nRows ∧ p.2 < nCols) :
    pixelOrder nRows nCols (sim.map fun p => (p.1 : Int)) (sim.map fun p => (p.2 : Int)) (cam.map fun p => (p.1 : Int))
      (cam.map fun p => (p.2 : Int)) =
      .ok (cam.map fun p => writeAll (fun _ _ => (0 : Int)) (sim.zip ((List.range sim.length).map fun (i : Nat) => (i : Int))) p.1 p.2) := by
  have hz : ∀ l : List (Nat × Nat), (l.map fun p => (p.1 : Int)).zip (l.map fun p => (p.2 : Int))
      = l.map fun p => ((p.1 : Int), (p.2 : Int)) := by
    intro l
    induction l with
    | nil => rfl
    | cons a l ih => simp [ih]
  unfold pixelOrder fancySet
  rw [hz, gridPositions_nat nRows nCols sim hsim]
  simp only
  unfold fancyGet
  rw [hz, gridPositions_nat nRows nCols cam hcam]
  simp

/-- **C08**: with distinct positions of the simulated pixels and a mapping that uses only occupied positions, loading
succeeds and row `i` of the waveform (and of the true charges) is the simulated pixel `k` at the position of mapping pixel
`i`. -/
theorem C08_pixel_order {α β : Type} (nRows nCols : Nat) (sim cam : List (Nat × Nat)) (hsim : ∀ p ∈ sim, p.1 < nRows ∧ p.2 < nCols)
    (hnd : sim.Nodup) (hocc : ∀ p ∈ cam, p ∈ sim) (waveform : List α) (image : List β) (hw : waveform.length = sim.length)
    (hi : image.length = sim.length) :
    ∃ (order : List Int) (samples : List α) (mcTrue : List β),
      pixelOrder nRows nCols (sim.map fun p => (p.1 : Int)) (sim.map fun p => (p.2 : Int)) (cam.map fun p => (p.1 : Int))
        (cam.map fun p => (p.2 : Int)) = .ok order ∧
      buildWaveform order waveform image = .ok (samples, mcTrue) ∧ samples.length = cam.length ∧ mcTrue.length = cam.length ∧
      ∀ (i k : Nat) (p : Nat × Nat), cam[i]? = some p → sim[k]? = some p →
        samples[i]? = waveform[k]? ∧ mcTrue[i]? = image[k]? := by
  have hord := pixelOrder_spec nRows nCols sim cam hsim (fun p hp => hsim p (hocc p hp))
  have hval : ∀ (k : Nat) (p : Nat × Nat), sim[k]? = some p →
      writeAll (fun _ _ => (0 : Int)) (sim.zip ((List.range sim.length).map fun (i : Nat) => (i : Int))) p.1 p.2 = (k : Int) := by
    intro k p hk
    apply writeAll_mem
    · rw [List.map_fst_zip (by simp)]; exact hnd
    · apply List.mem_of_getElem? (i := k)
      have hlt := (List.getElem?_eq_some_iff.1 hk).1
      rw [List.getElem?_zip_eq_some]
      exact ⟨hk, by simp [hlt]⟩
  obtain ⟨ks, hks⟩ : ∃ ks : List Nat, (cam.map fun p => writeAll (fun _ _ => (0 : Int)) (sim.zip ((List.range sim.length).map fun (i : Nat) => (i : Int))) p.1 p.2)
      = ks.map (fun (k : Nat) => (k : Int)) ∧ ks = cam.map fun p => sim.idxOf p := by
    refine ⟨_, ?_, rfl⟩
    rw [List.map_map]
    apply List.map_congr_left
    intro p hp
    have := hocc p hp
    rw [hval (sim.idxOf p) p]
    · rfl
    · rw [List.getElem?_eq_getElem (List.idxOf_lt_length_of_mem this)]; simp
  have hlt : ∀ k ∈ ks, k < sim.length := by
    intro k hk
    rw [hks.2, List.mem_map] at hk
    obtain ⟨p, hp, rfl⟩ := hk
    exact List.idxOf_lt_length_of_mem (hocc p hp)
  have hlen : ks.length = cam.length := by rw [hks.2]; simp
  obtain ⟨s, s1, s2, s3⟩ := takeAll_ok waveform ks (fun k hk => by rw [hw]; exact hlt k hk)
  obtain ⟨m, m1, m2, m3⟩ := takeAll_ok image ks (fun k hk => by rw [hi]; exact hlt k hk)
  refine ⟨_, s, m, hord, ?_, by omega, by omega, ?_⟩
  · unfold buildWaveform
    rw [hks.1, s1, m1]
  · intro i k p hip hkp
    have hik : ks[i]? = some k := by
      rw [hks.2, List.getElem?_map, hip]
      simp only [Option.map_some, Option.some.injEq]
      obtain ⟨hh, he⟩ := List.getElem?_eq_some_iff.1 hkp
      rw [← he]
      exact hnd.idxOf_getElem k hh
    exact ⟨s3 i k hik, m3 i k hik⟩

/-- the re-ordering is a permutation when the mapping positions are distinct and as many as the simulated pixels -/
theorem C08_permutation (nRows nCols : Nat) (sim cam : List (Nat × Nat)) (hsim : ∀ p ∈ sim, p.1 < nRows ∧ p.2 < nCols)
    (hnd : sim.Nodup) (hocc : ∀ p ∈ cam, p ∈ sim) (hcam : cam.Nodup) (hlen : cam.length = sim.length)
    (waveform : List Nat) (image : List Nat) (hw : waveform.length = sim.length) (hi : image.length = sim.length)
    (order : List Int) (samples mcTrue : List Nat)
    (h1 : pixelOrder nRows nCols (sim.map fun p => (p.1 : Int)) (sim.map fun p => (p.2 : Int)) (cam.map fun p => (p.1 : Int))
        (cam.map fun p => (p.2 : Int)) = .ok order) (h2 : buildWaveform order waveform image = .ok (samples, mcTrue)) :
    order.Perm ((List.range sim.length).map fun (k : Nat) => (k : Int)) ∧ samples.Perm waveform ∧ mcTrue.Perm image := by
  have key : ∀ (w : List Nat), w.length = sim.length → ∀ (im : List Nat), im.length = sim.length → ∀ s m : List Nat,
      buildWaveform order w im = .ok (s, m) → s.Perm w ∧ m.Perm im := by
    intro w hw im him s m hb
    have hperm : cam.Perm sim := List.Subperm.perm_of_length_le (List.subperm_of_subset hcam hocc) (by omega)
    obtain ⟨o, s', m', e1, e2, e3, e4, e5⟩ := C08_pixel_order nRows nCols sim cam hsim hnd hocc w im hw him
    rw [h1] at e1
    cases e1
    rw [hb] at e2
    cases e2
    have hs : ∀ (x y : List Nat), x.length = cam.length → y.length = sim.length →
        (∀ (i k : Nat) (p : Nat × Nat), cam[i]? = some p → sim[k]? = some p → x[i]? = y[k]?) → x.Perm y := by
      intro x y hx hy hxy
      have hxe : x = cam.map fun p => y.getD (sim.idxOf p) 0 := by
        apply List.ext_getElem?
        intro i
        rw [List.getElem?_map]
        by_cases hic : i < cam.length
        · have hp := List.getElem?_eq_getElem hic
          have hmem := hocc _ (List.getElem_mem hic)
          have hidx := List.idxOf_lt_length_of_mem hmem
          have := hxy i (sim.idxOf cam[i]) _ hp (by rw [List.getElem?_eq_getElem hidx]; simp)
          rw [this, hp]
          simp only [Option.map_some, List.getD_eq_getElem?_getD]
          rw [List.getElem?_eq_getElem (by omega)]
          rfl
        · rw [List.getElem?_eq_none (by omega), List.getElem?_eq_none (by omega)]; rfl
      have hye : y = sim.map fun p => y.getD (sim.idxOf p) 0 := by
        apply List.ext_getElem (by simp [hy])
        intro k hk1 hk2
        have hks : k < sim.length := by omega
        rw [List.getElem_map, hnd.idxOf_getElem k hks, List.getD_eq_getElem?_getD, List.getElem?_eq_getElem hk1]
        rfl
      rw [hxe]
      conv_rhs => rw [hye]
      exact hperm.map _
    exact ⟨hs s w (by omega) hw fun i k p a b => (e5 i k p a b).1, hs m im (by omega) him fun i k p a b => (e5 i k p a b).2⟩
  refine ⟨?_, key waveform hw image hi samples mcTrue h2⟩
  -- apply the statement for samples to the identity
  obtain ⟨o, s', m', e1, e2, e3, e4, e5⟩ := C08_pixel_order nRows nCols sim cam hsim hnd hocc (List.range sim.length)
    (List.range sim.length) (by simp) (by simp)
  rw [h1] at e1
  cases e1
  have hp := (key _ (by simp) _ (by simp) _ _ e2).1
  have ho : order = s'.map fun (k : Nat) => (k : Int) := by
    have hord := pixelOrder_spec nRows nCols sim cam hsim (fun p hp => hsim p (hocc p hp))
    rw [h1] at hord
    cases hord
    apply List.ext_getElem?
    intro i
    rw [List.getElem?_map, List.getElem?_map]
    by_cases hic : i < cam.length
    · have hp := List.getElem?_eq_getElem hic
      have hmem := hocc _ (List.getElem_mem hic)
      have hidx := List.idxOf_lt_length_of_mem hmem
      have hsk : sim[sim.idxOf cam[i]]? = some cam[i] := by rw [List.getElem?_eq_getElem hidx]; simp
      rw [(e5 i _ _ hp hsk).1, hp, List.getElem?_range hidx]
      simp only [Option.map_some, Option.some.injEq]
      apply writeAll_mem
      · rw [List.map_fst_zip (by simp)]; exact hnd
      · apply List.mem_of_getElem? (i := sim.idxOf cam[i])
        rw [List.getElem?_zip_eq_some]
        exact ⟨hsk, by simp [hidx]⟩
    · rw [List.getElem?_eq_none (by omega), List.getElem?_eq_none (by omega)]; rfl
  rw [ho]
  exact hp.map _

/-- three simulated pixels in an L, the mapping in another order -/
example : pixelOrder 2 2 [0, 1, 1] [0, 0, 1] [1, 0, 1] [1, 0, 0] = .ok [2, 0, 1] := by decide +kernel

/-- a mapping pixel at an unoccupied position silently receives simulated pixel 0 -/
theorem C08_unoccupied (nRows nCols : Nat) (sim cam : List (Nat × Nat)) (hsim : ∀ p ∈ sim, p.1 < nRows ∧ p.2 < nCols)
    (hcam : ∀ p ∈ cam, p.1 < nRows ∧ p.2 < nCols) (i : Nat) (p : Nat × Nat) (hi : cam[i]? = some p) (hp : p ∉ sim) :
    ∃ order, pixelOrder nRows nCols (sim.map fun p => (p.1 : Int)) (sim.map fun p => (p.2 : Int)) (cam.map fun p => (p.1 : Int))
      (cam.map fun p => (p.2 : Int)) = .ok order ∧ order[i]? = some 0 := by
  refine ⟨_, pixelOrder_spec nRows nCols sim cam hsim hcam, ?_⟩
  rw [List.getElem?_map, hi]
  simp only [Option.map_some, Option.some.injEq]
  apply writeAll_not_mem
  intro w hw he
  exact hp (by rw [← show w.1 = p from he]; exact (List.of_mem_zip hw).1)

example : pixelOrder 2 2 [0, 1] [0, 0] [1, 0, 0] [0, 0, 1] = .ok [1, 0, 0] := by decide +kernel

/-! ## C39 -/

/-- **C39**: a mapping that has lost its metadata raises `AttributeError`. -/
theorem C39_no_metadata (heap : List MapMeta) (m : Mapping MapRow) (h : heap[m.metaRef]? = none) :
    getSuperpixelMapping heap m = .error .attributeError ∧ getTmMapping heap m = .error .attributeError := by
  unfold getSuperpixelMapping getTmMapping
  rw [h]
  exact ⟨rfl, rfl⟩

/-- **C39**, superpixels: one row per superpixel in ascending order; slot, asic, row, column from its first pixel; the mean
position; metadata in a new dictionary, the old ones untouched. -/
theorem C39_superpixel_mapping (heap : List MapMeta) (m : Mapping MapRow) (md : MapMeta) (hmd : heap[m.metaRef]? = some md)
    (hne : m.rows ≠ []) :
    ∃ heap' out md', getSuperpixelMapping heap m = .ok (heap', out) ∧
      (out.rows.map (·.superpixel)).Pairwise (· < ·) ∧
      (∀ s, s ∈ out.rows.map (·.superpixel) ↔ ∃ r ∈ m.rows, r.superpixel = s) ∧
      (∀ o ∈ out.rows, ∃ first, m.rows.find? (fun r => r.superpixel = o.superpixel) = some first ∧
        o.slot = first.slot ∧ o.asic = first.asic ∧ o.row = first.row / 2 ∧ o.col = first.col / 2 ∧
        o.xpix = mean ((m.rows.filter fun r => r.superpixel = o.superpixel).map (·.xpix)) ∧
        o.ypix = mean ((m.rows.filter fun r => r.superpixel = o.superpixel).map (·.ypix))) ∧
      heap'[out.metaRef]? = some md' ∧ md'.size = 2 * md.size ∧ md'.others = md.others ∧
      (∃ a b, md'.nRows = some a ∧ md'.nColumns = some b ∧
        (∀ o ∈ out.rows, o.row < a ∧ o.col < b) ∧ (∃ o ∈ out.rows, o.row + 1 = a) ∧ ∃ o ∈ out.rows, o.col + 1 = b) ∧
      ∀ (i : Nat) x, heap[i]? = some x → heap'[i]? = some x := by
  obtain ⟨rows, hrows⟩ : ∃ rows, rows = (unique (m.rows.map (·.superpixel))).filterMap fun s =>
      (m.rows.filter fun r => r.superpixel = s).head?.map fun first => ({
        superpixel := s, slot := first.slot, asic := first.asic, row := first.row / 2, col := first.col / 2,
        xpix := mean ((m.rows.filter fun r => r.superpixel = s).map (·.xpix)),
        ypix := mean ((m.rows.filter fun r => r.superpixel = s).map (·.ypix)) } : SuperpixelRow) := ⟨_, rfl⟩
  have hmem : ∀ o : SuperpixelRow, o ∈ rows ↔ ∃ first, m.rows.find? (fun r => r.superpixel = o.superpixel) = some first ∧
        o.slot = first.slot ∧ o.asic = first.asic ∧ o.row = first.row / 2 ∧ o.col = first.col / 2 ∧
        o.xpix = mean ((m.rows.filter fun r => r.superpixel = o.superpixel).map (·.xpix)) ∧
        o.ypix = mean ((m.rows.filter fun r => r.superpixel = o.superpixel).map (·.ypix)) := by
    intro o
    rw [hrows, List.mem_filterMap]
    constructor
    · rintro ⟨s, -, h⟩
      rw [Option.map_eq_some_iff] at h
      obtain ⟨first, h1, rfl⟩ := h
      rw [List.head?_filter] at h1
      exact ⟨first, h1, rfl, rfl, rfl, rfl, rfl, rfl⟩
    · rintro ⟨first, h1, h2, h3, h4, h5, h6, h7⟩
      refine ⟨o.superpixel, ?_, ?_⟩
      · rw [mem_unique, List.mem_map]
        refine ⟨first, List.mem_of_find?_eq_some h1, ?_⟩
        simpa using List.find?_some h1
      · rw [List.head?_filter, h1, Option.map_some, ← h2, ← h3, ← h4, ← h5, ← h6, ← h7]
  have hkeys : rows.map (·.superpixel) = unique (m.rows.map (·.superpixel)) := by
    rw [hrows, List.map_filterMap]
    conv_rhs => rw [← List.filterMap_some (l := unique (m.rows.map (·.superpixel)))]
    apply List.filterMap_congr
    intro s hs
    rw [mem_unique, List.mem_map] at hs
    obtain ⟨r, hr, rfl⟩ := hs
    cases hf : (m.rows.filter fun r' => r'.superpixel = r.superpixel).head? with
    | none =>
      rw [List.head?_eq_none_iff, List.filter_eq_nil_iff] at hf
      exact absurd (hf r hr) (by simp)
    | some first => rfl
  have hrne : rows ≠ [] := by
    obtain ⟨r, hr⟩ := List.exists_mem_of_ne_nil _ hne
    intro h
    have : r.superpixel ∈ rows.map (·.superpixel) := by
      rw [hkeys, mem_unique]; exact List.mem_map.2 ⟨r, hr, rfl⟩
    rw [h] at this
    simp at this
  obtain ⟨a, ha, ha1, ha2⟩ := maximum?_spec (rows.map (·.row)) (by simpa using hrne)
  obtain ⟨b, hb, hb1, hb2⟩ := maximum?_spec (rows.map (·.col)) (by simpa using hrne)
  refine ⟨_, ⟨rows, heap.length⟩,
    ⟨(maximum? (rows.map (·.row))).map (· + 1), (maximum? (rows.map (·.col))).map (· + 1), md.size * 2, md.others⟩,
    ?_, ?_, ?_, fun o ho => (hmem o).1 ho, List.getElem?_concat_length, mul_comm _ _, rfl,
    ⟨a + 1, b + 1, ?_, ?_, ?_, ?_, ?_⟩, ?_⟩
  · unfold getSuperpixelMapping
    rw [hmd]
    simp only
    rw [← hrows]
  · rw [hkeys]; exact pairwise_unique _
  · intro s
    rw [hkeys, mem_unique, List.mem_map]
  · change (maximum? (rows.map (·.row))).map (· + 1) = _
    rw [ha]; rfl
  · change (maximum? (rows.map (·.col))).map (· + 1) = _
    rw [hb]; rfl
  · intro o ho
    have h1 := ha2 o.row (List.mem_map.2 ⟨o, ho, rfl⟩)
    have h2 := hb2 o.col (List.mem_map.2 ⟨o, ho, rfl⟩)
    omega
  · obtain ⟨o, ho, he⟩ := List.mem_map.1 ha1
    exact ⟨o, ho, by rw [he]⟩
  · obtain ⟨o, ho, he⟩ := List.mem_map.1 hb1
    exact ⟨o, ho, by rw [he]⟩
  · intro i x hx
    rw [List.getElem?_append_left (List.getElem?_eq_some_iff.1 hx).1]
    exact hx

/-- **C39**, modules -/
theorem C39_tm_mapping (heap : List MapMeta) (m : Mapping MapRow) (md : MapMeta) (hmd : heap[m.metaRef]? = some md)
    (hne : m.rows ≠ []) :
    ∃ heap' out md', getTmMapping heap m = .ok (heap', out) ∧
      (out.rows.map (·.slot)).Pairwise (· < ·) ∧
      (∀ s, s ∈ out.rows.map (·.slot) ↔ ∃ r ∈ m.rows, r.slot = s) ∧
      (∀ o ∈ out.rows, ∃ first, m.rows.find? (fun r => r.slot = o.slot) = some first ∧
        o.row = first.row / 8 ∧ o.col = first.col / 8 ∧
        o.xpix = mean ((m.rows.filter fun r => r.slot = o.slot).map (·.xpix)) ∧
        o.ypix = mean ((m.rows.filter fun r => r.slot = o.slot).map (·.ypix))) ∧
      heap'[out.metaRef]? = some md' ∧ md'.size = 8 * md.size ∧ md'.others = md.others ∧
      (∃ a b, md'.nRows = some a ∧ md'.nColumns = some b ∧
        (∀ o ∈ out.rows, o.row < a ∧ o.col < b) ∧ (∃ o ∈ out.rows, o.row + 1 = a) ∧ ∃ o ∈ out.rows, o.col + 1 = b) ∧
      ∀ (i : Nat) x, heap[i]? = some x → heap'[i]? = some x := by
  obtain ⟨rows, hrows⟩ : ∃ rows, rows = (unique (m.rows.map (·.slot))).filterMap fun s =>
      (m.rows.filter fun r => r.slot = s).head?.map fun first => ({
        slot := s, row := first.row / 8, col := first.col / 8,
        xpix := mean ((m.rows.filter fun r => r.slot = s).map (·.xpix)),
        ypix := mean ((m.rows.filter fun r => r.slot = s).map (·.ypix)) } : TmRow) := ⟨_, rfl⟩
  have hmem : ∀ o : TmRow, o ∈ rows → ∃ first, m.rows.find? (fun r => r.slot = o.slot) = some first ∧
        o.row = first.row / 8 ∧ o.col = first.col / 8 ∧
        o.xpix = mean ((m.rows.filter fun r => r.slot = o.slot).map (·.xpix)) ∧
        o.ypix = mean ((m.rows.filter fun r => r.slot = o.slot).map (·.ypix)) := by
    intro o
    rw [hrows, List.mem_filterMap]
    rintro ⟨s, -, h⟩
    rw [Option.map_eq_some_iff] at h
    obtain ⟨first, h1, rfl⟩ := h
    rw [List.head?_filter] at h1
    exact ⟨first, h1, rfl, rfl, rfl, rfl⟩
  have hkeys : rows.map (·.slot) = unique (m.rows.map (·.slot)) := by
    rw [hrows, List.map_filterMap]
    conv_rhs => rw [← List.filterMap_some (l := unique (m.rows.map (·.slot)))]
    apply List.filterMap_congr
    intro s hs
    rw [mem_unique, List.mem_map] at hs
    obtain ⟨r, hr, rfl⟩ := hs
    cases hf : (m.rows.filter fun r' => r'.slot = r.slot).head? with
    | none =>
      rw [List.head?_eq_none_iff, List.filter_eq_nil_iff] at hf
      exact absurd (hf r hr) (by simp)
    | some first => rfl
  have hrne : rows ≠ [] := by
    obtain ⟨r, hr⟩ := List.exists_mem_of_ne_nil _ hne
    intro h
    have : r.slot ∈ rows.map (·.slot) := by
      rw [hkeys, mem_unique]; exact List.mem_map.2 ⟨r, hr, rfl⟩
    rw [h] at this
    simp at this
  obtain ⟨a, ha, ha1, ha2⟩ := maximum?_spec (rows.map (·.row)) (by simpa using hrne)
  obtain ⟨b, hb, hb1, hb2⟩ := maximum?_spec (rows.map (·.col)) (by simpa using hrne)
  refine ⟨_, ⟨rows, heap.length⟩,
    ⟨(maximum? (rows.map (·.row))).map (· + 1), (maximum? (rows.map (·.col))).map (· + 1), md.size * 8, md.others⟩,
    ?_, ?_, ?_, hmem, List.getElem?_concat_length, mul_comm _ _, rfl,
    ⟨a + 1, b + 1, ?_, ?_, ?_, ?_, ?_⟩, ?_⟩
  · unfold getTmMapping
    rw [hmd]
    simp only
    rw [← hrows]
  · rw [hkeys]; exact pairwise_unique _
  · intro s
    rw [hkeys, mem_unique, List.mem_map]
  · change (maximum? (rows.map (·.row))).map (· + 1) = _
    rw [ha]; rfl
  · change (maximum? (rows.map (·.col))).map (· + 1) = _
    rw [hb]; rfl
  · intro o ho
    have h1 := ha2 o.row (List.mem_map.2 ⟨o, ho, rfl⟩)
    have h2 := hb2 o.col (List.mem_map.2 ⟨o, ho, rfl⟩)
    omega
  · obtain ⟨o, ho, he⟩ := List.mem_map.1 ha1
    exact ⟨o, ho, by rw [he]⟩
  · obtain ⟨o, ho, he⟩ := List.mem_map.1 hb1
    exact ⟨o, ho, by rw [he]⟩
  · intro i x hx
    rw [List.getElem?_append_left (List.getElem?_eq_some_iff.1 hx).1]
    exact hx

/-- a mapping of two superpixels listed out of order -/
example : ∃ heap' out, getSuperpixelMapping [⟨some 2, some 4, 1, []⟩]
      ⟨[⟨1, 0, 0, 0, 2, 2, 0⟩, ⟨0, 0, 0, 0, 0, 0, 0⟩, ⟨0, 0, 0, 1, 1, 1, 1⟩, ⟨1, 0, 0, 1, 3, 3, 1⟩], 0⟩ = .ok (heap', out) ∧
    out.rows = [⟨0, 0, 0, 0, 0, 1/2, 1/2⟩, ⟨1, 0, 0, 0, 1, 5/2, 1/2⟩] := by
  refine ⟨_, _, rfl, ?_⟩
  decide +kernel

/-! ## C66 -/

/-- the cells hidden on the full camera (48 x 48 pixels), the superpixel (24 x 24) and the module (6 x 6) grid: the four
corner modules -/
def isCorner (nRows nCols r c : Nat) : Prop :=
  nRows = nCols ∧ (nRows = 48 ∨ nRows = 24 ∨ nRows = 6) ∧
    (r < nRows / 6 ∨ nRows - nRows / 6 ≤ r ∧ r < nRows) ∧ (c < nCols / 6 ∨ nCols - nCols / 6 ≤ c ∧ c < nCols)

theorem maskCorners_spec {α : Type} (nRows nCols : Nat) (g : Nat → Nat → Option α) (r c : Nat) :
    (isCorner nRows nCols r c → maskCorners nRows nCols g r c = none) ∧
    (¬ isCorner nRows nCols r c → maskCorners nRows nCols g r c = g r c) := by
  unfold maskCorners isCorner
  by_cases h48 : nRows = 48 ∧ nCols = 48
  · obtain ⟨rfl, rfl⟩ := h48
    rw [if_pos ⟨rfl, rfl⟩]
    unfold maskBlock
    constructor <;> intro h <;> grind
  · rw [if_neg h48]
    by_cases h24 : nRows = 24 ∧ nCols = 24
    · obtain ⟨rfl, rfl⟩ := h24
      rw [if_pos ⟨rfl, rfl⟩]
      unfold maskBlock
      constructor <;> intro h <;> grind
    · rw [if_neg h24]
      by_cases h6 : nRows = 6 ∧ nCols = 6
      · obtain ⟨rfl, rfl⟩ := h6
        rw [if_pos ⟨rfl, rfl⟩]
        unfold maskBlock
        constructor <;> intro h <;> grind
      · rw [if_neg h6]
        constructor
        · intro h; omega
        · intro _; rfl

/-- **C66**, grid image: after setting an image of the right size, the cell of pixel `i` shows value `i`; the other cells are
hidden in the camera corners and zero elsewhere. -/
theorem C66_grid (nRows nCols : Nat) (pos : List (Nat × Nat)) (hpos : ∀ p ∈ pos, p.1 < nRows ∧ p.2 < nCols) (hnd : pos.Nodup)
    (val : List ℚ) (hlen : val.length = pos.length) :
    ∃ s s', Imshow.init (pos.map fun p => (p.1 : Int)) (pos.map fun p => (p.2 : Int)) nRows nCols = .ok s ∧
      s.setImage val = (s', none) ∧ s'.image = some val ∧
      (∀ (i : Nat) (p : Nat × Nat) (v : ℚ), pos[i]? = some p → val[i]? = some v → s'.data p.1 p.2 = some v) ∧
      ∀ r c, (r, c) ∉ pos → (isCorner nRows nCols r c → s'.data r c = none) ∧
        (¬ isCorner nRows nCols r c → s'.data r c = some 0) := by
  have hz : ∀ l : List (Nat × Nat), (l.map fun p => (p.1 : Int)).zip (l.map fun p => (p.2 : Int))
      = l.map fun p => ((p.1 : Int), (p.2 : Int)) := by
    intro l
    induction l with
    | nil => rfl
    | cons a l ih => simp [ih]
  have hset : fancySet nRows nCols (maskCorners nRows nCols fun _ _ => some (0 : ℚ)) (pos.map fun p => (p.1 : Int))
      (pos.map fun p => (p.2 : Int)) (val.map some)
      = .ok (writeAll (maskCorners nRows nCols fun _ _ => some (0 : ℚ)) (pos.zip (val.map some))) := by
    unfold fancySet
    rw [hz, gridPositions_nat nRows nCols pos hpos]
  refine ⟨_, ⟨pos.map fun p => (p.1 : Int), pos.map fun p => (p.2 : Int), nRows, nCols, some val,
    writeAll (maskCorners nRows nCols fun _ _ => some (0 : ℚ)) (pos.zip (val.map some))⟩,
    by unfold Imshow.init; rw [if_neg (by simp)], ?_, ?_, ?_, ?_⟩
  · unfold Imshow.setImage
    rw [if_neg (by simp [hlen])]
    simp only
    rw [hset]
  · rfl
  · intro i p v hp hv
    apply writeAll_mem
    · rw [List.map_fst_zip (by simp [hlen])]; exact hnd
    · apply List.mem_of_getElem? (i := i)
      rw [List.getElem?_zip_eq_some]
      exact ⟨hp, by rw [List.getElem?_map, hv]; rfl⟩
  · intro r c hrc
    have : ∀ g : Nat → Nat → Option ℚ, writeAll g (pos.zip (val.map some)) r c = g r c := by
      intro g
      apply writeAll_not_mem
      intro w hw he
      exact hrc (by rw [← he]; exact (List.of_mem_zip hw).1)
    simp only [this]
    exact maskCorners_spec nRows nCols _ r c

/-- **C66**, before an image is set there is none; the cells are hidden in the camera corners and zero elsewhere. Different numbers of rows and columns are
rejected. -/
theorem C66_initial (row col : List Int) (nRows nCols : Nat) :
    (row.length = col.length → ∃ s, Imshow.init row col nRows nCols = .ok s ∧ s.image = none ∧
      ∀ r c, (isCorner nRows nCols r c → s.data r c = none) ∧ (¬ isCorner nRows nCols r c → s.data r c = some 0)) ∧
    (row.length ≠ col.length → Imshow.init row col nRows nCols = .error .assertionError) := by
  unfold Imshow.init
  constructor
  · intro h
    rw [if_neg (by simpa using h)]
    exact ⟨_, rfl, rfl, fun r c => maskCorners_spec nRows nCols _ r c⟩
  · intro h
    rw [if_pos h]

example : ∃ s, Imshow.init [0, 2] [1, 3] 6 6 = .ok s ∧ s.data 0 0 = none ∧ s.data 2 3 = some 0 := by
  refine ⟨_, rfl, ?_, ?_⟩ <;> decide +kernel

/-- **C66**, an image of the wrong size is rejected and changes nothing -/
theorem C66_wrong_size (s : Imshow) (val : List ℚ) (h : val.length ≠ s.row.length) :
    s.setImage val = (s, some .assertionError) := by
  unfold Imshow.setImage; rw [if_pos h]

/-- **C66**, a picture set shows nothing of what was shown before: two images with the same positions, whatever was set on them, show the same after the
same values were set, also in the cells of no pixel -/
theorem C66_again (s t s' : Imshow) (hr : t.row = s.row) (hc : t.col = s.col) (ha : t.nRows = s.nRows) (hb : t.nCols = s.nCols) (val : List ℚ)
    (h : s.setImage val = (s', none)) : ∃ t', t.setImage val = (t', none) ∧ t'.data = s'.data ∧ t'.image = s'.image := by
  unfold Imshow.setImage at h ⊢
  rw [hr]
  split at h
  · cases h
  · rename_i hl
    rw [if_neg hl]
    simp only [hr, hc, ha, hb] at h ⊢
    split at h
    · cases h
    · cases h
      exact ⟨_, rfl, rfl, rfl⟩

example : ∃ s s' s'' t, Imshow.init [0] [1] 2 2 = .ok s ∧ s.setImage [5] = (s', none) ∧ s'.setImage [7] = (s'', none) ∧ s.setImage [7] = (t, none) ∧
    s''.data = t.data := ⟨_, _, _, _, rfl, rfl, rfl, rfl, rfl⟩

/-- **C66**, a pixel outside the grid: `IndexError`, the picture shown stays as it was -/
theorem C66_outside (s : Imshow) (val : List ℚ) (hl : val.length = s.row.length) (i : Nat) (r c : Int) (hr : s.row[i]? = some r) (hc : s.col[i]? = some c)
    (h : r < -(s.nRows : Int) ∨ (s.nRows : Int) ≤ r ∨ c < -(s.nCols : Int) ∨ (s.nCols : Int) ≤ c) :
    ∃ s', s.setImage val = (s', some .indexError) ∧ s'.data = s.data := by
  unfold Imshow.setImage fancySet
  rw [if_neg (by simpa using hl)]
  simp only
  rw [gridPositions_outside s.nRows s.nCols _ ⟨(r, c), List.mem_of_getElem? (i := i) (List.getElem?_zip_eq_some.2 ⟨hr, hc⟩), h⟩]
  exact ⟨_, rfl, rfl⟩

/-- **C66**, negative positions are counted from the other side of the camera -/
theorem C66_negative (s : Imshow) (val : List ℚ) (ps : List ((Int × Int) × (Nat × Nat))) (hr : s.row = ps.map (·.1.1)) (hc : s.col = ps.map (·.1.2))
    (h : ∀ p ∈ ps, Wraps s.nRows p.1.1 p.2.1 ∧ Wraps s.nCols p.1.2 p.2.2) (hl : val.length = ps.length) :
    ∃ s' t', s.setImage val = (s', none) ∧
      ({ s with row := ps.map fun p => (p.2.1 : Int), col := ps.map fun p => (p.2.2 : Int) } : Imshow).setImage val = (t', none) ∧ s'.data = t'.data := by
  have hz : ∀ (f g : (Int × Int) × (Nat × Nat) → Int) (l : List ((Int × Int) × (Nat × Nat))), (l.map f).zip (l.map g) = l.map fun p => (f p, g p) := by
    intro f g l
    induction l with
    | nil => rfl
    | cons a l ih => simp [ih]
  have e1 : gridPositions s.nRows s.nCols (s.row.zip s.col) = .ok (ps.map (·.2)) := by
    rw [hr, hc, hz]; exact gridPositions_wraps _ _ _ h
  have e2 : gridPositions s.nRows s.nCols ((ps.map fun p => (p.2.1 : Int)).zip (ps.map fun p => (p.2.2 : Int))) = .ok (ps.map (·.2)) := by
    rw [hz]
    have := gridPositions_nat s.nRows s.nCols (ps.map (·.2)) (by
      intro p hp
      obtain ⟨q, hq, rfl⟩ := List.mem_map.1 hp
      exact ⟨(h q hq).1.1, (h q hq).2.1⟩)
    rwa [List.map_map] at this
  unfold Imshow.setImage fancySet
  rw [if_neg (by rw [hr, List.length_map]; simpa using hl), if_neg (by simpa using hl)]
  simp only
  rw [e1, e2]
  exact ⟨_, _, rfl, rfl, rfl⟩

example : ∃ s s' t', Imshow.init [0, -1] [1, -6] 6 6 = .ok s ∧ s.setImage [5, 7] = (s', none) ∧ s'.data 5 0 = some 7 ∧ s'.data 0 1 = some 5 ∧
    Wraps 6 (-1) 5 ∧ Wraps 6 (-6) 0 ∧ (Imshow.init [0, 6] [1, 0] 6 6).toOption.map (·.setImage [5, 7]) = some (t', some .indexError) := by
  refine ⟨_, _, _, rfl, rfl, ?_, ?_, by unfold Wraps; omega, by unfold Wraps; omega, rfl⟩ <;> decide +kernel

example : ∃ s s', Imshow.init [0, 2] [1, 3] 6 6 = .ok s ∧ s.setImage [5, 7] = (s', none) ∧ s'.data 2 3 = some 7 ∧
    s'.data 0 0 = none ∧ s'.data 3 3 = some 0 := by
  refine ⟨_, _, rfl, rfl, ?_, ?_, ?_⟩ <;> decide +kernel

/-- **C66**, patch image: patch `i` is centred on pixel `i`, has the size of a pixel and a tenth of a millimetre more, and shows value `i`; a wrong size is rejected and changes nothing -/
theorem C66_patches (xpix ypix : List ℚ) (hxy : xpix.length = ypix.length) (size : ℚ) :
    ∃ s, PatchImage.init xpix ypix size = .ok s ∧
      (∀ (i : Nat) (q : (ℚ × ℚ) × ℚ), s.patches[i]? = some q →
        xpix[i]? = some (q.1.1 + q.2 / 2) ∧ ypix[i]? = some (q.1.2 + q.2 / 2) ∧ q.2 = size + 1 / 10000) ∧
      s.patches.length = xpix.length ∧
      ∀ val : List ℚ, if val.length = xpix.length
        then ∃ s', s.setImage val = (s', none) ∧ s'.patches = s.patches ∧ s'.shown = val ∧ s'.image = some val
        else s.setImage val = (s, some .assertionError) := by
  refine ⟨_, by unfold PatchImage.init; rw [if_neg (by simpa using hxy)], ?_, by simp [hxy], ?_⟩
  · intro i q hq
    rw [List.getElem?_map, Option.map_eq_some_iff] at hq
    obtain ⟨p, hp, rfl⟩ := hq
    rw [List.getElem?_zip_eq_some] at hp
    rw [hp.1, hp.2]
    simp
  · intro val
    split
    · rename_i h
      exact ⟨⟨xpix, ypix, _, some val, val⟩, by unfold PatchImage.setImage; rw [if_neg (by simpa using h)], rfl, rfl, rfl⟩
    · rename_i h
      unfold PatchImage.setImage
      rw [if_pos h]

/-- **C66**, patch image: coordinates of different numbers of pixels are rejected -/
theorem C66_patches_rejected (xpix ypix : List ℚ) (hxy : xpix.length ≠ ypix.length) (size : ℚ) : PatchImage.init xpix ypix size = .error .assertionError := by
  unfold PatchImage.init
  rw [if_pos hxy]

example : ∃ s, PatchImage.init [0, 1] [2, 3] 1 = .ok s ∧ (s.setImage [5]).2 = some .assertionError := ⟨_, rfl, rfl⟩

end Verif.Props
