import Verif.Model.Geometry
import Verif.Props.Camera

/-! # C116: the camera geometry for ctapipe -/

namespace Verif.Props

open Verif.Py Verif.Model

/-- the metadata of the mapping record the number of its rows as `n_pixels` -/
def CountsPixels {ρ : Type} (heap : List MapMeta) (m : Mapping ρ) : Prop :=
  ∃ md text, heap[m.metaRef]? = some md ∧ md.others.find? (fun e => e.1 == "n_pixels") = some ("n_pixels", text) ∧ parseDec text.toList = m.rows.length

/-- one identifier for each position, identifiers from 0, positions of the rows in order -/
structure Describes {ρ : Type} (pos : ρ → ℚ × ℚ) (rows : List ρ) (g : Geometry) : Prop where
  ids : ∀ (i : Nat), i < rows.length → g.pixId[i]? = some i
  count : g.pixId.length = rows.length
  x : ∀ (i : Nat) r, rows[i]? = some r → g.pixX[i]? = some (pos r).1
  y : ∀ (i : Nat) r, rows[i]? = some r → g.pixY[i]? = some (pos r).2
  sizes : g.pixX.length = rows.length ∧ g.pixY.length = rows.length

/-- The documented geometry: for the mapping of the pixels and for the mapping of the superpixels made from it, in degrees. -/
def GeometryAsDocumented : Prop :=
  ∀ (heap : List MapMeta) (m : Mapping MapRow), CountsPixels heap m → m.rows ≠ [] →
    (∀ g, cameraGeometry (fun r => (r.xpix, r.ypix)) heap m = .ok g → Describes (fun r => (r.xpix, r.ypix)) m.rows g ∧ g.unit = .degree) ∧
    ∀ heap' sp g, getSuperpixelMapping heap m = .ok (heap', sp) → cameraGeometry (fun r => (r.xpix, r.ypix)) heap' sp = .ok g →
      Describes (fun r => (r.xpix, r.ypix)) sp.rows g

/-- C116 (part): for every mapping whose metadata count its rows the geometry has one identifier for each row, with its position, in metres. Missing: degrees, and mappings of
superpixels and modules (`C116_coarse`). -/
theorem C116_partial {ρ : Type} (pos : ρ → ℚ × ℚ) (heap : List MapMeta) (m : Mapping ρ) (hc : CountsPixels heap m) :
    ∃ g, cameraGeometry pos heap m = .ok g ∧ Describes pos m.rows g ∧ g.unit = .metre := by
  obtain ⟨md, text, h1, h2, h3⟩ := hc
  refine ⟨_, by unfold cameraGeometry; rw [h1]; simp only; rw [h2], ⟨?_, ?_, ?_, ?_, ?_⟩, rfl⟩
  · intro i hi
    simp only [h3]
    rw [List.getElem?_range hi]
  · simp [h3]
  · intro i r hr; simp [hr]
  · intro i r hr; simp [hr]
  · simp

/-- C116: the geometry describes the rows of exactly the mappings whose metadata count them. -/
theorem C116_exactly_partial {ρ : Type} (pos : ρ → ℚ × ℚ) (heap : List MapMeta) (m : Mapping ρ) (g : Geometry) (h : cameraGeometry pos heap m = .ok g) :
    Describes pos m.rows g ↔ CountsPixels heap m := by
  constructor
  · intro hd
    unfold cameraGeometry at h
    split at h
    · cases h
    rename_i md hmd
    split at h
    · cases h
    rename_i e he
    cases h
    have hname : e.1 = "n_pixels" := by simpa using List.find?_some he
    obtain ⟨k, text⟩ := e
    obtain rfl : k = "n_pixels" := hname
    exact ⟨md, text, hmd, he, by simpa using hd.count⟩
  · intro hc
    obtain ⟨g', h1, h2, -⟩ := C116_partial pos heap m hc
    rw [h1] at h
    cases h
    exact h2

/-- C116: without the entry or without metadata there is an error. -/
theorem C116_errors {ρ : Type} (pos : ρ → ℚ × ℚ) (heap : List MapMeta) (m : Mapping ρ) :
    (heap[m.metaRef]? = none → cameraGeometry pos heap m = .error .attributeError) ∧
    ∀ md, heap[m.metaRef]? = some md → md.others.find? (fun e => e.1 == "n_pixels") = none → cameraGeometry pos heap m = .error .keyError := by
  constructor
  · intro h; unfold cameraGeometry; rw [h]
  · intro md h h'; unfold cameraGeometry; rw [h]; simp only; rw [h']

/-- C116: the geometry of the superpixels or modules of a mapping has as many identifiers as there are pixels, but one position for each superpixel or module. -/
theorem C116_coarse (heap : List MapMeta) (m : Mapping MapRow) (hc : CountsPixels heap m) (hne : m.rows ≠ []) :
    (∃ heap' sp g, getSuperpixelMapping heap m = .ok (heap', sp) ∧ cameraGeometry (fun r => (r.xpix, r.ypix)) heap' sp = .ok g ∧
      g.pixId.length = m.rows.length ∧ g.pixX.length = sp.rows.length ∧ g.pixY.length = sp.rows.length) ∧
    ∃ heap' tm g, getTmMapping heap m = .ok (heap', tm) ∧ cameraGeometry (fun r => (r.xpix, r.ypix)) heap' tm = .ok g ∧
      g.pixId.length = m.rows.length ∧ g.pixX.length = tm.rows.length ∧ g.pixY.length = tm.rows.length := by
  obtain ⟨md, text, h1, h2, h3⟩ := hc
  constructor
  · obtain ⟨heap', sp, md', a1, -, -, -, a2, -, a3, -⟩ := C39_superpixel_mapping heap m md h1 hne
    refine ⟨heap', sp, _, a1, by unfold cameraGeometry; rw [a2]; simp only; rw [a3, h2], ?_⟩
    simp [h3]
  · obtain ⟨heap', tm, md', a1, -, -, -, a2, -, a3, -⟩ := C39_tm_mapping heap m md h1 hne
    refine ⟨heap', tm, _, a1, by unfold cameraGeometry; rw [a2]; simp only; rw [a3, h2], ?_⟩
    simp [h3]

/-- two pixels of one superpixel -/
def pairMapping : Mapping MapRow := ⟨[⟨0, 0, 0, 0, 0, 1, 2⟩, ⟨0, 0, 0, 0, 1, 3, 2⟩], 0⟩

/-- their metadata -/
def pairHeap : List MapMeta := [⟨some 1, some 2, 6, [("n_pixels", "2")]⟩]

theorem pair_counts : CountsPixels pairHeap pairMapping := ⟨_, "2", rfl, rfl, rfl⟩

example := C116_partial (fun r : MapRow => (r.xpix, r.ypix)) pairHeap pairMapping pair_counts
example := C116_coarse pairHeap pairMapping pair_counts (by simp [pairMapping])
example := (C116_errors (fun r : MapRow => (r.xpix, r.ypix)) [] pairMapping).1 rfl
example := (C116_errors (fun r : MapRow => (r.xpix, r.ypix)) [⟨none, none, 1, []⟩] pairMapping).2 _ rfl rfl

/-- C116 fails as documented: the unit is metres for every mapping, and the geometry of superpixels has more identifiers than positions. -/
theorem C116_false : ¬ GeometryAsDocumented ∧
    (∀ {ρ : Type} (pos : ρ → ℚ × ℚ) (heap : List MapMeta) (m : Mapping ρ) g, cameraGeometry pos heap m = .ok g → g.unit ≠ .degree) ∧
    ∃ heap' sp g, getSuperpixelMapping pairHeap pairMapping = .ok (heap', sp) ∧ cameraGeometry (fun r => (r.xpix, r.ypix)) heap' sp = .ok g ∧
      g.pixId = [0, 1] ∧ g.pixX = [2] ∧ g.pixY = [2] := by
  refine ⟨fun h => ?_, ?_, ?_⟩
  · obtain ⟨g, h1, -, h2⟩ := C116_partial (fun r : MapRow => (r.xpix, r.ypix)) pairHeap pairMapping pair_counts
    have := ((h pairHeap pairMapping pair_counts (by simp [pairMapping])).1 g h1).2
    rw [h2] at this
    cases this
  · intro ρ pos heap m g h
    unfold cameraGeometry at h
    split at h
    · cases h
    · split at h
      · cases h
      · cases h; simp
  · exact ⟨_, _, _, rfl, rfl, rfl, by decide +kernel, by decide +kernel⟩

end Verif.Props
