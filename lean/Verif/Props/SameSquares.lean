import Verif.Props.Dl1Images
import Verif.Props.TioImages

/-!
# The same camera in the images of a raw file, of its DL1 file and of the camera version
-/

namespace Verif.Props

open Verif.Py Verif.Model Verif.Spec Verif.Lemmas

variable {ρ τ ε β S : Type}

/-- squares with the same centres and sides are the same -/
theorem squares_eq (x y : ρ → ℚ) (t : TcMapping ρ ℚ) (s s' : PatchImage) (h : SquaresOf x y t s) (h' : SquaresOf x y t s') : s.patches = s'.patches := by
  apply List.ext_getElem (by rw [h.1, h'.1])
  intro p h1 h2
  have hp : p < t.pixels.length := by rw [← h.1]; exact h1
  obtain ⟨a, b, c⟩ := h.2 p _ _ (List.getElem?_eq_getElem hp) (List.getElem?_eq_getElem h1)
  obtain ⟨a', b', c'⟩ := h'.2 p _ _ (List.getElem?_eq_getElem hp) (List.getElem?_eq_getElem h2)
  have e : s.patches[p].2 = s'.patches[p].2 := by rw [c, c']
  rw [← a', e] at a
  rw [← b', e] at b
  exact Prod.ext (Prod.ext (add_right_cancel a) (add_right_cancel b)) e

/-- the reader of a raw file has the mapping of the camera the file names, as a CHECLabPy mapping; `table` is a row of it as a row of the DL1 file -/
structure HasMapping (rd : RawReader τ ε β ℚ) (t : TcMapping ρ ℚ) (table : ρ → β) : Prop where
  rows : rd.mapping.map DRow.vals = t.pixels.map table
  metadata : rd.mappingMeta = (clpMapping t).2
  pixels : t.pixels.length = rd.nPixels

/-- **C188**: for a run of a camera TargetCalib knows, the images of the raw file, the images of the DL1 file extracted from it and the image made from the version of the camera have the same
squares, one for each pixel: whatever is shown for pixel `p`, sample 60 or the extracted charge, is shown at the same place. -/
theorem C188_same_squares (mem : List (DRow β) → Nat) (castVals : β → β) (rd : RawReader τ ε β ℚ)
    (ex : Extractor S τ ε β ℚ) (enc : Option τ → ℚ) (order : List String) (h : (dl1Calls rd ex enc).2 = none)
    (ho : IsOrder (dl1Calls rd ex enc).1 order) (hm : (Dict.keys rd.otherMeta).Nodup)
    (hid : ((goodEvents rd.events).map Event.iev).Pairwise (· < ·)) (hb : ∀ e ∈ goodEvents rd.events, e.iev < 2 ^ 32)
    (hp : 1 ≤ rd.nPixels) (hp' : rd.nPixels ≤ 2 ^ 32) (hne : goodEvents rd.events ≠ [])
    (config : String → Bool → Except Err (TcMapping ρ ℚ)) (x y : ρ → ℚ) (f : TioRun) (maxEvents : Option Nat) (t : TcMapping ρ ℚ) (hf : WellShaped f)
    (hmod : f.fNModules ≠ 0) (ht : config f.fCameraVersion (decide (f.fNModules = 1)) = .ok t) (hpix : f.fNPixels = rd.nPixels) (hs : 60 < f.fNSamples)
    (table : ρ → β) (hmap : HasMapping rd t table) (xpos ypos charge : β → ℚ) (hx : ∀ r, xpos (table r) = x r) (hy : ∀ r, ypos (table r) = y r) :
    ∃ (s : Store (DRow β) ℚ) (r : HReader (DRow β) ℚ) (pics : List PatchImage) (shown : List PatchImage) (a : (ℚ × ℚ) × (ℚ × ℚ)) (plain : PatchImage),
      writeDl1File mem castVals rd ex enc order = (.ok s, none) ∧ openReader s = .ok r ∧
      plotFromDl1 numberOfMeta xpos ypos charge r = (pics, none) ∧
      plotFromTio config x y f (maxEvents.map fun k : Nat => (k : Int)) = (⟨some a, shown⟩, none) ∧
      squaresFromVersion config x y f.fCameraVersion (decide (f.fNModules = 1)) = .ok plain ∧
      pics.length = min 11 (goodEvents rd.events).length ∧ shown.length = eventsRead f.fNEvents maxEvents ∧ plain.patches.length = rd.nPixels ∧
      (∀ pic ∈ pics, pic.patches = plain.patches) ∧ ∀ pic ∈ shown, pic.patches = plain.patches := by
  have hlen : rd.mapping.length = t.pixels.length := by
    have := congrArg List.length hmap.rows
    simpa using this
  obtain ⟨s, r, vss, pics, h1, h2, -, h4, h5, h6⟩ := C182_squares mem castVals rd ex enc order h ho hm hid hb hp hp' hne numberOfMeta xpos ypos charge (.obj t.size) t.size
    (by rw [hlen, hmap.pixels]) (by rw [hmap.metadata]; rfl) rfl
  obtain ⟨shown, g1, g2, g3⟩ := C186_images config x y f maxEvents t hf hmod ht (by rw [hmap.pixels, hpix]) hs
  obtain ⟨plain, k1, k2⟩ := (C186_squares config x y f.fCameraVersion (decide (f.fNModules = 1))).2.1 t ht
  refine ⟨s, r, pics, shown, _, plain, h1, h2, h4, g1, k1, h5, g2, by rw [k2.1, hmap.pixels], fun pic hpic => ?_, fun pic hpic => ?_⟩
  · obtain ⟨k, hk⟩ := List.getElem?_of_mem hpic
    obtain ⟨vs, -, -, -, q4, q5⟩ := h6 k pic hk
    refine squares_eq x y t _ _ ⟨by rw [q4, hmap.pixels], fun p m q hm' hq => ?_⟩ k2
    have hv := congrArg (fun l => l[p]?) hmap.rows
    simp only [List.getElem?_map, hm', Option.map_some] at hv
    cases hr : rd.mapping[p]? with
    | none => rw [hr] at hv; cases hv
    | some w =>
      rw [hr, Option.map_some] at hv
      have hw := Option.some.inj hv
      obtain ⟨c1, c2, c3⟩ := q5 p q w hq hr
      rw [hw, hx] at c1
      rw [hw, hy] at c2
      exact ⟨c1, c2, c3⟩
  · obtain ⟨k, hk⟩ := List.getElem?_of_mem hpic
    exact squares_eq x y t _ _ (g3 k pic hk).1 k2

/-! ### a case -/

/-- a run of a camera of two pixels: three events, the second one stale -/
def twoPixelRun : RawReader Nat Unit (ℚ × ℚ) ℚ where
  path := "/data/Run01_r1.tio"
  events := [⟨0, false, false, 100, ()⟩, ⟨1, true, false, 101, ()⟩, ⟨2, false, false, 102, ()⟩]
  isMc := false
  nPixels := 2
  nModules := 1
  nSuperpixels := 1
  getSn _ := .int 1000
  getSipmTemp _ := .int 20
  getPrimaryTemp _ := .int 40
  getSpDac _ sp := .int (200 + sp)
  getSpHvon _ _ := .int 1
  mcRow _ := (0, 0)
  pointingRow _ := (0, 0)
  mcheader := none
  mapping := [⟨0, some 0, (1, 2)⟩, ⟨0, some 1, (3, 4)⟩]
  mappingMeta := (clpMapping twoPixelCamera).2
  otherMeta := [("run_id", .int 1)]

/-- charges of the two pixels -/
def twoPixelExtractor : Extractor Nat Nat Unit (ℚ × ℚ) ℚ where
  init := 0
  extract s _ := .ok (s + 1, [(10 * s, 0), (20 * s, 0)])
  config := []

theorem twoPixelRun_order : IsOrder (dl1Calls twoPixelRun twoPixelExtractor fun _ => (0 : ℚ)).1 ["data"] := by
  refine ⟨by decide, fun k => ?_⟩
  simp [IsData, IsAppended, dl1Calls, dl1Loop, dl1Step, twoPixelRun, twoPixelExtractor, skipEvent, dl1Closing]
  grind

example : ∃ (s : Store (DRow (ℚ × ℚ)) ℚ) (r : HReader (DRow (ℚ × ℚ)) ℚ) (pics shown : List PatchImage) (a : (ℚ × ℚ) × (ℚ × ℚ)) (plain : PatchImage),
    writeDl1File List.length id twoPixelRun twoPixelExtractor (fun _ => 0) ["data"] = (.ok s, none) ∧ openReader s = .ok r ∧
    plotFromDl1 numberOfMeta Prod.fst Prod.snd Prod.fst r = (pics, none) ∧
    plotFromTio (fun _ _ => .ok twoPixelCamera) Prod.fst Prod.snd ⟨3, 2, 1, 64, "1.1.0", fun i => [List.replicate 64 (i : ℚ), List.replicate 64 (2 * i : ℚ)]⟩ none = (⟨some a, shown⟩, none) ∧
    squaresFromVersion (fun _ _ => .ok twoPixelCamera) Prod.fst Prod.snd "1.1.0" true = .ok plain ∧
    pics.length = 2 ∧ shown.length = 3 ∧ (∀ pic ∈ pics, pic.patches = plain.patches) ∧ ∀ pic ∈ shown, pic.patches = plain.patches := by
  obtain ⟨s, r, pics, shown, a, plain, h1, h2, h3, h4, h5, h6, h7, -, h8⟩ := C188_same_squares List.length id twoPixelRun twoPixelExtractor (fun _ => 0) ["data"] rfl twoPixelRun_order
    (by decide) (by decide) (by decide) (by decide) (by decide) (by decide) (fun _ _ => .ok twoPixelCamera) Prod.fst Prod.snd
    ⟨3, 2, 1, 64, "1.1.0", fun i => [List.replicate 64 (i : ℚ), List.replicate 64 (2 * i : ℚ)]⟩ none twoPixelCamera (by intro i _; simp) (by simp) rfl rfl (by simp) id
    ⟨rfl, rfl, rfl⟩ Prod.fst Prod.snd Prod.fst (fun _ => rfl) (fun _ => rfl)
  exact ⟨s, r, pics, shown, a, plain, h1, h2, h3, h4, h5, h6, h7, h8⟩

end Verif.Props
