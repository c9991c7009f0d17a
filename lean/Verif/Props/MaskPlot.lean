import Verif.Model.MaskPlot
import Verif.Props.PixelMasks
import Mathlib.Tactic.NormNum

/-! # C124: the plot of the pixel masks -/

namespace Verif.Props

open Verif.Py Verif.Model Verif.Spec

theorem replicate_get {α : Type} (n i : Nat) (a : α) (h : i < n) : (List.replicate n a)[i]? = some a := by
  rw [List.getElem?_replicate, if_pos h]

theorem full_of (d l b : Bool) : Masks.Full ⟨List.replicate 2048 d, List.replicate 2048 l, List.replicate 512 b⟩ :=
  ⟨List.length_replicate, List.length_replicate, List.length_replicate⟩

theorem assignMask_get (image : List (Option ℚ)) (mask : List Bool) (v : ℚ) (h : mask.length = image.length) :
    ∃ out, assignMask image mask v = .ok out ∧ out.length = image.length ∧
      ∀ (i : Nat) b x, mask[i]? = some b → image[i]? = some x → out[i]? = some (if b = true then some v else x) := by
  refine ⟨_, by unfold assignMask; rw [if_neg (by simp [h])], by simp [h], fun i b x hb hx => ?_⟩
  rw [List.getElem?_zipWith, hb, hx]

/-- the value drawn for a pixel that is dead, low, in a superpixel with bad voltage -/
def maskColour (dead low bad : Bool) : Option ℚ :=
  if bad then some (1 / 2) else if low then some 2 else if dead then some 1 else none

theorem maskImage_get (m : Masks) (h : Masks.Full m) : ∃ image, maskImage m = .ok image ∧ image.length = 2048 ∧
    ∀ (i : Nat) d l b, m.dead[i]? = some d → m.low[i]? = some l → m.badHv[i / 4]? = some b → image[i]? = some (maskColour d l b) := by
  obtain ⟨h1, h2, h3⟩ := h
  obtain ⟨a, ha, la, ga⟩ := assignMask_get (List.replicate 2048 none) m.dead 1 (by rw [h1, List.length_replicate])
  obtain ⟨b, hb, lb, gb⟩ := assignMask_get a m.low 2 (by rw [la, h2, List.length_replicate])
  obtain ⟨c, hc, lc, gc⟩ := assignMask_get b (repeatEach 4 m.badHv) (1 / 2) (by rw [repeatEach_length, lb, la, h3, List.length_replicate])
  refine ⟨c, by unfold maskImage; rw [ha]; simp only [hb, hc], by rw [lc, lb, la, List.length_replicate], fun i d l x hd hl hx => ?_⟩
  have hi : i < 2048 := by rw [← h1]; exact (List.getElem?_eq_some_iff.1 hd).1
  have e1 := ga i d none hd (replicate_get _ _ _ hi)
  have e2 := gb i l _ hl e1
  have e3 := gc i x _ (by rw [repeatEach_getElem? 4 (by omega)]; exact hx) e2
  rw [e3]
  unfold maskColour
  cases x <;> cases l <;> cases d <;> simp

/-- C124: exactly the pixels of `all_mask` are coloured. -/
theorem C124_coloured (m : Masks) (h : Masks.Full m) : ∃ image a, maskImage m = .ok image ∧ allMask m = .ok a ∧ image.length = 2048 ∧
    a.length = 2048 ∧ ∀ i < 2048, (∃ v, image[i]? = some (some v)) ↔ a[i]? = some true := by
  obtain ⟨image, hi, hl, hg⟩ := maskImage_get m h
  obtain ⟨a, ha, hal, hag⟩ := C36_all_mask m h
  refine ⟨image, a, hi, ha, hl, hal, fun i hlt => ?_⟩
  obtain ⟨h1, h2, h3⟩ := h
  have e := hg i _ _ _ (List.getElem?_eq_getElem (by omega : i < m.dead.length)) (List.getElem?_eq_getElem (by omega : i < m.low.length))
    (List.getElem?_eq_getElem (by omega : i / 4 < m.badHv.length))
  rw [e, hag i hlt, List.getElem?_eq_getElem (by omega : i < m.dead.length), List.getElem?_eq_getElem (by omega : i < m.low.length),
    List.getElem?_eq_getElem (by omega : i / 4 < m.badHv.length)]
  unfold maskColour
  generalize m.dead[i] = d
  generalize m.low[i] = l
  generalize m.badHv[i / 4] = b
  cases d <;> cases l <;> cases b <;> simp

/-- C124, what the colours say (missing: the masks below the one shown): 1/2 bad voltage, 2 low and good voltage, 1 dead, not low and good voltage. -/
theorem C124_colour_partial (m : Masks) (h : Masks.Full m) : ∃ image, maskImage m = .ok image ∧ ∀ i < 2048,
    (image[i]? = some (some (1 / 2)) ↔ m.badHv[i / 4]? = some true) ∧
    (image[i]? = some (some 2) ↔ m.low[i]? = some true ∧ m.badHv[i / 4]? = some false) ∧
    (image[i]? = some (some 1) ↔ m.dead[i]? = some true ∧ m.low[i]? = some false ∧ m.badHv[i / 4]? = some false) := by
  obtain ⟨image, hi, hl, hg⟩ := maskImage_get m h
  refine ⟨image, hi, fun i hlt => ?_⟩
  obtain ⟨h1, h2, h3⟩ := h
  have e := hg i _ _ _ (List.getElem?_eq_getElem (by omega : i < m.dead.length)) (List.getElem?_eq_getElem (by omega : i < m.low.length))
    (List.getElem?_eq_getElem (by omega : i / 4 < m.badHv.length))
  rw [e, List.getElem?_eq_getElem (by omega : i < m.dead.length), List.getElem?_eq_getElem (by omega : i < m.low.length),
    List.getElem?_eq_getElem (by omega : i / 4 < m.badHv.length)]
  unfold maskColour
  generalize m.dead[i] = d
  generalize m.low[i] = l
  generalize m.badHv[i / 4] = b
  clear e hg hi hl
  revert d l b
  decide +kernel

/-- C124 is false: the plot does not tell whether a pixel in a superpixel with bad voltage is dead; all dead pixels can be hidden. -/
theorem C124_false : ∃ m m' : Masks, Masks.Full m ∧ Masks.Full m' ∧ (∀ i < 2048, m.dead[i]? = some true) ∧ (∀ i < 2048, m'.dead[i]? = some false) ∧
    maskImage m = maskImage m' := by
  refine ⟨⟨List.replicate 2048 true, List.replicate 2048 false, List.replicate 512 true⟩,
    ⟨List.replicate 2048 false, List.replicate 2048 false, List.replicate 512 true⟩, full_of _ _ _, full_of _ _ _,
    fun i hi => replicate_get _ _ _ hi, fun i hi => replicate_get _ _ _ hi, ?_⟩
  obtain ⟨a, ha, la, ga⟩ := maskImage_get ⟨List.replicate 2048 true, List.replicate 2048 false, List.replicate 512 true⟩ (full_of _ _ _)
  obtain ⟨b, hb, lb, gb⟩ := maskImage_get ⟨List.replicate 2048 false, List.replicate 2048 false, List.replicate 512 true⟩ (full_of _ _ _)
  rw [ha, hb]
  refine congrArg Except.ok (List.ext_getElem (by omega) fun i h1 h2 => ?_)
  have e1 := ga i true false true (replicate_get _ _ _ (by omega)) (replicate_get _ _ _ (by omega)) (replicate_get _ _ _ (by omega))
  have e2 := gb i false false true (replicate_get _ _ _ (by omega)) (replicate_get _ _ _ (by omega)) (replicate_get _ _ _ (by omega))
  rw [List.getElem?_eq_getElem h1] at e1
  rw [List.getElem?_eq_getElem h2] at e2
  have e3 : maskColour true false true = maskColour false false true := rfl
  exact Option.some.inj (e1.trans ((congrArg some e3).trans e2.symm))

/-- C124: masks of another size than the camera cannot be drawn: `IndexError`. -/
theorem C124_size (m : Masks) (h : ¬ Masks.Full m) : maskImage m = .error .indexError := by
  unfold maskImage
  by_cases h1 : m.dead.length = 2048
  · obtain ⟨a, ha, la, -⟩ := assignMask_get (List.replicate 2048 none) m.dead 1 (by rw [h1, List.length_replicate])
    rw [ha]
    simp only
    by_cases h2 : m.low.length = 2048
    · obtain ⟨b, hb, lb, -⟩ := assignMask_get a m.low 2 (by rw [la, h2, List.length_replicate])
      rw [hb]
      simp only
      unfold assignMask
      rw [if_pos]
      rw [repeatEach_length, lb, la, List.length_replicate]
      intro h3
      exact h ⟨h1, h2, by omega⟩
    · unfold assignMask
      rw [if_pos (by rw [la, List.length_replicate]; exact h2)]
  · unfold assignMask
    rw [if_pos (by rw [List.length_replicate]; exact h1)]

example : Masks.Full ⟨List.replicate 2048 false, List.replicate 2048 false, List.replicate 512 false⟩ ∧
    ¬ Masks.Full ⟨List.replicate 64 false, List.replicate 2048 false, List.replicate 512 false⟩ :=
  ⟨full_of _ _ _, fun h => by have := h.1; rw [List.length_replicate] at this; omega⟩

end Verif.Props
