import Verif.Model.TioImages
import Verif.Props.Camera
import Verif.Props.WaveformReader

/-!
# C186: camera images of a raw file and of a camera version

From the samples of the file and the positions TargetCalib gives to the squares drawn.
-/

namespace Verif.Props

open Verif.Py Verif.Model

variable {ρ : Type}

/-- the squares of an image are those of the pixels of a mapping: one for each pixel, centred at its position, of its size and a tenth of a millimetre more -/
def SquaresOf (x y : ρ → ℚ) (t : TcMapping ρ ℚ) (s : PatchImage) : Prop :=
  s.patches.length = t.pixels.length ∧
  ∀ (p : Nat) (m : ρ) (q : (ℚ × ℚ) × ℚ), t.pixels[p]? = some m → s.patches[p]? = some q →
    q.1.1 + q.2 / 2 = x m ∧ q.1.2 + q.2 / 2 = y m ∧ q.2 = t.size + 1 / 10000

theorem squaresOfMapping_clp (x y : ρ → ℚ) (t : TcMapping ρ ℚ) :
    squaresOfMapping x y (clpMapping t) = PatchImage.init (t.pixels.map x) (t.pixels.map y) t.size := rfl

theorem squaresArrow_clp (t : TcMapping ρ ℚ) :
    squaresArrow (clpMapping t) = .ok ((t.fOTUpXL, t.fOTUpYL), (t.fOTUpXU - t.fOTUpXL, t.fOTUpYU - t.fOTUpYL)) := rfl

theorem squaresOf_init (x y : ρ → ℚ) (t : TcMapping ρ ℚ) :
    ∃ s, PatchImage.init (t.pixels.map x) (t.pixels.map y) t.size = .ok s ∧ s.xpix = t.pixels.map x ∧ SquaresOf x y t s := by
  obtain ⟨s, h1, h2, h3, -⟩ := C66_patches (t.pixels.map x) (t.pixels.map y) (by simp) t.size
  refine ⟨s, h1, ?_, by simpa using h3, ?_⟩
  · unfold PatchImage.init at h1
    rw [if_neg (by simp)] at h1
    cases h1
    rfl
  · intro p m q hm hq
    obtain ⟨a, b, c⟩ := h2 p q hq
    rw [List.getElem?_map, hm] at a b
    simp only [Option.map_some, Option.some.injEq] at a b
    exact ⟨a.symm, b.symm, c⟩

/-- **C186**, positions: every image made from a TargetCalib mapping, or from a version of the camera, has the squares of the pixels of that mapping; a version TargetCalib does not know
raises what it raises -/
theorem C186_squares (config : String → Bool → Except Err (TcMapping ρ ℚ)) (x y : ρ → ℚ) (version : String) (single : Bool) :
    (∀ t, ∃ s, squaresFromTc x y t = .ok s ∧ SquaresOf x y t s) ∧
    (∀ t, config version single = .ok t → ∃ s, squaresFromVersion config x y version single = .ok s ∧ SquaresOf x y t s) ∧
    ∀ e, config version single = .error e → squaresFromVersion config x y version single = .error e := by
  have key : ∀ t, ∃ s, squaresFromTc x y t = .ok s ∧ SquaresOf x y t s := by
    intro t
    obtain ⟨s, h1, -, h2⟩ := squaresOf_init x y t
    exact ⟨s, by unfold squaresFromTc; rw [squaresOfMapping_clp]; exact h1, h2⟩
  refine ⟨key, fun t ht => ?_, fun e he => ?_⟩
  · obtain ⟨s, h1, h2⟩ := key t
    exact ⟨s, by unfold squaresFromVersion; rw [ht]; exact h1, h2⟩
  · unfold squaresFromVersion
    rw [he]
    rfl

/-- **C186**, the grid of a version: pixels in different cells inside the grid of the mapping, each shown in its own cell -/
theorem C186_grid (config : String → Bool → Except Err (TcMapping ρ ℚ)) (row col : ρ → Nat) (version : String) (single : Bool) (t : TcMapping ρ ℚ)
    (ht : config version single = .ok t) (hin : ∀ m ∈ t.pixels, row m < t.nRows ∧ col m < t.nColumns) (hnd : (t.pixels.map fun m => (row m, col m)).Nodup)
    (val : List ℚ) (hlen : val.length = t.pixels.length) :
    ∃ s s', gridFromVersion config (fun m => (row m : Int)) (fun m => (col m : Int)) version single = .ok s ∧ s.setImage val = (s', none) ∧
      ∀ (p : Nat) m v, t.pixels[p]? = some m → val[p]? = some v → s'.data (row m) (col m) = some v := by
  obtain ⟨s, s', h1, h2, -, h3, -⟩ := C66_grid t.nRows t.nColumns (t.pixels.map fun m => (row m, col m))
    (by intro p hp; obtain ⟨m, hm, rfl⟩ := List.mem_map.1 hp; exact hin m hm) hnd val (by simpa using hlen)
  refine ⟨s, s', ?_, h2, fun p m v hm hv => h3 p (row m, col m) v (by rw [List.getElem?_map, hm]; rfl) hv⟩
  unfold gridFromVersion
  rw [ht]
  rw [List.map_map, List.map_map] at h1
  exact h1

/-- **C186**, arrows: in both classes the arrow goes from the lower end to the upper end the mapping has, in meters or in columns and rows -/
theorem C186_arrows (t : TcMapping ρ ℚ) :
    (∃ a, squaresArrow (clpMapping t) = .ok a ∧ a.1 = (t.fOTUpXL, t.fOTUpYL) ∧ (a.1.1 + a.2.1, a.1.2 + a.2.2) = (t.fOTUpXU, t.fOTUpYU)) ∧
    ∃ a, gridArrow (clpMapping t) = .ok a ∧ a.1 = (t.fOTUpColL, t.fOTUpRowL) ∧ (a.1.1 + a.2.1, a.1.2 + a.2.2) = (t.fOTUpColU, t.fOTUpRowU) :=
  ⟨⟨_, rfl, rfl, by simp⟩, ⟨_, rfl, rfl, by simp⟩⟩

theorem sampleColumn_ok (n k : Nat) (hk : k < n) (wf : List (List ℚ)) (h : ∀ w ∈ wf, w.length = n) :
    ∃ v, sampleColumn n k wf = .ok v ∧ v.length = wf.length ∧
      ∀ (p : Nat) w, wf[p]? = some w → ∃ a, w[k]? = some a ∧ v[p]? = some a := by
  unfold sampleColumn
  rw [if_pos hk]
  rw [mapM_ok _ (fun w : List ℚ => w[k]?.getD 0) wf]
  · refine ⟨_, rfl, by simp, fun p w hw => ?_⟩
    have hl := h w (List.mem_of_getElem? hw)
    refine ⟨w[k]'(by omega), List.getElem?_eq_getElem (by omega), ?_⟩
    rw [List.getElem?_map, hw]
    simp [show k < w.length by omega]
  · intro w hw
    have hl := h w hw
    rw [List.getElem?_eq_getElem (by omega)]
    rfl

theorem showWaveforms_ok (n k nPix : Nat) (hk : k < n) (es : List (TioEvent (List (List ℚ))))
    (h : ∀ e ∈ es, e.raw.length = nPix ∧ ∀ w ∈ e.raw, w.length = n) : ∀ s : PatchImage, s.xpix.length = nPix →
      ∃ pics, showWaveforms n k s es = (pics, none) ∧ pics.length = es.length ∧
        ∀ (j : Nat) pic e, pics[j]? = some pic → es[j]? = some e → pic.patches = s.patches ∧ pic.shown.length = nPix ∧
          ∀ (p : Nat) w, e.raw[p]? = some w → ∃ a, w[k]? = some a ∧ pic.shown[p]? = some a := by
  induction es with
  | nil => intro s _; exact ⟨[], rfl, rfl, by simp⟩
  | cons e es ih =>
    intro s hs
    obtain ⟨h1, h2⟩ := h e (by simp)
    obtain ⟨v, v1, v2, v3⟩ := sampleColumn_ok n k hk e.raw h2
    have hset : s.setImage v = ({ s with image := some v, shown := v }, none) := by
      unfold PatchImage.setImage
      rw [if_neg (by rw [v2, h1, hs]; simp)]
    obtain ⟨pics, p1, p2, p3⟩ := ih (fun e he => h e (by simp [he])) { s with image := some v, shown := v } hs
    unfold showWaveforms
    simp only [v1, hset, p1]
    refine ⟨_, rfl, by simp [p2], fun j pic e' hj he => ?_⟩
    cases j with
    | zero =>
      simp only [List.getElem?_cons_zero, Option.some.injEq] at hj he
      subst hj he
      exact ⟨rfl, by rw [v2, h1], v3⟩
    | succ j =>
      rw [List.getElem?_cons_succ] at hj he
      exact p3 j pic e' hj he

/-- how many events of a file are read -/
def eventsRead (nEvents : Nat) : Option Nat → Nat
  | none => nEvents
  | some 0 => nEvents
  | some m => min m nEvents

/-- the files TargetIO reads: `fNPixels` rows of `fNSamples` for each event -/
def WellShaped (f : TioRun) : Prop := ∀ i : Nat, i < f.fNEvents → (f.samples i).length = f.fNPixels ∧ ∀ w ∈ f.samples i, w.length = f.fNSamples

theorem tio_iter (f : TioRun) (m : Option Nat) :
    (tioReader f.fNEvents (m.map fun k : Nat => (k : Int)) f.samples).iter =
      (List.range (eventsRead f.fNEvents m)).map fun i : Nat => ({ iev := (i : Int), raw := f.samples i } : TioEvent (List (List ℚ))) := by
  have hn : (tioReader f.fNEvents (m.map fun k : Nat => (k : Int)) f.samples).nEvents = ((eventsRead f.fNEvents m : Nat) : Int) := by
    show tioNEvents f.fNEvents _ = _
    rcases m with _ | _ | m
    · rfl
    · exact (C03_max_events f.fNEvents (some 0)).1 (.inr rfl)
    · rw [Option.map_some, (C03_max_events f.fNEvents _).2 ((m + 1 : Nat) : Int) rfl (by omega)]
      simp only [eventsRead]
      omega
  rw [C03_iter _ _ hn]
  rfl

theorem eventsRead_le (n : Nat) (m : Option Nat) : eventsRead n m ≤ n := by
  rcases m with _ | _ | m
  · exact Nat.le_refl n
  · exact Nat.le_refl n
  · exact Nat.min_le_right _ _

/-- **C186**, images: a file of more than 60 samples from a camera TargetCalib knows, with as many pixels as the mapping of that camera (of a single module, if the file has one module), is
shown without an exception: one image for each event read, in order, in its squares sample 60 of each pixel of that event, the square centred where the mapping has the pixel; the arrow goes
from the lower to the upper end the mapping has. -/
theorem C186_images (config : String → Bool → Except Err (TcMapping ρ ℚ)) (x y : ρ → ℚ) (f : TioRun) (m : Option Nat) (t : TcMapping ρ ℚ) (hf : WellShaped f)
    (hmod : f.fNModules ≠ 0) (ht : config f.fCameraVersion (decide (f.fNModules = 1)) = .ok t) (hpix : t.pixels.length = f.fNPixels) (hs : 60 < f.fNSamples) :
    ∃ images, plotFromTio config x y f (m.map fun k : Nat => (k : Int)) =
        (⟨some ((t.fOTUpXL, t.fOTUpYL), (t.fOTUpXU - t.fOTUpXL, t.fOTUpYU - t.fOTUpYL)), images⟩, none) ∧
      images.length = eventsRead f.fNEvents m ∧
      ∀ (k : Nat) pic, images[k]? = some pic → SquaresOf x y t pic ∧ pic.shown.length = f.fNPixels ∧
        ∀ p, p < f.fNPixels → ∃ w a, (f.samples k)[p]? = some w ∧ w[60]? = some a ∧ pic.shown[p]? = some a := by
  obtain ⟨im, i1, i2, i3⟩ := squaresOf_init x y t
  have hle := eventsRead_le f.fNEvents m
  obtain ⟨pics, p1, p2, p3⟩ := showWaveforms_ok f.fNSamples 60 f.fNPixels hs
    ((List.range (eventsRead f.fNEvents m)).map fun i : Nat => ({ iev := (i : Int), raw := f.samples i } : TioEvent (List (List ℚ))))
    (by
      intro e he
      obtain ⟨i, hi, rfl⟩ := List.mem_map.1 he
      exact hf i (by have := List.mem_range.1 hi; omega)) im (by rw [i2, List.length_map, hpix])
  refine ⟨pics, ?_, by rw [p2]; simp, fun k pic hk => ?_⟩
  · unfold plotFromTio
    rw [if_neg hmod, show (f.fNModules == 1) = decide (f.fNModules = 1) from rfl, ht]
    simp only [squaresOfMapping_clp, i1, squaresArrow_clp, tio_iter, p1]
  · have hkl : k < eventsRead f.fNEvents m := by
      have := (List.getElem?_eq_some_iff.1 hk).1
      rw [p2] at this
      simpa using this
    obtain ⟨a, b, c⟩ := p3 k pic { iev := (k : Int), raw := f.samples k } hk (by simp [hkl])
    refine ⟨?_, b, fun p hp => ?_⟩
    · unfold SquaresOf
      rw [a]
      exact i3
    · have hl := (hf k (by omega)).1
      have hw : (f.samples k)[p]? = some ((f.samples k)[p]'(by omega)) := List.getElem?_eq_getElem (by omega)
      obtain ⟨v, v1, v2⟩ := c p _ hw
      exact ⟨_, v, hw, v1, v2⟩

/-- **C186**, short waveforms: with at most 60 samples the first event is an `IndexError`; nothing is shown but the arrow -/
theorem C186_short (config : String → Bool → Except Err (TcMapping ρ ℚ)) (x y : ρ → ℚ) (f : TioRun) (m : Option Nat) (t : TcMapping ρ ℚ)
    (hmod : f.fNModules ≠ 0) (ht : config f.fCameraVersion (decide (f.fNModules = 1)) = .ok t) (hs : f.fNSamples ≤ 60) (hev : 0 < f.fNEvents) :
    ∃ a, plotFromTio config x y f (m.map fun k : Nat => (k : Int)) = (⟨some a, []⟩, some .indexError) := by
  obtain ⟨im, i1, -, -⟩ := squaresOf_init x y t
  have hpos : 0 < eventsRead f.fNEvents m := by
    rcases m with _ | _ | m
    · exact hev
    · exact hev
    · simp only [eventsRead]; omega
  obtain ⟨k, hk⟩ : ∃ k, eventsRead f.fNEvents m = k + 1 := ⟨_, (Nat.succ_pred_eq_of_pos hpos).symm⟩
  refine ⟨((t.fOTUpXL, t.fOTUpYL), (t.fOTUpXU - t.fOTUpXL, t.fOTUpYU - t.fOTUpYL)), ?_⟩
  unfold plotFromTio
  rw [if_neg hmod, show (f.fNModules == 1) = decide (f.fNModules = 1) from rfl, ht]
  simp only [squaresOfMapping_clp, i1, squaresArrow_clp, tio_iter, hk, List.range_succ_eq_map, List.map_cons]
  unfold showWaveforms sampleColumn
  simp only [if_neg (show ¬ 60 < f.fNSamples by omega)]

/-- **C186**, another camera: a file whose number of pixels is not that of the mapping is refused at its first event -/
theorem C186_other_camera (config : String → Bool → Except Err (TcMapping ρ ℚ)) (x y : ρ → ℚ) (f : TioRun) (m : Option Nat) (t : TcMapping ρ ℚ) (hf : WellShaped f)
    (hmod : f.fNModules ≠ 0) (ht : config f.fCameraVersion (decide (f.fNModules = 1)) = .ok t) (hpix : t.pixels.length ≠ f.fNPixels) (hs : 60 < f.fNSamples)
    (hev : 0 < f.fNEvents) :
    ∃ a, plotFromTio config x y f (m.map fun k : Nat => (k : Int)) = (⟨some a, []⟩, some .assertionError) := by
  obtain ⟨im, i1, i2, -⟩ := squaresOf_init x y t
  have hpos : 0 < eventsRead f.fNEvents m := by
    rcases m with _ | _ | m
    · exact hev
    · exact hev
    · simp only [eventsRead]; omega
  obtain ⟨k, hk⟩ : ∃ k, eventsRead f.fNEvents m = k + 1 := ⟨_, (Nat.succ_pred_eq_of_pos hpos).symm⟩
  obtain ⟨h1, h2⟩ := hf 0 hev
  obtain ⟨v, v1, v2, -⟩ := sampleColumn_ok f.fNSamples 60 hs (f.samples 0) h2
  refine ⟨((t.fOTUpXL, t.fOTUpYL), (t.fOTUpXU - t.fOTUpXL, t.fOTUpYU - t.fOTUpYL)), ?_⟩
  unfold plotFromTio
  rw [if_neg hmod, show (f.fNModules == 1) = decide (f.fNModules = 1) from rfl, ht]
  simp only [squaresOfMapping_clp, i1, squaresArrow_clp, tio_iter, hk, List.range_succ_eq_map, List.map_cons]
  unfold showWaveforms
  have hset : im.setImage v = (im, some .assertionError) := by
    unfold PatchImage.setImage
    rw [if_pos (by rw [i2, v2, List.length_map]; exact fun e => hpix (by rw [← e]; exact h1))]
  simp only [Nat.cast_zero] at *
  simp only [v1, hset]

/-- **C186**, a camera TargetCalib does not know, and a file without modules: nothing is drawn -/
theorem C186_unknown (config : String → Bool → Except Err (TcMapping ρ ℚ)) (x y : ρ → ℚ) (f : TioRun) (m : Option Int) :
    (f.fNModules = 0 → plotFromTio config x y f m = (⟨none, []⟩, some .zeroDivision)) ∧
    ∀ e, f.fNModules ≠ 0 → config f.fCameraVersion (decide (f.fNModules = 1)) = .error e → plotFromTio config x y f m = (⟨none, []⟩, some e) := by
  refine ⟨fun h => by unfold plotFromTio; rw [if_pos h], fun e h he => ?_⟩
  unfold plotFromTio
  rw [if_neg h, show (f.fNModules == 1) = decide (f.fNModules = 1) from rfl, he]

theorem pattern_set (s : PatchImage) (n : Nat) (h : s.xpix.length = n) :
    ∃ s', s.setImage (everySecond n) = (s', none) ∧ s'.patches = s.patches ∧ s'.shown.length = n ∧
      ∀ (p : Nat) a, s'.shown[p]? = some a → (Even p → a = 1) ∧ (Odd p → a = 0) := by
  refine ⟨{ s with image := some (everySecond n), shown := everySecond n }, ?_, rfl, by simp [everySecond], fun p a ha => ?_⟩
  · unfold PatchImage.setImage
    rw [if_neg (by simp [everySecond, h])]
  · simp only [everySecond, List.getElem?_map, Option.map_eq_some_iff] at ha
    obtain ⟨i, hi, rfl⟩ := ha
    have : p = i := by
      rw [List.getElem?_eq_some_iff] at hi
      obtain ⟨_, hi⟩ := hi
      simpa using hi
    subst this
    refine ⟨fun h => if_pos (Nat.even_iff.1 h), fun h => if_neg (by rw [Nat.odd_iff.1 h]; decide)⟩

/-- **C186**, the pattern of the examples: with `n` values for the `n` pixels of the mapping every pixel of even number shows 1, every other one 0, at the positions of the mapping; with another
number of values the image is refused -/
theorem C186_pattern (config : String → Bool → Except Err (TcMapping ρ ℚ)) (x y : ρ → ℚ) (version : String) (single : Bool) (n : Nat) (t : TcMapping ρ ℚ)
    (ht : config version single = .ok t) :
    (t.pixels.length = n → ∃ s, plotFromCameraVersion config x y version single n = .ok s ∧ SquaresOf x y t s ∧ s.shown.length = n ∧
      (∀ (p : Nat) a, s.shown[p]? = some a → (Even p → a = 1) ∧ (Odd p → a = 0)) ∧ (t.nPixels = n → plotFromTcMapping x y t = .ok s)) ∧
    (t.pixels.length ≠ n → plotFromCameraVersion config x y version single n = .error .assertionError ∧
      (t.nPixels = n → plotFromTcMapping x y t = .error .assertionError)) := by
  obtain ⟨im, i1, i2, i3⟩ := squaresOf_init x y t
  have e1 : squaresFromTc x y t = .ok im := by unfold squaresFromTc; rw [squaresOfMapping_clp]; exact i1
  have e2 : squaresFromVersion config x y version single = .ok im := by unfold squaresFromVersion; rw [ht]; exact e1
  constructor
  · intro h
    obtain ⟨s', s1, s2, s3, s4⟩ := pattern_set im n (by rw [i2, List.length_map, h])
    refine ⟨s', ?_, ?_, s3, s4, fun hn => ?_⟩
    · unfold plotFromCameraVersion
      rw [e2]
      simp only [bind, Except.bind, s1]
    · unfold SquaresOf
      rw [s2]
      exact i3
    · unfold plotFromTcMapping
      rw [e1, hn]
      simp only [bind, Except.bind, s1]
  · intro h
    have hset : im.setImage (everySecond n) = (im, some .assertionError) := by
      unfold PatchImage.setImage
      rw [if_pos (by simp only [everySecond, i2, List.length_map, List.length_range]; omega)]
    refine ⟨?_, fun hn => ?_⟩
    · unfold plotFromCameraVersion
      rw [e2]
      simp only [bind, Except.bind, hset]
    · unfold plotFromTcMapping
      rw [e1, hn]
      simp only [bind, Except.bind, hset]

/-- a camera of two pixels -/
def twoPixelCamera : TcMapping (ℚ × ℚ) ℚ :=
  ⟨[(1, 2), (3, 4)], "cfg", true, 2, 1, 2, 1, 1, 2, 1 / 2, 0, 0, 0, 0, 5, 6, 7, 9⟩

example : ∃ images, plotFromTio (fun v _ => if v = "1.1.0" then .ok twoPixelCamera else .error .runtimeError) Prod.fst Prod.snd
      ⟨12, 2, 1, 64, "1.1.0", fun i => [List.replicate 64 (i : ℚ), List.replicate 64 (2 * i : ℚ)]⟩ (some 10) =
        (⟨some ((5, 7), (6 - 5, 9 - 7)), images⟩, none) ∧ images.length = 10 := by
  obtain ⟨images, h1, h2, -⟩ := C186_images (fun v _ => if v = "1.1.0" then .ok twoPixelCamera else .error .runtimeError) Prod.fst Prod.snd
      ⟨12, 2, 1, 64, "1.1.0", fun i => [List.replicate 64 (i : ℚ), List.replicate 64 (2 * i : ℚ)]⟩ (some 10) twoPixelCamera
      (by intro i _; simp) (by simp) (by simp) rfl (by simp)
  exact ⟨images, h1, h2⟩

/-- a file of short waveforms from that camera -/
example : ∃ a, plotFromTio (fun _ _ => .ok twoPixelCamera) Prod.fst Prod.snd ⟨3, 2, 1, 60, "1.1.0", fun _ => [List.replicate 60 1, List.replicate 60 2]⟩ none =
    (⟨some a, []⟩, some .indexError) :=
  C186_short (fun _ _ => .ok twoPixelCamera) Prod.fst Prod.snd ⟨3, 2, 1, 60, "1.1.0", fun _ => [List.replicate 60 1, List.replicate 60 2]⟩ none twoPixelCamera
    (by simp) rfl (by simp) (by simp)

/-- a file of three pixels -/
example : ∃ a, plotFromTio (fun _ _ => .ok twoPixelCamera) Prod.fst Prod.snd ⟨3, 3, 1, 64, "1.1.0", fun _ => List.replicate 3 (List.replicate 64 1)⟩ (some 10) =
    (⟨some a, []⟩, some .assertionError) :=
  C186_other_camera (fun _ _ => .ok twoPixelCamera) Prod.fst Prod.snd ⟨3, 3, 1, 64, "1.1.0", fun _ => List.replicate 3 (List.replicate 64 1)⟩ (some 10) twoPixelCamera
    (by intro i _; simp) (by simp) rfl (by decide) (by simp) (by simp)

/-- an unknown version -/
example : plotFromTio (fun v _ => if v = "1.1.0" then .ok twoPixelCamera else .error .runtimeError) Prod.fst Prod.snd
    ⟨3, 2, 1, 64, "9", fun _ => List.replicate 2 (List.replicate 64 1)⟩ (some 10) = (⟨none, []⟩, some .runtimeError) :=
  (C186_unknown _ Prod.fst Prod.snd ⟨3, 2, 1, 64, "9", fun _ => List.replicate 2 (List.replicate 64 1)⟩ (some 10)).2 _ (by simp) (by simp)

/-- the two pixels in the two cells of one row -/
example : ∃ s s', gridFromVersion (fun _ _ => .ok twoPixelCamera) (fun _ => ((0 : Nat) : Int)) (fun m => ((if m.1 = 1 then 1 else 0 : Nat) : Int)) "1.1.0" true = .ok s ∧
    s.setImage [5, 6] = (s', none) ∧ s'.data 0 1 = some 5 ∧ s'.data 0 0 = some 6 := by
  obtain ⟨s, s', h1, h2, h3⟩ := C186_grid (fun _ _ => .ok twoPixelCamera) (fun _ => 0) (fun m => if m.1 = 1 then 1 else 0) "1.1.0" true twoPixelCamera rfl
    (by intro m hm; simp only [twoPixelCamera, List.mem_cons, List.not_mem_nil, or_false] at hm ⊢; rcases hm with rfl | rfl <;> norm_num)
    (by simp [twoPixelCamera]) [5, 6] rfl
  have a := h3 0 (1, 2) 5 rfl rfl
  have b := h3 1 (3, 4) 6 rfl rfl
  norm_num at a b
  exact ⟨s, s', h1, h2, a, b⟩

example : ∃ s, plotFromCameraVersion (fun _ _ => .ok twoPixelCamera) Prod.fst Prod.snd "1.1.0" true 2 = .ok s ∧ s.shown.length = 2 :=
  let ⟨s, h, _, h', _⟩ := (C186_pattern (fun _ _ => .ok twoPixelCamera) Prod.fst Prod.snd "1.1.0" true 2 twoPixelCamera rfl).1 rfl
  ⟨s, h, h'⟩

end Verif.Props
