import Verif.Model.FromReader
import Verif.Props.TioImages
import Verif.Props.Waveform

/-!
# C189: calibrating a raw file with the calibrator made from its reader
-/

namespace Verif.Props

open Verif.Py Verif.Model

variable {δ : Type}

theorem source_iter (f : TioSource δ) (m : Option Nat) :
    (tioReader f.nEvents (m.map fun k : Nat => (k : Int)) f.event).iter =
      (List.range (eventsRead f.nEvents m)).map fun i : Nat => ({ iev := (i : Int), raw := f.event i } : TioEvent (TioRawEvent δ)) := by
  have hn : (tioReader f.nEvents (m.map fun k : Nat => (k : Int)) f.event).nEvents = ((eventsRead f.nEvents m : Nat) : Int) := by
    show tioNEvents f.nEvents _ = _
    rcases m with _ | _ | m
    · rfl
    · exact (C03_max_events f.nEvents (some 0)).1 (.inr rfl)
    · rw [Option.map_some, (C03_max_events f.nEvents _).2 ((m + 1 : Nat) : Int) rfl (by omega)]
      simp only [eventsRead]
      omega
  rw [C03_iter _ _ hn]
  rfl

/-- **C189**, which pedestals are used: for every reader a calibrator is made, for the pixels and samples of the reader, with the serial number of the module in each slot, in the order of the
slots; there are as many as modules. Without serial numbers one file is used for all modules, with an empty list it is not. -/
theorem C189_serials (path : String) (f : TioSource δ) :
    (∃ c sns, calibratorFromReader path f = .ok c ∧ c.nPixels = f.nPixels ∧ c.nSamples = f.nSamples ∧ c.source = .perModule path sns ∧ sns.length = f.nModules ∧
      ∀ tm : Nat, tm < f.nModules → sns[tm]? = some (f.getSN tm)) ∧
    ∀ p s, (newWfCalibrator path p s none).source = .single path ∧ (newWfCalibrator path p s (some [])).source = .perModule path [] := by
  refine ⟨?_, fun p s => ⟨rfl, rfl⟩⟩
  have h : ((List.range f.nModules).mapM fun tm : Nat => tioModuleValue f.nModules f.getSN tm) = .ok ((List.range f.nModules).map fun tm : Nat => f.getSN tm) := by
    apply mapM_ok
    intro tm ht
    have := List.mem_range.1 ht
    unfold tioModuleValue
    rw [if_neg (by omega)]
  refine ⟨_, _, by unfold calibratorFromReader; rw [h]; rfl, rfl, rfl, rfl, by simp, fun tm ht => ?_⟩
  rw [List.getElem?_map, List.getElem?_range ht, Option.map_some]

theorem calibrateEvents_ok (targetCalib : CalibSource → δ → List Nat → δ) (toFloat32 : δ → δ) (c : WfCalibrator) (f : TioSource δ) (es : List (TioEvent (TioRawEvent δ)))
    (h : ∀ e ∈ es, 0 ≤ e.raw.firstCell ∧ e.raw.firstCell < 65536) :
    ∃ outs, calibrateEvents targetCalib toFloat32 c f es = .ok outs ∧ outs.length = es.length ∧
      ∀ (k : Nat) out e, outs[k]? = some out → es[k]? = some e → out.attrs = (sourceWaveform f e).attrs ∧
        out.data = targetCalib c.source e.raw.samples (List.replicate c.nPixels e.raw.firstCell.toNat) := by
  induction es with
  | nil => exact ⟨[], rfl, rfl, by simp⟩
  | cons e es ih =>
    obtain ⟨outs, h1, h2, h3⟩ := ih fun e' he => h e' (List.mem_cons_of_mem _ he)
    obtain ⟨hc0, hc1⟩ := h e (by simp)
    obtain ⟨out, o1, o2, o3⟩ := (C95_partial c.nPixels toFloat32 (targetCalib c.source) e.raw.samples
      ⟨some e.iev, some f.isR1, some e.raw.firstCell, some e.raw.stale, some e.raw.missingPackets, some e.raw.tTack, .pair e.raw.cpuS e.raw.cpuNs, none⟩ [] [e.raw.firstCell]).1
      e.raw.firstCell.toNat (by omega) (by rw [Int.toNat_of_nonneg hc0])
    refine ⟨out :: outs, ?_, by simp [h2], ?_⟩
    · unfold calibrateEvents
      rw [show sourceWaveform f e = .wf e.raw.samples _ [] from rfl, o1]
      simp only [h1]
    · intro k out' e' hk he
      cases k with
      | zero =>
        rw [List.getElem?_cons_zero] at hk he
        cases hk
        cases he
        exact ⟨o2, o3⟩
      | succ k =>
        rw [List.getElem?_cons_succ] at hk he
        exact h3 k out' e' hk he

/-- **C189**: calibrating a file with the calibrator made from its reader raises nothing and gives one result for each event read, in order: result `k` has the number, the times, the flags and the
first cell of event `k`, and the samples TargetCalib computes from the samples of event `k` with the pedestals of the modules of the file and that first cell for every pixel. -/
theorem C189_calibrated (targetCalib : CalibSource → δ → List Nat → δ) (toFloat32 : δ → δ) (path : String) (f : TioSource δ) (m : Option Nat)
    (hc : ∀ i : Nat, i < f.nEvents → 0 ≤ (f.event i).firstCell ∧ (f.event i).firstCell < 65536) :
    ∃ outs sns, calibrateFile targetCalib toFloat32 path f (m.map fun k : Nat => (k : Int)) = .ok outs ∧ outs.length = eventsRead f.nEvents m ∧
      sns.length = f.nModules ∧ (∀ tm : Nat, tm < f.nModules → sns[tm]? = some (f.getSN tm)) ∧
      ∀ (k : Nat) out, outs[k]? = some out →
        out.data = targetCalib (.perModule path sns) (f.event k).samples (List.replicate f.nPixels (f.event k).firstCell.toNat) ∧
        ∃ a, out.attrs = .ok a ∧ a.iev = some (k : Int) ∧ a.firstCellId = some (f.event k).firstCell ∧ a.stale = some (f.event k).stale ∧
          a.missingPackets = some (f.event k).missingPackets ∧ a.tTack = some (f.event k).tTack ∧ a.cpuTime = .pair (f.event k).cpuS (f.event k).cpuNs ∧ a.isR1 = some f.isR1 := by
  obtain ⟨⟨c, sns, c1, c2, -, c4, c5, c6⟩, -⟩ := C189_serials path f
  have hle := eventsRead_le f.nEvents m
  obtain ⟨outs, h1, h2, h3⟩ := calibrateEvents_ok targetCalib toFloat32 c f
    ((List.range (eventsRead f.nEvents m)).map fun i : Nat => ({ iev := (i : Int), raw := f.event i } : TioEvent (TioRawEvent δ)))
    (by
      intro e he
      obtain ⟨i, hi, rfl⟩ := List.mem_map.1 he
      exact hc i (by have := List.mem_range.1 hi; omega))
  refine ⟨outs, sns, ?_, by simpa using h2, c5, c6, fun k out hk => ?_⟩
  · unfold calibrateFile
    rw [c1]
    simp only [source_iter, h1]
  · have hkl : k < eventsRead f.nEvents m := by
      have := (List.getElem?_eq_some_iff.1 hk).1
      rw [h2] at this
      simpa using this
    obtain ⟨a, b⟩ := h3 k out { iev := (k : Int), raw := f.event k } hk (by simp [hkl])
    rw [c2, c4] at b
    exact ⟨b, _, a, rfl, rfl, rfl, rfl, rfl, rfl, rfl⟩

/-- **C189**, a file that is calibrated already: nothing asks for the level of the file, its samples are calibrated once more and no exception is raised. Both levels give the same samples. -/
theorem C189_twice (targetCalib : CalibSource → δ → List Nat → δ) (toFloat32 : δ → δ) (path : String) (f : TioSource δ) (m : Option Nat)
    (hc : ∀ i : Nat, i < f.nEvents → 0 ≤ (f.event i).firstCell ∧ (f.event i).firstCell < 65536) :
    ∃ outs outs', calibrateFile targetCalib toFloat32 path { f with isR1 := true } (m.map fun k : Nat => (k : Int)) = .ok outs ∧
      calibrateFile targetCalib toFloat32 path { f with isR1 := false } (m.map fun k : Nat => (k : Int)) = .ok outs' ∧ outs.map NdArray.data = outs'.map NdArray.data := by
  obtain ⟨outs, sns, h1, h2, h3, h4, h5⟩ := C189_calibrated targetCalib toFloat32 path { f with isR1 := true } m hc
  obtain ⟨outs', sns', g1, g2, g3, g4, g5⟩ := C189_calibrated targetCalib toFloat32 path { f with isR1 := false } m hc
  refine ⟨outs, outs', h1, g1, ?_⟩
  have hs : sns = sns' := by
    apply List.ext_getElem?
    intro i
    by_cases hi : i < f.nModules
    · rw [h4 i hi, g4 i hi]
    · rw [List.getElem?_eq_none (by simp only at h3; omega), List.getElem?_eq_none (by simp only at g3; omega)]
  apply List.ext_getElem (by simp [h2, g2])
  intro i i1 i2
  simp only [List.length_map] at i1 i2
  rw [List.getElem_map, List.getElem_map, (h5 i _ (List.getElem?_eq_getElem i1)).1, (g5 i _ (List.getElem?_eq_getElem i2)).1, hs]

/-- two modules of two pixels; the pedestal of the module with serial number `sn` is `sn` -/
def pedestalOf : CalibSource → List ℚ → List Nat → List ℚ
  | .single _, d, _ => d
  | .perModule _ sns, d, cells => (List.range d.length).map fun p => d.getD p 0 - sns.getD (p / 2) 0 - cells.getD p 0

/-- three events of four pixels -/
def twoModuleFile : TioSource (List ℚ) :=
  ⟨false, 3, 4, 2, 1, fun tm => 10 * (tm + 1), fun i => ⟨[100, 101, 102, 103], i, false, false, 5, 6, 7⟩⟩

example : (calibrateFile pedestalOf id "/ped" twoModuleFile (some 2)).toOption.map (List.map NdArray.data) = some [[90, 91, 82, 83], [89, 90, 81, 82]] := by decide +kernel

example : ∃ outs, ∃ sns : List Int, calibrateFile pedestalOf id "/ped" twoModuleFile (some 2) = .ok outs ∧ outs.length = 2 ∧ sns.length = 2 ∧ sns[1]? = some (20 : Int) := by
  obtain ⟨outs, sns, h1, h2, h3, h4, -⟩ := C189_calibrated pedestalOf id "/ped" twoModuleFile (some 2) (fun i hi => by
    have : i < 3 := hi
    simp only [twoModuleFile]
    omega)
  exact ⟨outs, sns, h1, h2, h3, h4 1 (by decide)⟩

end Verif.Props
