import Verif.Model.MatcherFile
import Verif.Props.Matcher
import Verif.Props.WaveformReader
import Verif.Props.Waveform

/-! # C109: amplitude matching from raw files -/

namespace Verif.Props

open Verif.Py Verif.Model Verif.Spec Verif.Lemmas

/-- `m` is the largest sample of a waveform -/
def PeakOf (w : List ℚ) (m : ℚ) : Prop := m ∈ w ∧ ∀ y ∈ w, y ≤ m

theorem PeakOf.unique {w : List ℚ} {m m' : ℚ} (h : PeakOf w m) (h' : PeakOf w m') : m = m' :=
  le_antisymm (h'.2 m h.1) (h.2 m' h'.1)

/-- the calibrated samples of event `i` of a file: the calibration is given the raw samples, and the first cell of the event for each pixel -/
def calibratedEvent (cal : TioCalibrator) (file : TioFile) (i : Nat) : List (List ℚ) :=
  cal.applyEvent (file.event i).1 (List.replicate cal.nPixels ((file.event i).2 % 65536).toNat)

/-- an amplitude of pixel `p` without the illumination profile -/
def corrected : Option (List ℚ) → Nat → ℚ → ℚ
  | none, _, x => x
  | some c, p, x => x / c.getD p 0

/-- every event read is calibrated to a row of samples for each pixel of the file -/
def Calibrates (cal : TioCalibrator) (file : TioFile) : Prop :=
  ∀ i < min 100 file.nEvents, (calibratedEvent cal file i).length = file.nPixels ∧ ∀ w ∈ calibratedEvent cal file i, w ≠ []

theorem wfRowMax_peak (w : List ℚ) (h : w ≠ []) : ∃ m, wfRowMax w = some m ∧ PeakOf w m := by
  cases w with
  | nil => exact absurd rfl h
  | cons x xs =>
    refine ⟨_, rfl, ?_, ?_⟩
    · rcases foldl_max_mem xs x with h | h
      · rw [h]; simp
      · exact List.mem_cons_of_mem _ h
    · intro y hy
      have := foldl_max_ge xs x
      rcases List.mem_cons.1 hy with rfl | hy
      · exact this.1
      · exact this.2 y hy

theorem rowPeaks_ok (ws : List (List ℚ)) (h : ∀ w ∈ ws, w ≠ []) :
    ∃ ms, rowPeaks ws = .ok ms ∧ ms.length = ws.length ∧ ∀ (p : Nat) w, ws[p]? = some w → ∃ m, PeakOf w m ∧ ms[p]? = some m := by
  induction ws with
  | nil => exact ⟨[], rfl, rfl, by simp⟩
  | cons w ws ih =>
    obtain ⟨ms, h1, h2, h3⟩ := ih fun w hw => h w (by simp [hw])
    obtain ⟨m, g1, g2⟩ := wfRowMax_peak w (h w (by simp))
    refine ⟨m :: ms, ?_, by simp [h2], ?_⟩
    · unfold rowPeaks
      rw [g1, h1]
    · intro p w' hp
      cases p with
      | zero =>
        simp only [List.getElem?_cons_zero, Option.some.injEq] at hp
        subst hp
        exact ⟨m, g2, rfl⟩
      | succ p => exact h3 p w' (by simpa using hp)

theorem fullUint16_scalar (n : Nat) (fci : Int) : fullUint16 n [fci] = .ok (List.replicate n (fci % 65536).toNat) := by
  unfold fullUint16
  by_cases h : ([fci] : List Int).length = n
  · rw [if_pos h, ← h]
    rfl
  · rw [if_neg h]

theorem extractAmplitude_ok (cal : TioCalibrator) (profile : Option (List ℚ)) (file : TioFile) (i : Nat) (iev : Int)
    (h1 : (calibratedEvent cal file i).length = file.nPixels) (h2 : ∀ w ∈ calibratedEvent cal file i, w ≠ [])
    (hp : ∀ c, profile = some c → c.length = file.nPixels) :
    ∃ row, extractAmplitude cal profile (newWaveform (.plain (file.event i).1) (tioAttrs iev (file.event i).2)) (file.event i).2 = .ok row ∧
      row.length = file.nPixels ∧ ∀ (p : Nat) w, (calibratedEvent cal file i)[p]? = some w → ∃ m, PeakOf w m ∧
        row[p]? = some (corrected profile p m) := by
  obtain ⟨ms, g1, g2, g3⟩ := rowPeaks_ok _ h2
  have hr : extractAmplitude cal profile (newWaveform (.plain (file.event i).1) (tioAttrs iev (file.event i).2)) (file.event i).2 =
      match (generalizing := false) profile with
      | none => .ok ms
      | some c => unfoldProfile c ms := by
    unfold extractAmplitude calibrateWaveform
    rw [fullUint16_scalar]
    simp only [newWaveform, ndUnary, setR1, NdArray.data]
    unfold calibratedEvent at g1
    rw [g1]
    cases profile <;> rfl
  rw [hr]
  cases profile with
  | none =>
    refine ⟨ms, rfl, by rw [g2, h1], ?_⟩
    intro p w hw
    exact g3 p w hw
  | some c =>
    have hc := hp c rfl
    refine ⟨ms.zipWith (· / ·) c, ?_, by simp [g2, h1, hc], ?_⟩
    · unfold unfoldProfile npBinary
      simp only
      rw [if_pos (by rw [g2, h1, hc])]
    · intro p w hw
      obtain ⟨m, e1, e2⟩ := g3 p w hw
      refine ⟨m, e1, ?_⟩
      have hlt : p < c.length := by
        have := (List.getElem?_eq_some_iff.1 hw).1
        omega
      rw [List.getElem?_zipWith, e2, List.getElem?_eq_getElem hlt]
      simp [corrected, List.getD_eq_getElem?_getD, hlt]

theorem amplitudeLoop_ok (cal : TioCalibrator) (profile : Option (List ℚ)) (file : TioFile) (g : Nat → List ℚ) (ks : List Nat) (array : List (List ℚ))
    (hk : ∀ k ∈ ks, k < array.length)
    (hg : ∀ k ∈ ks, extractAmplitude cal profile (newWaveform (.plain (file.event k).1) (tioAttrs k (file.event k).2)) (file.event k).2 = .ok (g k) ∧
      (g k).length = file.nPixels) :
    amplitudeLoop cal profile file.nPixels (ks.map fun (k : Nat) => (⟨(k : Int), file.event k⟩ : TioEvent (List (List ℚ) × Int))) array =
      .ok (ks.foldl (fun a k => a.set k (g k)) array) := by
  induction ks generalizing array with
  | nil => rfl
  | cons k ks ih =>
    rw [List.map_cons]
    unfold amplitudeLoop
    simp only
    rw [(hg k (by simp)).1, normIndex_nat _ k (hk k (by simp))]
    simp only
    unfold broadcastTo
    rw [if_pos (hg k (by simp)).2]
    simp only
    rw [ih (array.set k (g k)) (fun k' h' => by rw [List.length_set]; exact hk k' (by simp [h'])) fun k' h' => hg k' (by simp [h'])]
    rfl

theorem foldl_set_range (g : Nat → List ℚ) (n : Nat) (array : List (List ℚ)) (h : array.length = n) :
    (List.range n).foldl (fun a k => a.set k (g k)) array = (List.range n).map g := by
  have key : ∀ (ks : List Nat) (a : List (List ℚ)), (ks.foldl (fun a k => a.set k (g k)) a).length = a.length ∧
      ∀ i < a.length, (ks.foldl (fun a k => a.set k (g k)) a)[i]? = some (if i ∈ ks then g i else a.getD i []) := by
    intro ks
    induction ks with
    | nil => intro a; exact ⟨rfl, fun i hi => by simp [hi]⟩
    | cons k ks ih =>
      intro a
      obtain ⟨h1, h2⟩ := ih (a.set k (g k))
      refine ⟨by rw [List.foldl_cons, h1, List.length_set], fun i hi => ?_⟩
      rw [List.foldl_cons, h2 i (by simpa using hi)]
      by_cases e1 : i ∈ ks
      · simp [e1]
      · by_cases e2 : i = k
        · subst e2; simp [hi, List.getD_eq_getElem?_getD]
        · simp [e1, e2, List.getD_eq_getElem?_getD, Ne.symm e2]
  obtain ⟨h1, h2⟩ := key (List.range n) array
  apply List.ext_getElem?
  intro i
  by_cases hi : i < n
  · rw [h2 i (by omega)]
    simp [hi]
  · rw [List.getElem?_eq_none (by rw [h1]; omega), List.getElem?_eq_none (by simp; omega)]

theorem tio100 (n : Nat) : tioNEvents n (some 100) = (min 100 n : Nat) := by
  unfold tioNEvents
  simp only
  by_cases h : 100 < n
  · rw [if_pos ⟨by omega, by omega⟩]
    omega
  · rw [if_neg (by omega)]
    omega

theorem array_ok (cal : TioCalibrator) (profile : Option (List ℚ)) (file : TioFile) (h0 : file.isR1 = false) (g : Nat → List ℚ)
    (hg : ∀ k < min 100 file.nEvents, extractAmplitude cal profile (newWaveform (.plain (file.event k).1) (tioAttrs k (file.event k).2)) (file.event k).2 = .ok (g k) ∧
      (g k).length = file.nPixels) :
    extractAmplitudeArray cal profile file = .ok ((List.range (min 100 file.nEvents)).map g) := by
  unfold extractAmplitudeArray
  rw [h0]
  simp only [Bool.false_eq_true, if_false]
  have hn : (tioReader file.nEvents (some 100) file.event).nEvents = (min 100 file.nEvents : Nat) := tio100 _
  rw [C03_iter _ _ hn, hn]
  have := amplitudeLoop_ok cal profile file g (List.range (min 100 file.nEvents))
    (List.replicate (min 100 file.nEvents) (List.replicate file.nPixels 0)) (by simp) fun k hk => hg k (List.mem_range.1 hk)
  rw [foldl_set_range g _ _ (by simp)] at this
  exact this

/-- C109: the amplitudes used are, for each of the first 100 events and each pixel, the largest calibrated sample, divided by the illumination profile of the
pixel if there is one; the next DAC values follow from these amplitudes. -/
theorem C109_amplitudes (m : Matcher) (cal : TioCalibrator) (profile : Option (List ℚ)) (file : TioFile) (h0 : file.isR1 = false) (hc : Calibrates cal file)
    (hp : ∀ c, profile = some c → c.length = file.nPixels) :
    ∃ amplitude : List (List ℚ), amplitude.length = min 100 file.nEvents ∧
      (∀ i < min 100 file.nEvents, ∃ row, amplitude[i]? = some row ∧ row.length = file.nPixels ∧ ∀ (p : Nat) w, (calibratedEvent cal file i)[p]? = some w →
        ∃ peak, PeakOf w peak ∧ row[p]? = some (corrected profile p peak)) ∧
      processFile m cal profile file = process m file.nPixels amplitude := by
  have hrow : ∀ i : Nat, ∃ row, i < min 100 file.nEvents →
      extractAmplitude cal profile (newWaveform (.plain (file.event i).1) (tioAttrs i (file.event i).2)) (file.event i).2 = .ok row ∧
      row.length = file.nPixels ∧ ∀ (p : Nat) w, (calibratedEvent cal file i)[p]? = some w → ∃ m, PeakOf w m ∧
        row[p]? = some (corrected profile p m) := by
    intro i
    by_cases hi : i < min 100 file.nEvents
    · obtain ⟨row, h⟩ := extractAmplitude_ok cal profile file i i (hc i hi).1 (hc i hi).2 hp
      exact ⟨row, fun _ => h⟩
    · exact ⟨[], fun h => absurd h hi⟩
  choose g hg using hrow
  refine ⟨(List.range (min 100 file.nEvents)).map g, by simp, fun i hi => ⟨g i, by simp [hi], (hg i hi).2⟩, ?_⟩
  unfold processFile
  rw [array_ok cal profile file h0 g fun k hk => ⟨(hg k hk).1, (hg k hk).2.1⟩]

/-- C109: only the first 100 events matter. -/
theorem C109_prefix (m : Matcher) (cal : TioCalibrator) (profile : Option (List ℚ)) (file file' : TioFile) (h1 : file.isR1 = file'.isR1)
    (h2 : file.nPixels = file'.nPixels) (h3 : min 100 file.nEvents = min 100 file'.nEvents) (h4 : ∀ i < min 100 file.nEvents, file.event i = file'.event i) :
    processFile m cal profile file = processFile m cal profile file' := by
  have : extractAmplitudeArray cal profile file = extractAmplitudeArray cal profile file' := by
    unfold extractAmplitudeArray
    rw [h1, h2]
    have hn : (tioReader file.nEvents (some 100) file.event).nEvents = (min 100 file.nEvents : Nat) := tio100 _
    have hn' : (tioReader file'.nEvents (some 100) file'.event).nEvents = (min 100 file.nEvents : Nat) := by rw [h3]; exact tio100 _
    simp only
    rw [C03_iter _ _ hn, C03_iter _ _ hn', hn, hn']
    congr 2
    apply List.map_congr_left
    intro i hi
    unfold tioReader
    simp only
    rw [h4 i (by simpa using hi)]
  unfold processFile
  rw [this, h2]

theorem peak_scale (w : List ℚ) (c m : ℚ) (hc : 0 < c) (h : PeakOf (w.map (c * ·)) m) : PeakOf w (m / c) := by
  obtain ⟨h1, h2⟩ := h
  obtain ⟨x, hx, rfl⟩ := List.mem_map.1 h1
  have : c * x / c = x := by field_simp
  rw [this]
  refine ⟨hx, fun y hy => ?_⟩
  have := h2 (c * y) (List.mem_map.2 ⟨y, hy, rfl⟩)
  exact le_of_mul_le_mul_left this hc

/-- C109: an uneven illumination is taken out: if every waveform of a pixel is larger by the (positive) factor of the profile, matching with the profile
requests the same DAC values as matching the even waveforms without profile. -/
theorem C109_profile (m : Matcher) (cal cal' : TioCalibrator) (c : List ℚ) (file : TioFile) (h0 : file.isR1 = false) (hc : Calibrates cal file)
    (hc' : Calibrates cal' file) (hl : c.length = file.nPixels) (hpos : ∀ x ∈ c, 0 < x)
    (hs : ∀ i < min 100 file.nEvents, ∀ (p : Nat) w, (calibratedEvent cal' file i)[p]? = some w → (calibratedEvent cal file i)[p]? = some (w.map (c.getD p 0 * ·))) :
    processFile m cal (some c) file = processFile m cal' none file := by
  obtain ⟨a, a1, a2, a3⟩ := C109_amplitudes m cal (some c) file h0 hc (fun c' h => by injection h with h; rw [← h, hl])
  obtain ⟨b, b1, b2, b3⟩ := C109_amplitudes m cal' none file h0 hc' (fun c' h => by cases h)
  rw [a3, b3]
  congr 1
  apply List.ext_getElem?
  intro i
  by_cases hi : i < min 100 file.nEvents
  · obtain ⟨r, r1, r2, r3⟩ := a2 i hi
    obtain ⟨q, q1, q2, q3⟩ := b2 i hi
    rw [r1, q1]
    congr 1
    apply List.ext_getElem?
    intro p
    by_cases hp : p < file.nPixels
    · have hlt : p < (calibratedEvent cal' file i).length := by rw [(hc' i hi).1]; exact hp
      obtain ⟨m1, e1, e2⟩ := q3 p _ (List.getElem?_eq_getElem hlt)
      obtain ⟨m2, e3, e4⟩ := r3 p _ (hs i hi p _ (List.getElem?_eq_getElem hlt))
      rw [e2, e4]
      simp only [Option.some.injEq, corrected]
      have hp' : p < c.length := by omega
      have hpos' : 0 < c.getD p 0 := by
        rw [List.getD_eq_getElem?_getD, List.getElem?_eq_getElem hp']
        exact hpos _ (List.getElem_mem hp')
      exact (peak_scale _ _ _ hpos' e3).unique e1
    · rw [List.getElem?_eq_none (by omega), List.getElem?_eq_none (by omega)]
  · rw [List.getElem?_eq_none (by omega), List.getElem?_eq_none (by omega)]

/-- C109: a file that is not raw is refused with `IOError`; whenever the amplitudes cannot be extracted, the state of the matcher is as before. -/
theorem C109_errors (m : Matcher) (cal : TioCalibrator) (profile : Option (List ℚ)) (file : TioFile) :
    (file.isR1 = true → processFile m cal profile file = (m, .error .ioError)) ∧
    (∀ e, extractAmplitudeArray cal profile file = .error e → processFile m cal profile file = (m, .error e)) ∧
    (file.isR1 = false → 0 < file.nEvents → [] ∈ calibratedEvent cal file 0 → extractAmplitudeArray cal profile file = .error .valueError) := by
  refine ⟨fun h => ?_, fun e h => ?_, fun h0 hn h => ?_⟩
  · unfold processFile extractAmplitudeArray
    rw [h]
    rfl
  · unfold processFile
    rw [h]
  · have hrp : ∀ ws : List (List ℚ), [] ∈ ws → rowPeaks ws = .error .valueError := by
      intro ws
      induction ws with
      | nil => intro h; cases h
      | cons w ws ih =>
        intro h
        unfold rowPeaks
        cases w with
        | nil => rfl
        | cons x xs =>
          have := ih (by simpa using h)
          simp only [wfRowMax]
          rw [this]
    unfold extractAmplitudeArray
    rw [h0]
    have hn' : (tioReader file.nEvents (some 100) file.event).nEvents = (min 100 file.nEvents : Nat) := tio100 _
    simp only [Bool.false_eq_true, if_false]
    rw [C03_iter _ _ hn', hn']
    obtain ⟨k, hk⟩ : ∃ k, min 100 file.nEvents = k + 1 := ⟨min 100 file.nEvents - 1, by omega⟩
    rw [hk, List.range_succ_eq_map, List.map_cons]
    unfold amplitudeLoop extractAmplitude calibrateWaveform
    rw [fullUint16_scalar]
    simp only [tioReader, newWaveform, ndUnary, setR1, NdArray.data]
    unfold calibratedEvent at h
    rw [hrp _ h]

/-- a calibration that subtracts the first cell from the samples -/
def exCal : TioCalibrator := ⟨4, id, fun w cells => w.map fun r => r.map fun x => x - cells.headD 0⟩

/-- a raw file of two events and four pixels -/
def exRaw : TioFile := ⟨false, 4, 2, fun i => ([[1, 5], [7, 3], [4, 4], [2, 6 + i]], i)⟩

example : extractAmplitudeArray exCal none exRaw = .ok [[5, 7, 4, 6], [4, 6, 3, 6]] ∧
    extractAmplitudeArray exCal (some [1, 1, 1, 2]) exRaw = .ok [[5, 7, 4, 3], [4, 6, 3, 3]] := by decide +kernel

example : Calibrates exCal exRaw := by
  intro i hi
  refine ⟨rfl, fun w hw => ?_⟩
  simp [calibratedEvent, exCal, exRaw] at hw
  rcases hw with h | h | h | h <;> simp [h]

/-- even waveforms, and the same with the last pixel twice as bright -/
example (m : Matcher) : processFile m ⟨4, id, fun w _ => w.zipWith (fun r c => r.map (c * ·)) [1, 1, 1, 2]⟩ (some [1, 1, 1, 2]) exRaw =
    processFile m ⟨4, id, fun w _ => w⟩ none exRaw := by
  refine C109_profile m _ _ _ exRaw rfl ?_ ?_ rfl ?_ ?_
  · intro i hi
    refine ⟨rfl, fun w hw => ?_⟩
    simp [calibratedEvent, exRaw] at hw
    rcases hw with h | h | h | h <;> simp [h]
  · intro i hi
    refine ⟨rfl, fun w hw => ?_⟩
    simp [calibratedEvent, exRaw] at hw
    rcases hw with h | h | h | h <;> simp [h]
  · intro x hx
    simp at hx
    rcases hx with h | h <;> rw [h] <;> norm_num
  · intro i hi p w hw
    simp only [calibratedEvent, exRaw] at hw ⊢
    match p with
    | 0 => simp at hw; subst hw; simp
    | 1 => simp at hw; subst hw; simp
    | 2 => simp at hw; subst hw; simp
    | 3 => simp at hw; subst hw; simp
    | p + 4 => simp at hw

end Verif.Props
