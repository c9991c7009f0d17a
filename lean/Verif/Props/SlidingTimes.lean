import Verif.Model.SlidingTimes
import Verif.Props.CrossCorr

/-! # C123: charge and time of a sliding window belong to the same samples -/

namespace Verif.Props

open Verif.Py Verif.Model Verif.Spec

variable {τ : Type}

/-- charge and time of a pixel are both taken from the window that starts at sample `p` -/
def FromWindow (time : List ℚ → Nat → Nat → τ) (size : Nat) (row : List ℚ) (p : Nat) (charge : ℚ) (t : τ) : Prop :=
  charge = windowSum row p size ∧ t = time row p size

/-- C123: with the common window, charges and times of all pixels come from one window, the first with the largest sum over the camera. -/
theorem C123_common (time : List ℚ → Nat → Nat → τ) (n : Nat) (hn : 0 < n) (size : Nat) (hs : 0 < size) (ws : List (List ℚ)) (hw : Event n ws) :
    ∃ p qs ts, FirstMax n (cameraWindow ws size) p ∧ chargeSliding size ws = .ok qs ∧ timeSliding time size ws = .ok ts ∧
      qs.length = ws.length ∧ ts.length = ws.length ∧
      ∀ (i : Nat) r, ws[i]? = some r → ∃ q t, qs[i]? = some q ∧ ts[i]? = some t ∧ FromWindow time size r p q t := by
  obtain ⟨p, hp, h⟩ := slidingPrepare_firstMax n hn size hs ws hw
  obtain ⟨p', hp', hq⟩ := C56_charge n hn size hs ws hw
  obtain rfl : p' = p := by
    rcases Nat.lt_trichotomy p p' with hlt | he | hlt
    · exact absurd (hp'.2.2 p hlt) (not_lt.2 (hp.2.1 p' hp'.1))
    · exact he.symm
    · exact absurd (hp.2.2 p' hlt) (not_lt.2 (hp'.2.1 p hp.1))
  refine ⟨p', _, _, hp, hq, by unfold timeSliding; rw [h], by simp, by simp, fun i r hi => ⟨_, _, ?_, ?_, rfl, rfl⟩⟩
  · simp [hi]
  · simp [hi]

/-- C123: with windows of its own, charge and time of a pixel come from the same window, the first with the largest sum of that pixel. -/
theorem C123_local (time : List ℚ → Nat → Nat → τ) (n : Nat) (hn : 0 < n) (size : Nat) (hs : 0 < size) (ws : List (List ℚ)) (hw : Event n ws) :
    ∃ qs ts, chargeSlidingLocal size ws = .ok qs ∧ timeSlidingLocal time size ws = .ok ts ∧ qs.length = ws.length ∧ ts.length = ws.length ∧
      ∀ (i : Nat) r, ws[i]? = some r → ∃ p q t, FirstMax n (fun a => windowSum r a size) p ∧ qs[i]? = some q ∧ ts[i]? = some t ∧
        FromWindow time size r p q t := by
  obtain ⟨qs, hqs, hql, hq⟩ := C56_local n hn size hs ws hw
  obtain ⟨c, ps, hc, hps, hl, hg⟩ := slidingRows_firstMax n hn size hs ws hw.2
  refine ⟨qs, List.zipWith (fun r p => time r p size) ws ps, hqs, by unfold timeSlidingLocal; rw [hc]; simp only [hps], hql, by simp [hl], fun i r hi => ?_⟩
  obtain ⟨p, hp, hx⟩ := hq i r hi
  obtain ⟨p', hp', hm⟩ := hg i r hi
  obtain rfl : p' = p := by
    rcases Nat.lt_trichotomy p p' with hlt | he | hlt
    · exact absurd (hm.2.2 p hlt) (not_lt.2 (hp.2.1 p' hm.1))
    · exact he.symm
    · exact absurd (hp.2.2 p' hlt) (not_lt.2 (hm.2.1 p hp.1))
  exact ⟨p', _, _, hp, hx, by rw [List.getElem?_zipWith, hi, hp'], rfl, rfl⟩

/-- C123: with windows from the neighbours, charge and time of a pixel come from the same window of that pixel, the first with the largest sum in the
average of its neighbours. -/
theorem C123_neighbour (time : List ℚ → Nat → Nat → τ) (n : Nat) (hn : 0 < n) (size : Nat) (hs : 0 < size) (avg : List (List ℚ) → List (List ℚ))
    (ws : List (List ℚ)) (havg : Event n (avg ws) ∧ (avg ws).length = ws.length) :
    ∃ qs ts, chargeSlidingNn avg size ws = .ok qs ∧ timeSlidingNn time avg size ws = .ok ts ∧ qs.length = ws.length ∧ ts.length = ws.length ∧
      ∀ (i : Nat) r a, ws[i]? = some r → (avg ws)[i]? = some a → ∃ p q t, FirstMax n (fun s => windowSum a s size) p ∧ qs[i]? = some q ∧
        ts[i]? = some t ∧ FromWindow time size r p q t := by
  obtain ⟨qs, hqs, hql, hq⟩ := C56_neighbour n hn size hs avg ws havg
  obtain ⟨c, ps, hc, hps, hl, hg⟩ := slidingRows_firstMax n hn size hs (avg ws) havg.1.2
  refine ⟨qs, List.zipWith (fun r p => time r p size) ws ps, hqs, by unfold timeSlidingNn; rw [hc]; simp only [hps], hql, by simp [hl, havg.2], fun i r a hi ha => ?_⟩
  obtain ⟨p, hp, hx⟩ := hq i r a hi ha
  obtain ⟨p', hp', hm⟩ := hg i a ha
  obtain rfl : p' = p := by
    rcases Nat.lt_trichotomy p p' with hlt | he | hlt
    · exact absurd (hm.2.2 p hlt) (not_lt.2 (hp.2.1 p' hm.1))
    · exact he.symm
    · exact absurd (hp.2.2 p' hlt) (not_lt.2 (hm.2.1 p hp.1))
  exact ⟨p', _, _, hp, hx, by rw [List.getElem?_zipWith, hi, hp'], rfl, rfl⟩

/-- C123: a window without samples is refused by all three, as for the charges. -/
theorem C123_empty (time : List ℚ → Nat → Nat → τ) (r : List ℚ) (rs : List (List ℚ)) :
    timeSliding time 0 (r :: rs) = .error .runtimeError ∧ timeSlidingLocal time 0 (r :: rs) = .error .runtimeError ∧
    ∀ avg : List (List ℚ) → List (List ℚ), avg (r :: rs) ≠ [] → timeSlidingNn time avg 0 (r :: rs) = .error .runtimeError := by
  refine ⟨rfl, rfl, fun avg h => ?_⟩
  unfold timeSlidingNn
  cases ha : avg (r :: rs) with
  | nil => exact absurd ha h
  | cons a as => rfl

/-- two pixels; the time of a window is its first sample plus its width -/
example : Event 5 [[0, 1, 3, 2, 0], [4, 0, 1, 1, 0]] ∧
    timeSliding (fun _ p w => p + w) 2 [[0, 1, 3, 2, 0], [4, 0, 1, 1, 0]] = .ok [4, 4] ∧
    timeSlidingLocal (fun _ p w => p + w) 2 [[0, 1, 3, 2, 0], [4, 0, 1, 1, 0]] = .ok [4, 2] ∧
    timeSlidingNn (fun _ p w => p + w) List.reverse 2 [[0, 1, 3, 2, 0], [4, 0, 1, 1, 0]] = .ok [2, 4] :=
  ⟨⟨by simp, by simp⟩, by decide +kernel, by decide +kernel, by decide +kernel⟩

end Verif.Props
