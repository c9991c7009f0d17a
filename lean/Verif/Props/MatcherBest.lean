import Verif.Props.Matcher
import Mathlib.Tactic.Linarith

/-!
# C137: the DAC value an amplitude matching ends with

The response of a superpixel is its average amplitude as a function of the DAC value. A higher DAC value means a lower bias voltage, so the response
does not increase. The theorems determine the table of a completed matching from the responses alone.
-/

namespace Verif.Props

open Verif.Py Verif.Model Verif.Spec Verif.Lemmas

/-- no allowed DAC value brings the response `f` closer to the aim than `d` -/
def Closest (aim : ℚ) (f : Int → ℚ) (d : Int) : Prop := ∀ d', 10 ≤ d' → d' ≤ 255 → |f d - aim| ≤ |f d' - aim|

/-- the response does not increase on the allowed DAC values -/
def Falling (f : Int → ℚ) : Prop := ∀ d d', 10 ≤ d → d ≤ d' → d' ≤ 255 → f d' ≤ f d

/-- where a superpixel with response `f` ends: at 255 if even the lowest DAC value stays below the aim, at a closest value otherwise -/
def Outcome (aim : ℚ) (f : Int → ℚ) (d : Int) : Prop := (f 10 < aim ∧ d = 255) ∨ (aim ≤ f 10 ∧ Closest aim f d)

/-- an unmasked superpixel between two calls of the second pass -/
def Searching (aim : ℚ) (f : Int → ℚ) (sp : Sp) : Prop :=
  Allowed sp.dac ∧ Allowed sp.prevDac ∧
  ((sp.stage = 2 ∧ sp.prevDist = distanceOf aim (f sp.prevDac) ∧ sp.dac = sp.prevDac + directionOf aim (f sp.prevDac)) ∨
    (sp.stage = 3 ∧ Outcome aim f sp.dac))

theorem distanceOf_lt (aim a b : ℚ) (haim : aim ≠ 0) (h : distanceOf aim a < distanceOf aim b) : |a - aim| < |b - aim| := by
  unfold distanceOf at h
  rw [sq_lt_sq, abs_div, abs_div] at h
  exact (div_lt_div_iff_of_pos_right (abs_pos.2 haim)).1 h

theorem direction_cases (aim a : ℚ) :
    (aim < a ∧ directionOf aim a = 1) ∨ (a < aim ∧ directionOf aim a = -1) ∨ (a = aim ∧ directionOf aim a = 0) := by
  unfold directionOf npSign
  rcases lt_trichotomy a aim with h | h | h
  · right; left
    rw [if_neg (by linarith), if_pos (by linarith)]
    exact ⟨h, rfl⟩
  · right; right
    rw [if_neg (by linarith), if_neg (by linarith)]
    exact ⟨h, rfl⟩
  · left
    rw [if_pos (by linarith)]
    exact ⟨h, rfl⟩

/-- turning back after a step of 1 that led away from the aim ends at the outcome -/
theorem turned_back (aim : ℚ) (f : Int → ℚ) (hf : Falling f) (p : Int) (hp : Allowed p) (hq : Allowed (p + directionOf aim (f p)))
    (h : |f p - aim| < |f (p + directionOf aim (f p)) - aim|) : Outcome aim f p := by
  obtain ⟨hp1, hp2⟩ := hp
  obtain ⟨hq1, hq2⟩ := hq
  have h10 := hf 10 p (by omega) hp1 hp2
  rcases direction_cases aim (f p) with ⟨h1, h2⟩ | ⟨h1, h2⟩ | ⟨h1, h2⟩ <;> rw [h2] at h hq1 hq2
  · refine Or.inr ⟨by linarith, fun d' a b => ?_⟩
    have hmono := hf p (p + 1) hp1 (by omega) hq2
    rw [abs_of_pos (by linarith : 0 < f p - aim)] at h ⊢
    by_cases hd : d' ≤ p
    · have := hf d' p a hd hp2
      exact le_trans (by linarith) (le_abs_self _)
    · have := hf (p + 1) d' hq1 (by omega) b
      by_cases hs : aim ≤ f (p + 1)
      · rw [abs_of_nonneg (by linarith)] at h; linarith
      · push Not at hs
        rw [abs_of_neg (by linarith)] at h
        rw [abs_of_neg (by linarith)]
        linarith
  · have hmono := hf (p + -1) p hq1 (by omega) hp2
    have h10' := hf 10 (p + -1) (by omega) hq1 hq2
    rw [abs_of_neg (by linarith : f p - aim < 0)] at h
    by_cases hs : f (p + -1) ≤ aim
    · rw [abs_of_nonpos (by linarith)] at h; linarith
    · push Not at hs
      rw [abs_of_pos (by linarith)] at h
      refine Or.inr ⟨by linarith, fun d' a b => ?_⟩
      rw [abs_of_neg (by linarith : f p - aim < 0)]
      by_cases hd : p ≤ d'
      · have := hf p d' hp1 hd b
        rw [abs_of_neg (by linarith)]
        linarith
      · have := hf d' (p + -1) a (by omega) hq2
        exact le_trans (by linarith) (le_abs_self _)
  · rw [Int.add_zero] at h
    exact absurd h (lt_irrefl _)

/-- one call in the second pass -/
theorem step_searching (aim : ℚ) (f : Int → ℚ) (haim : aim ≠ 0) (hf : Falling f) (it : Nat) (sp : Sp)
    (hd : Allowed sp.dac) (hs : (it = 0 ∧ sp.stage = 2) ∨ (it ≠ 0 ∧ Searching aim f sp)) :
    Searching aim f (stepSp it false (distanceOf aim (f sp.dac)) (directionOf aim (f sp.dac)) sp) := by
  have move : ∀ stage, sp.stage = 2 → stage = 2 →
      Searching aim f
        ⟨(if sp.dac + 1 * directionOf aim (f sp.dac) > 255 then ((255, 3) : Int × Nat)
          else if sp.dac + 1 * directionOf aim (f sp.dac) < 10 then (255, 3) else (sp.dac + 1 * directionOf aim (f sp.dac), stage)).1, sp.dac,
          distanceOf aim (f sp.dac),
          (if sp.dac + 1 * directionOf aim (f sp.dac) > 255 then ((255, 3) : Int × Nat)
          else if sp.dac + 1 * directionOf aim (f sp.dac) < 10 then (255, 3) else (sp.dac + 1 * directionOf aim (f sp.dac), stage)).2⟩ := by
    intro stage _ hstage
    obtain ⟨hd1, hd2⟩ := hd
    rw [one_mul]
    by_cases hhi : sp.dac + directionOf aim (f sp.dac) > 255
    · rw [if_pos hhi]
      rcases direction_cases aim (f sp.dac) with ⟨h1, h2⟩ | ⟨h1, h2⟩ | ⟨h1, h2⟩ <;> rw [h2] at hhi
      · have e : sp.dac = 255 := by omega
        rw [e] at h1
        refine ⟨⟨by simp, by simp⟩, ⟨hd1, hd2⟩, Or.inr ⟨rfl, Or.inr ⟨?_, fun d' a b => ?_⟩⟩⟩
        · have := hf 10 255 (by omega) (by omega) (by omega); linarith
        · have := hf d' 255 a b (by omega)
          simp only
          rw [abs_of_pos (by linarith), abs_of_pos (by linarith)]
          linarith
      · omega
      · omega
    · rw [if_neg hhi]
      by_cases hlo : sp.dac + directionOf aim (f sp.dac) < 10
      · rw [if_pos hlo]
        rcases direction_cases aim (f sp.dac) with ⟨h1, h2⟩ | ⟨h1, h2⟩ | ⟨h1, h2⟩ <;> rw [h2] at hlo
        · omega
        · have e : sp.dac = 10 := by omega
          rw [e] at h1
          exact ⟨⟨by simp, by simp⟩, ⟨hd1, hd2⟩, Or.inr ⟨rfl, Or.inl ⟨h1, rfl⟩⟩⟩
        · omega
      · rw [if_neg hlo]
        exact ⟨⟨by simp only; omega, by simp only; omega⟩, ⟨hd1, hd2⟩, Or.inl ⟨hstage, rfl, rfl⟩⟩
  have next : sp.stage = 2 → (if sp.stage = 0 then sp.dac + 10 * directionOf aim (f sp.dac)
      else if sp.stage = 1 then sp.dac + 5 * directionOf aim (f sp.dac)
      else if sp.stage = 2 then sp.dac + 1 * directionOf aim (f sp.dac) else sp.dac) = sp.dac + 1 * directionOf aim (f sp.dac) := by
    intro h
    rw [if_neg (by omega), if_neg (by omega), if_pos h]
  unfold stepSp nextDac
  simp only [Bool.false_eq_true, if_false]
  rcases hs with ⟨hit, h2⟩ | ⟨hit, h1, h2, ⟨h3, h4, h5⟩ | ⟨h3, h4⟩⟩
  · rw [if_neg (by omega), if_pos hit, if_neg (lt_irrefl _), next h2]
    exact move _ h2 h2
  · rw [if_neg (by omega), if_neg hit]
    by_cases hlt : sp.prevDist < distanceOf aim (f sp.dac)
    · rw [if_pos hlt]
      refine ⟨h2, h1, Or.inr ⟨by simp only; omega, ?_⟩⟩
      refine turned_back aim f hf sp.prevDac h2 (h5 ▸ h1) ?_
      rw [← h5]
      rw [h4] at hlt
      exact distanceOf_lt _ _ _ haim hlt
    · rw [if_neg hlt, next h3]
      exact move _ h3 h3
  · rw [if_pos h3]
    exact ⟨h1, h1, Or.inr ⟨h3, h4⟩⟩

theorem stepped_done (m : Matcher) (amp : List (List ℚ)) (h : (stepped m amp).globalStage ≠ (resetIfDue m).globalStage) :
    ∀ sp ∈ (stepped m amp).sps, sp.stage = 3 := by
  unfold stepped at h ⊢
  simp only at h ⊢
  split at h
  · rename_i hall
    rw [List.all_eq_true] at hall
    intro sp hsp
    simpa using hall sp hsp
  · exact absurd rfl h

/-- the state of the matching in the second pass and after it -/
def SecondPass (aim : ℚ) (resp : Nat → Int → ℚ) (m : Matcher) : Prop :=
  DacsAllowed m ∧ m.globalStage ≤ 3 ∧
  (2 ≤ m.globalStage → m.iteration ≠ 0 ∧ ∀ i sp, m.sps[i]? = some sp → m.mask.getD i false = false → Searching aim (resp i) sp) ∧
  (m.globalStage = 3 → ∀ sp ∈ m.sps, sp.stage = 3)

theorem second_pass_step (aim : ℚ) (resp : Nat → Int → ℚ) (haim : aim ≠ 0) (hf : ∀ i, Falling (resp i)) (m : Matcher) (n : Nat)
    (amp : List (List ℚ)) (ha : m.aim = aim) (hne : amp ≠ []) (hn : n % 4 = 0) (h1 : m.sps.length ≤ m.mask.length) (h2 : m.sps.length ≤ n / 4)
    (hresp : ∀ i sp, m.sps[i]? = some sp → spAverage amp i = resp i sp.dac) (h : SecondPass aim resp m) :
    SecondPass aim resp (process m n amp).1 := by
  obtain ⟨hall, hle, hsec, hfin⟩ := h
  have hall' := process_allowed m n amp hall
  obtain ⟨c1, c2, c3, c4, c5⟩ := resetIfDue_const m
  by_cases hg : m.globalStage = 3
  · have : process m n amp = (m, .ok (m.sps.map Sp.dac, true)) := by
      unfold process
      rw [if_neg (by omega)]
      simp only [c4 (by omega), if_pos hg]
    rw [this]
    exact ⟨hall, hle, hsec, hfin⟩
  · rw [process_steps m n amp hne hn hg h1 h2] at hall' ⊢
    simp only at hall' ⊢
    obtain ⟨-, g2, g3⟩ := stepped_global m amp
    have hr : (resetIfDue m).globalStage = 0 ∨ (resetIfDue m).globalStage = 2 := by
      by_cases h : m.globalStage = 1
      · exact Or.inr (c5 h).1
      · rw [c4 h]; omega
    refine ⟨hall', by omega, fun hge => ⟨by omega, ?_⟩, fun h3 => stepped_done m amp (by omega)⟩
    intro i sp hsp hmask
    rw [stepped_get] at hsp
    cases hs : m.sps[i]? with
    | none => rw [hs] at hsp; cases hsp
    | some sp0 =>
      rw [hs, Option.map_some, Option.some.injEq] at hsp
      have hmask' : (resetIfDue m).mask.getD i false = false := hmask
      have hd0 : (seen m sp0).dac = sp0.dac := by unfold seen; split <;> rfl
      have hal := hall sp0 (List.mem_of_getElem? hs)
      rw [← hsp]
      unfold stepAt
      rw [hmask', c2, ha, hresp i sp0 hs, ← hd0]
      refine step_searching aim (resp i) haim (hf i) _ _ (by rw [hd0]; exact hal.1) ?_
      by_cases h : m.globalStage = 1
      · refine Or.inl ⟨(c5 h).2, ?_⟩
        unfold seen
        rw [if_pos h]
      · have hm2 : 2 ≤ m.globalStage := by rw [c4 h] at hr g2; omega
        obtain ⟨s1, s2⟩ := hsec hm2
        refine Or.inr ⟨by rw [c4 h]; exact s1, ?_⟩
        have : seen m sp0 = sp0 := by unfold seen; rw [if_neg h]
        rw [this]
        exact s2 i sp0 hs (by rw [← c1]; exact hmask')

/-- the outcome of every unmasked superpixel when completion is reported -/
theorem C137_outcome (nPixels : Nat) (aim : ℚ) (starting : Option (List Int)) (badHv : Option (List Bool)) (amp : Nat → List (List ℚ))
    (st : Nat → Matcher) (resp : Nat → Int → ℚ) (h0 : st 0 = newMatcher nPixels aim starting badHv)
    (hst : ∀ k, st (k + 1) = (process (st k) nPixels (amp k)).1) (hne : ∀ k, amp k ≠ []) (hpix : nPixels % 4 = 0)
    (hstart : ∀ dacs, starting = some dacs → dacs.length = nPixels / 4 ∧ ∀ d ∈ dacs, 10 ≤ d ∧ d ≤ 255)
    (hmask : ∀ bad, badHv = some bad → nPixels / 4 ≤ bad.length)
    (hresp : ∀ k i sp, (st k).sps[i]? = some sp → MeanAmplitude (amp k) i (resp i sp.dac)) (haim : aim ≠ 0)
    (hfall : ∀ i d d', 10 ≤ d → d ≤ d' → d' ≤ 255 → resp i d' ≤ resp i d)
    (k : Nat) (dacs : List Int) (h : (process (st k) nPixels (amp k)).2 = .ok (dacs, true))
    (i : Nat) (hi : i < nPixels / 4) (hgood : ∀ bad, badHv = some bad → bad[i]? ≠ some true) :
    ∃ d, dacs[i]? = some d ∧ 10 ≤ d ∧ d ≤ 255 ∧ Outcome aim (resp i) d := by
  replace hresp := fun k i sp h => (spAverage_mean _ (hne k) _ _).2 (hresp k i sp h)
  have hlen0 : (st 0).sps.length = nPixels / 4 := by
    rw [h0]
    cases starting with
    | none => simp [newMatcher]
    | some dacs => simp [newMatcher, (hstart dacs rfl).1]
  have hmask0 : nPixels / 4 ≤ (st 0).mask.length := by
    rw [h0]
    cases badHv with
    | none => simp [newMatcher, matcherMask]
    | some bad => exact hmask bad rfl
  have hgood0 : (st 0).mask.getD i false = false := by
    rw [h0, List.getD_eq_getElem?_getD]
    cases badHv with
    | none => simp [newMatcher, matcherMask, List.getElem?_replicate, hi]
    | some bad =>
      have := hgood bad rfl
      simp only [newMatcher, matcherMask]
      cases hb : bad[i]? with
      | none => rfl
      | some b =>
        cases b with
        | true => exact absurd hb this
        | false => rfl
  have hlen : ∀ k, (st k).sps.length = nPixels / 4 := by
    intro k
    induction k with
    | zero => exact hlen0
    | succ k ih => rw [hst, process_length, ih]
  have hconst : ∀ k, (st k).mask = (st 0).mask ∧ (st k).aim = aim := by
    intro k
    induction k with
    | zero => exact ⟨rfl, by rw [h0]; rfl⟩
    | succ k ih =>
      obtain ⟨c1, c2⟩ := process_const (st k) nPixels (amp k)
      rw [hst]
      exact ⟨by rw [c1, ih.1], by rw [c2, ih.2]⟩
  have hall0 : DacsAllowed (st 0) := by
    rw [h0]
    intro sp hsp
    obtain ⟨d, hd, rfl⟩ := List.mem_map.1 hsp
    have : Allowed d := by
      cases starting with
      | none => rw [Option.getD_none, List.mem_replicate] at hd; rw [hd.2]; unfold Allowed; omega
      | some l => exact (hstart l rfl).2 d hd
    exact ⟨this, this⟩
  have hinv : ∀ k, SecondPass aim resp (st k) := by
    intro k
    induction k with
    | zero =>
      have g0 : (st 0).globalStage = 0 := by rw [h0]; rfl
      exact ⟨hall0, by omega, fun h => by omega, fun h => by omega⟩
    | succ k ih =>
      rw [hst]
      exact second_pass_step aim resp haim (fun i => hfall i) (st k) nPixels (amp k) (hconst k).2 (hne k) hpix
        (by rw [hlen k, (hconst k).1]; exact hmask0) (hlen k).le (hresp k) ih
  rcases process_ok_inv _ _ _ _ h with ⟨hg, -, hr⟩ | ⟨-, -, hr⟩
  · injection hr with hr _
    obtain ⟨hal, -, hsec, hfin⟩ := hinv k
    have hi' : i < (st k).sps.length := by rw [hlen k]; exact hi
    have hs := List.getElem?_eq_getElem hi'
    have h3 := hfin hg _ (List.getElem_mem hi')
    have ha := (hal _ (List.getElem_mem hi')).1
    obtain ⟨-, -, ⟨q, -⟩ | ⟨-, q⟩⟩ := (hsec (by omega)).2 i _ hs (by rw [(hconst k).1]; exact hgood0)
    · omega
    · exact ⟨_, by rw [hr, List.getElem?_map, hs]; rfl, ha.1, ha.2, q⟩
  · injection hr with h1 h2; cases h2

/-- C137, what holds (missing: superpixels that stay below the aim at every DAC value): when completion is reported, the DAC value of every
unflagged superpixel which reaches the aim at the lowest DAC value brings its amplitude as close to the aim as any allowed DAC value does. The
response of the superpixel may be any function of its DAC value that does not increase, and the start any table of allowed values. -/
theorem C137_partial (nPixels : Nat) (aim : ℚ) (starting : Option (List Int)) (badHv : Option (List Bool)) (amp : Nat → List (List ℚ))
    (st : Nat → Matcher) (resp : Nat → Int → ℚ) (h0 : st 0 = newMatcher nPixels aim starting badHv)
    (hst : ∀ k, st (k + 1) = (process (st k) nPixels (amp k)).1) (hne : ∀ k, amp k ≠ []) (hpix : nPixels % 4 = 0)
    (hstart : ∀ dacs, starting = some dacs → dacs.length = nPixels / 4 ∧ ∀ d ∈ dacs, 10 ≤ d ∧ d ≤ 255)
    (hmask : ∀ bad, badHv = some bad → nPixels / 4 ≤ bad.length)
    (hresp : ∀ k i sp, (st k).sps[i]? = some sp → MeanAmplitude (amp k) i (resp i sp.dac)) (haim : aim ≠ 0)
    (hfall : ∀ i d d', 10 ≤ d → d ≤ d' → d' ≤ 255 → resp i d' ≤ resp i d)
    (k : Nat) (dacs : List Int) (h : (process (st k) nPixels (amp k)).2 = .ok (dacs, true))
    (i : Nat) (hi : i < nPixels / 4) (hgood : ∀ bad, badHv = some bad → bad[i]? ≠ some true) (hreach : aim ≤ resp i 10) :
    ∃ d, dacs[i]? = some d ∧ 10 ≤ d ∧ d ≤ 255 ∧ ∀ d', 10 ≤ d' → d' ≤ 255 → |resp i d - aim| ≤ |resp i d' - aim| := by
  obtain ⟨d, a, b, c, ⟨q, -⟩ | ⟨-, q⟩⟩ := C137_outcome nPixels aim starting badHv amp st resp h0 hst hne hpix hstart hmask hresp haim hfall k dacs h i hi hgood
  · exact absurd hreach (not_le.2 q)
  · exact ⟨d, a, b, c, q⟩

/-- C137: a superpixel that stays below the aim at every DAC value ends at 255, where its amplitude is lowest: no allowed value is further away
from the aim. -/
theorem C137_dim (nPixels : Nat) (aim : ℚ) (starting : Option (List Int)) (badHv : Option (List Bool)) (amp : Nat → List (List ℚ))
    (st : Nat → Matcher) (resp : Nat → Int → ℚ) (h0 : st 0 = newMatcher nPixels aim starting badHv)
    (hst : ∀ k, st (k + 1) = (process (st k) nPixels (amp k)).1) (hne : ∀ k, amp k ≠ []) (hpix : nPixels % 4 = 0)
    (hstart : ∀ dacs, starting = some dacs → dacs.length = nPixels / 4 ∧ ∀ d ∈ dacs, 10 ≤ d ∧ d ≤ 255)
    (hmask : ∀ bad, badHv = some bad → nPixels / 4 ≤ bad.length)
    (hresp : ∀ k i sp, (st k).sps[i]? = some sp → MeanAmplitude (amp k) i (resp i sp.dac)) (haim : aim ≠ 0)
    (hfall : ∀ i d d', 10 ≤ d → d ≤ d' → d' ≤ 255 → resp i d' ≤ resp i d)
    (k : Nat) (dacs : List Int) (h : (process (st k) nPixels (amp k)).2 = .ok (dacs, true))
    (i : Nat) (hi : i < nPixels / 4) (hgood : ∀ bad, badHv = some bad → bad[i]? ≠ some true) (hdim : resp i 10 < aim) :
    dacs[i]? = some 255 ∧ ∀ d', 10 ≤ d' → d' ≤ 255 → |resp i d' - aim| ≤ |resp i 255 - aim| := by
  obtain ⟨d, a, -, -, ⟨-, q⟩ | ⟨q, -⟩⟩ := C137_outcome nPixels aim starting badHv amp st resp h0 hst hne hpix hstart hmask hresp haim hfall k dacs h i hi hgood
  · refine ⟨by rw [a, q], fun d' b c => ?_⟩
    have e1 := hfall i 10 d' (by omega) b c
    have e2 := hfall i d' 255 b c (by omega)
    rw [abs_of_neg (by linarith), abs_of_neg (by linarith)]
    linarith
  · exact absurd hdim (not_lt.2 q)

/-- a camera in which no superpixel reaches the aim 5 -/
def dimResponse : Nat → Int → ℚ := fun _ d => 4 - d / 100

theorem dim_falling (i : Nat) (d d' : Int) (h : d ≤ d') : dimResponse i d' ≤ dimResponse i d := by
  have : (d : ℚ) ≤ d' := by exact_mod_cast h
  unfold dimResponse
  linarith

theorem dim_completes : ∃ k dacs, (process (loopState dimResponse (newMatcher 2048 5 none none) k) 2048
      (frame dimResponse (loopState dimResponse (newMatcher 2048 5 none none) k))).2 = .ok (dacs, true) := by
  have hlen : (newMatcher 2048 5 none none).sps.length = 512 := by simp [newMatcher, -List.reduceReplicate]
  refine C49_partial 2048 5 none none (fun k => frame dimResponse (loopState dimResponse (newMatcher 2048 5 none none) k))
    (loopState dimResponse (newMatcher 2048 5 none none)) dimResponse rfl
    (fun k => by simp only [loopState, hlen]) (fun k => by simp [frame]) (by norm_num) (fun _ h => by cases h) (fun _ h => by cases h)
    (fun k i sp h => mean_frame _ _ _ _ h) (by norm_num) ?_ ?_
  · intro _ d a _ h
    have : ((10 : Int) : ℚ) ≤ d := by exact_mod_cast a
    push_cast at this
    unfold dimResponse at h
    linarith
  · intro _ d d' a _ a' _ hne h
    have e : ((10 : Int) : ℚ) ≤ d := by exact_mod_cast a
    have e' : ((10 : Int) : ℚ) ≤ d' := by exact_mod_cast a'
    push_cast at e e'
    unfold dimResponse at h
    rw [abs_of_neg (by linarith), abs_of_neg (by linarith)] at h
    refine hne ?_
    have : (d : ℚ) = d' := by linarith
    exact_mod_cast this

/-- C137 is false: with a strictly decreasing response that stays below the aim, the matching completes with 255 for every superpixel, although
every other DAC value brings the amplitude closer to the aim. -/
theorem C137_false : ∃ (resp : Nat → Int → ℚ) (k : Nat) (dacs : List Int), (∀ i d d', d < d' → resp i d' < resp i d) ∧
    loopResult resp (newMatcher 2048 5 none none) k = .ok (dacs, true) ∧
    ∀ i < 512, dacs[i]? = some 255 ∧ ∀ d, 10 ≤ d → d < 255 → |resp i d - 5| < |resp i 255 - 5| := by
  obtain ⟨k, dacs, h⟩ := dim_completes
  have hlen : (newMatcher 2048 5 none none).sps.length = 512 := by simp [newMatcher, -List.reduceReplicate]
  refine ⟨dimResponse, k, dacs, ?_, ?_, fun i hi => ⟨?_, ?_⟩⟩
  · intro _ d d' hd
    have : (d : ℚ) < d' := by exact_mod_cast hd
    unfold dimResponse
    linarith
  · unfold loopResult
    rw [hlen]
    exact h
  · refine (C137_dim 2048 5 none none (fun k => frame dimResponse (loopState dimResponse (newMatcher 2048 5 none none) k))
      (loopState dimResponse (newMatcher 2048 5 none none)) dimResponse rfl
      (fun k => by simp only [loopState, hlen]) (fun k => by simp [frame]) (by norm_num) (fun _ h => by cases h) (fun _ h => by cases h)
      (fun k i sp h => mean_frame _ _ _ _ h) (by norm_num) (fun i d d' _ h _ => dim_falling i d d' h) k dacs h i (by omega)
      (fun _ h => by cases h) (by norm_num [dimResponse])).1
  · intro d a b
    have e : ((10 : Int) : ℚ) ≤ d := by exact_mod_cast a
    have e' : (d : ℚ) < ((255 : Int) : ℚ) := by exact_mod_cast b
    push_cast at e e'
    unfold dimResponse
    push_cast
    rw [abs_of_neg (by linarith), abs_of_neg (by linarith)]
    linarith

/-- the case for `C137_partial`: with the linear response, which lies 1/20 above the aim at DAC 105, the matching completes with 105 -/
example : ∃ k dacs, loopResult linearResponse (newMatcher 2048 5 none none) k = .ok (dacs, true) ∧ ∀ i < 512, dacs[i]? = some 105 := by
  have hlen : (newMatcher 2048 5 none none).sps.length = 512 := by simp [newMatcher, -List.reduceReplicate]
  obtain ⟨k, dacs, h⟩ := linear_completes none fun _ h => by cases h
  refine ⟨k, dacs, h, fun i hi => ?_⟩
  unfold loopResult at h
  rw [hlen] at h
  obtain ⟨d, a, -, -, hb⟩ := C137_partial 2048 5 none none (fun k => frame linearResponse (loopState linearResponse (newMatcher 2048 5 none none) k))
      (loopState linearResponse (newMatcher 2048 5 none none)) linearResponse rfl
      (fun k => by simp only [loopState, hlen]) (fun k => by simp [frame]) (by norm_num) (fun _ h => by cases h) (fun _ h => by cases h)
      (fun k i sp h => mean_frame _ _ _ _ h) (by norm_num) (fun i d d' _ h _ => by
        have : (d : ℚ) ≤ d' := by exact_mod_cast h
        unfold linearResponse
        linarith) k dacs h i (by omega) (fun _ h => by cases h) (by norm_num [linearResponse])
  have := hb 105 (by omega) (by omega)
  unfold linearResponse at this
  rw [abs_le] at this
  push_cast at this
  rw [abs_of_nonneg (by norm_num)] at this
  have h1 : ((104 : Int) : ℚ) < d := by push_cast; linarith
  have h2 : (d : ℚ) < ((106 : Int) : ℚ) := by push_cast; linarith
  have h1 := Int.cast_lt.1 h1
  have h2 := Int.cast_lt.1 h2
  rw [a, show d = 105 by omega]

end Verif.Props
