import Verif.Props.Matcher

/-! # C174: what amplitude matching takes from the amplitudes -/

namespace Verif.Props

open Verif.Py Verif.Model Verif.Spec Verif.Lemmas

/-! ### only the averages -/

theorem stepAll_averages (m : Matcher) (amp amp' : List (List ℚ)) (h : ∀ i, spAverage amp i = spAverage amp' i) (k : Nat) (sps : List Sp) :
    stepAll m amp k sps = stepAll m amp' k sps := by
  induction sps generalizing k with
  | nil => rfl
  | cons sp sps ih => simp only [stepAll, stepAt, h, ih]

theorem spoilAll_averages (m : Matcher) (n : Nat) (amp amp' : List (List ℚ)) (he : amp.isEmpty = amp'.isEmpty) (h : ∀ i, spAverage amp i = spAverage amp' i)
    (k : Nat) (sps : List Sp) : spoilAll m n amp k sps = spoilAll m n amp' k sps := by
  induction sps generalizing k with
  | nil => rfl
  | cons sp sps ih => simp only [spoilAll, spoiled, stepAt, h, ih, he]

theorem process_averages (m : Matcher) (n : Nat) (amp amp' : List (List ℚ)) (he : amp.isEmpty = amp'.isEmpty) (h : ∀ i, spAverage amp i = spAverage amp' i) :
    process m n amp = process m n amp' := by
  have hne : amp ≠ [] ↔ amp' ≠ [] := by
    rw [← List.isEmpty_eq_false_iff, ← List.isEmpty_eq_false_iff, he]
  unfold process
  simp only [hne, he, stepAll_averages _ amp amp' h, spoilAll_averages _ _ amp amp' he h]

/-- the two files have equally many events, and the four pixels of every superpixel have the same sum over all of them -/
def SameLight (amp amp' : List (List ℚ)) : Prop :=
  amp.length = amp'.length ∧ ∀ i, (amp.map fun row => ((row.drop (4 * i)).take 4).sum).sum = (amp'.map fun row => ((row.drop (4 * i)).take 4).sum).sum

/-- C174: for every state, whatever happened before, a call returns the same table or raises the same exception and leaves the same state for two
files with the same light: how it is spread over the events and over the four pixels of a superpixel does not matter. -/
theorem C174_light (m : Matcher) (n : Nat) (amp amp' : List (List ℚ)) (h : SameLight amp amp') : process m n amp = process m n amp' := by
  refine process_averages m n amp amp' ?_ fun i => ?_
  · have := h.1
    cases amp <;> cases amp' <;> simp_all
  · unfold spAverage
    simp only [sum_four]
    rw [h.1, h.2 i]

/-- C174: the order of the events does not matter. -/
theorem C174_order (m : Matcher) (n : Nat) (amp amp' : List (List ℚ)) (h : amp.Perm amp') : process m n amp = process m n amp' :=
  C174_light m n amp amp' ⟨h.length_eq, fun _ => (h.map _).sum_eq⟩

/-- two events, one bright and one dim, in both orders: the mean 4 is below the aim 5, so every DAC value goes down by 10 -/
example : (process (newMatcher 16 5 none none) 16 [List.replicate 16 2, List.replicate 16 6]).1.sps.map Sp.dac = [90, 90, 90, 90] := by
  rw [C174_order _ _ _ _ (List.Perm.swap _ _ _)]
  decide +kernel

/-- the light of a superpixel in one pixel or in all four -/
example : SameLight [[8, 0, 0, 0, 1, 1, 1, 1], [0, 0, 0, 0, 1, 1, 1, 1]] [[1, 1, 1, 1, 2, 0, 2, 0], [1, 1, 1, 1, 2, 0, 2, 0]] := by
  refine ⟨rfl, fun i => ?_⟩
  match i with
  | 0 => decide +kernel
  | 1 => decide +kernel
  | i + 2 =>
    have : ∀ row : List ℚ, row.length = 8 → ((row.drop (4 * (i + 2))).take 4) = [] := fun row h => by
      rw [List.drop_eq_nil_of_le (by omega)]; rfl
    simp only [List.map_cons, List.map_nil]
    simp only [this _ (rfl : List.length [(8 : ℚ), 0, 0, 0, 1, 1, 1, 1] = 8), this _ (rfl : List.length [(0 : ℚ), 0, 0, 0, 1, 1, 1, 1] = 8),
      this _ (rfl : List.length [(1 : ℚ), 1, 1, 1, 2, 0, 2, 0] = 8)]

/-! ### units -/

/-- the amplitudes in other units -/
def amplitudesTimes (g : ℚ) (amp : List (List ℚ)) : List (List ℚ) := amp.map (List.map (g * ·))

/-- the matcher with its aim in other units -/
def aimTimes (g : ℚ) (m : Matcher) : Matcher := { m with aim := g * m.aim }

theorem spAverage_times (g : ℚ) (amp : List (List ℚ)) (i : Nat) : spAverage (amplitudesTimes g amp) i = g * spAverage amp i := by
  have hget : ∀ (row : List ℚ) (j : Nat), (row.map (g * ·)).getD j 0 = g * row.getD j 0 := by
    intro row j
    rw [List.getD_eq_getElem?_getD, List.getD_eq_getElem?_getD, List.getElem?_map]
    cases row[j]? <;> simp
  have hsum : ∀ amp : List (List ℚ), ((amplitudesTimes g amp).map fun row => row.getD (4 * i) 0 + row.getD (4 * i + 1) 0 + row.getD (4 * i + 2) 0 +
      row.getD (4 * i + 3) 0).sum = g * (amp.map fun row => row.getD (4 * i) 0 + row.getD (4 * i + 1) 0 + row.getD (4 * i + 2) 0 + row.getD (4 * i + 3) 0).sum := by
    intro amp
    induction amp with
    | nil => simp [amplitudesTimes]
    | cons row amp ih =>
      simp only [amplitudesTimes, List.map_cons, List.sum_cons, hget, List.map_map] at ih ⊢
      rw [ih]
      ring
  unfold spAverage
  rw [hsum, mul_div_assoc, show (amplitudesTimes g amp).length = amp.length by simp [amplitudesTimes]]

theorem directionOf_times (g : ℚ) (hg : 0 < g) (aim a : ℚ) : directionOf (g * aim) (g * a) = directionOf aim a := by
  unfold directionOf npSign
  rw [← mul_sub]
  have hneg : g * (a - aim) < 0 ↔ a - aim < 0 := by
    rw [← neg_pos, ← mul_neg, mul_pos_iff_of_pos_left hg, neg_pos]
  simp only [mul_pos_iff_of_pos_left hg, hneg]

theorem distanceOf_times (g : ℚ) (hg : 0 < g) (aim a : ℚ) : distanceOf (g * aim) (g * a) = distanceOf aim a := by
  unfold distanceOf
  rw [← mul_sub, mul_div_mul_left _ _ hg.ne']

theorem stepAt_times (g : ℚ) (hg : 0 < g) (m : Matcher) (amp : List (List ℚ)) (i : Nat) (sp : Sp) :
    stepAt (aimTimes g m) (amplitudesTimes g amp) i sp = stepAt m amp i sp := by
  unfold stepAt aimTimes
  simp only [spAverage_times, distanceOf_times g hg, directionOf_times g hg]

theorem stepAll_times (g : ℚ) (hg : 0 < g) (m : Matcher) (amp : List (List ℚ)) (k : Nat) (sps : List Sp) :
    stepAll (aimTimes g m) (amplitudesTimes g amp) k sps = stepAll m amp k sps := by
  induction sps generalizing k with
  | nil => rfl
  | cons sp sps ih => simp only [stepAll, stepAt_times g hg, ih]

theorem stepFails_times (g : ℚ) (m : Matcher) (n : Nat) (b : Bool) (k : Nat) (sps : List Sp) : stepFails (aimTimes g m) n b k sps = stepFails m n b k sps := by
  induction sps generalizing k with
  | nil => rfl
  | cons sp sps ih =>
    simp only [stepFails, ih]
    rfl

theorem spoilAll_times (g : ℚ) (hg : 0 < g) (m : Matcher) (n : Nat) (amp : List (List ℚ)) (k : Nat) (sps : List Sp) :
    spoilAll (aimTimes g m) n (amplitudesTimes g amp) k sps = spoilAll m n amp k sps := by
  have he : (amplitudesTimes g amp).isEmpty = amp.isEmpty := by simp [amplitudesTimes]
  have hs : ∀ i sp, spoiled (aimTimes g m) (amplitudesTimes g amp) i sp = spoiled m amp i sp := by
    intro i sp
    unfold spoiled
    rw [stepAt_times g hg]
    simp only [aimTimes, spAverage_times, distanceOf_times g hg]
  have hc : ∀ b i sp, canStep (aimTimes g m) n b i sp = canStep m n b i sp := fun _ _ _ => rfl
  induction sps generalizing k with
  | nil => rfl
  | cons sp sps ih => simp only [spoilAll, he, hc, hs, ih]

theorem resetIfDue_times (g : ℚ) (m : Matcher) : resetIfDue (aimTimes g m) = aimTimes g (resetIfDue m) := by
  unfold resetIfDue aimTimes
  split <;> rfl

theorem process_times (g : ℚ) (hg : 0 < g) (m : Matcher) (n : Nat) (amp : List (List ℚ)) :
    process (aimTimes g m) n (amplitudesTimes g amp) = (aimTimes g (process m n amp).1, (process m n amp).2) := by
  have he : (amplitudesTimes g amp).isEmpty = amp.isEmpty := by simp [amplitudesTimes]
  have hne : amplitudesTimes g amp ≠ [] ↔ amp ≠ [] := by simp [amplitudesTimes]
  unfold process
  simp only [hne, he, resetIfDue_times, stepFails_times]
  by_cases h0 : amp ≠ [] ∧ n % 4 ≠ 0
  · simp only [if_pos h0]
  · simp only [if_neg h0]
    obtain ⟨m', hm'⟩ : ∃ m', m' = resetIfDue m := ⟨_, rfl⟩
    rw [← hm']
    have hsps : (aimTimes g m').sps = m'.sps := rfl
    have hst : (aimTimes g m').globalStage = m'.globalStage := rfl
    rw [hsps, hst]
    by_cases h3 : m'.globalStage = 3
    · simp only [if_pos h3]
    · simp only [if_neg h3]
      cases stepFails m' (n / 4) amp.isEmpty 0 m'.sps with
      | some e =>
        simp only [spoilAll_times g hg]
        rfl
      | none =>
        simp only [stepAll_times g hg]
        by_cases hl : (stepAll m' amp 0 m'.sps).length ≠ 512
        · simp only [if_pos hl]; rfl
        · simp only [if_neg hl]; rfl

/-- C174: for every camera and every sequence of files, matching with the aim and all amplitudes in other units requests the same DAC values call by
call, and raises the same exceptions. -/
theorem C174_units (nPixels : Nat) (aim : ℚ) (starting : Option (List Int)) (badHv : Option (List Bool)) (calls : List (Nat × List (List ℚ))) (g : ℚ)
    (hg : 0 < g) :
    (processAll (newMatcher nPixels (g * aim) starting badHv) (calls.map fun c => (c.1, amplitudesTimes g c.2))).2 =
      (processAll (newMatcher nPixels aim starting badHv) calls).2 := by
  have key : ∀ (calls : List (Nat × List (List ℚ))) (m : Matcher), processAll (aimTimes g m) (calls.map fun c => (c.1, amplitudesTimes g c.2)) =
      (aimTimes g (processAll m calls).1, (processAll m calls).2) := by
    intro calls
    induction calls with
    | nil => intro m; rfl
    | cons c calls ih =>
      intro m
      obtain ⟨n, amp⟩ := c
      simp only [List.map_cons, processAll, process_times g hg, ih]
  have := key calls (newMatcher nPixels aim starting badHv)
  rw [show newMatcher nPixels (g * aim) starting badHv = aimTimes g (newMatcher nPixels aim starting badHv) from rfl, this]

/-- the same amplitudes in units a thousand times smaller -/
example : (processAll (newMatcher 2048 5000 none none) [(2048, [List.replicate 2048 6000]), (2048, [List.replicate 2048 5500])]).2 =
    (processAll (newMatcher 2048 5 none none) [(2048, [List.replicate 2048 6]), (2048, [List.replicate 2048 (11 / 2)])]).2 := by
  have := C174_units 2048 5 none none [(2048, [List.replicate 2048 6]), (2048, [List.replicate 2048 (11 / 2)])] 1000 (by norm_num)
  rw [← this]
  simp only [amplitudesTimes, List.map_cons, List.map_nil, List.map_replicate]
  norm_num

/-! ### one superpixel, and the numbering -/

/-- two matchers that agree on the superpixels `i` with `P i`, which are the superpixels `σ i` of the first -/
structure AgreeOn (σ : Nat → Nat) (P : Nat → Prop) (m m' : Matcher) : Prop where
  aim : m'.aim = m.aim
  stage : m'.globalStage = m.globalStage
  iteration : m'.iteration = m.iteration
  len : m.sps.length = 512
  len' : m'.sps.length = 512
  masks : 512 ≤ m.mask.length
  masks' : 512 ≤ m'.mask.length
  mask : ∀ i, P i → m'.mask.getD i false = m.mask.getD (σ i) false
  sps : ∀ i, P i → m'.sps[i]? = m.sps[σ i]?

/-- what the two calls return: tables that agree on these superpixels, and the same flag -/
def SameEntries (σ : Nat → Nat) (P : Nat → Prop) (r r' : Except Err (List Int × Bool)) : Prop :=
  ∃ dacs dacs' done, r = .ok (dacs, done) ∧ r' = .ok (dacs', done) ∧ ∀ i, P i → dacs'[i]? = dacs[σ i]?

theorem seen_agree {σ : Nat → Nat} {P : Nat → Prop} {m m' : Matcher} (h : AgreeOn σ P m m') (sp : Sp) : seen m' sp = seen m sp := by
  unfold seen
  rw [h.stage]

theorem process_complete (m : Matcher) (n : Nat) (amp : List (List ℚ)) (hn : n % 4 = 0) (hg : m.globalStage = 3) :
    process m n amp = (m, .ok (m.sps.map Sp.dac, true)) := by
  unfold process
  have hr : resetIfDue m = m := (resetIfDue_const m).2.2.2.1 (by omega)
  rw [if_neg (by omega), hr]
  simp only [if_pos hg]

theorem agree_step {σ : Nat → Nat} {P : Nat → Prop} {m m' : Matcher} (h : AgreeOn σ P m m') (amp amp' : List (List ℚ)) (hn : amp ≠ []) (hn' : amp' ≠ [])
    (ha : ∀ i, P i → spAverage amp' i = spAverage amp (σ i)) (hstage : (process m' 2048 amp').1.globalStage = (process m 2048 amp).1.globalStage) :
    AgreeOn σ P (process m 2048 amp).1 (process m' 2048 amp').1 ∧ SameEntries σ P (process m 2048 amp).2 (process m' 2048 amp').2 := by
  obtain ⟨c1, c2⟩ := process_const m 2048 amp
  obtain ⟨c1', c2'⟩ := process_const m' 2048 amp'
  by_cases h3 : m.globalStage = 3
  · have p1 := process_complete m 2048 amp (by decide) h3
    have p2 := process_complete m' 2048 amp' (by decide) (h.stage.trans h3)
    rw [p1, p2]
    exact ⟨h, _, _, true, rfl, rfl, fun i hi => by rw [List.getElem?_map, List.getElem?_map, h.sps i hi]⟩
  · have p1 := process_steps m 2048 amp hn (by decide) h3 (by rw [h.len]; exact h.masks) (by rw [h.len])
    have p2 := process_steps m' 2048 amp' hn' (by decide) (by rw [h.stage]; exact h3) (by rw [h.len']; exact h.masks') (by rw [h.len'])
    rw [if_pos h.len] at p1
    rw [if_pos h.len'] at p2
    have l1 := process_length m 2048 amp
    have l2 := process_length m' 2048 amp'
    rw [p1] at c1 c2 l1 hstage ⊢
    rw [p2] at c1' c2' l2 hstage ⊢
    have hit : (resetIfDue m').iteration = (resetIfDue m).iteration := by
      rw [resetIfDue_iteration, resetIfDue_iteration, h.stage, h.iteration]
    have hsps : ∀ i, P i → (stepped m' amp').sps[i]? = (stepped m amp).sps[σ i]? := by
      intro i hi
      rw [stepped_get, stepped_get, h.sps i hi]
      congr 1
      funext sp
      unfold stepAt
      rw [hit, (resetIfDue_const m').1, (resetIfDue_const m).1, (resetIfDue_const m').2.1, (resetIfDue_const m).2.1, h.mask i hi, h.aim, ha i hi, seen_agree h]
    refine ⟨⟨?_, hstage, ?_, by rw [l1, h.len], by rw [l2, h.len'], by rw [c1]; exact h.masks, by rw [c1']; exact h.masks', ?_, hsps⟩, ?_⟩
    · rw [c2, c2', h.aim]
    · unfold stepped
      simp only [hit]
    · intro i hi
      rw [c1, c1', h.mask i hi]
    · exact ⟨_, _, false, rfl, rfl, fun i hi => by rw [List.getElem?_map, List.getElem?_map, hsps i hi]⟩

/-- the stages of the procedure after each call: 0 first pass, 1 the first pass is over, 2 second pass, 3 finished -/
def stagesOf (m : Matcher) : List (Nat × List (List ℚ)) → List Nat
  | [] => []
  | c :: calls => (process m c.1 c.2).1.globalStage :: stagesOf (process m c.1 c.2).1 calls

/-- a file of the whole camera with at least one event -/
def CameraFile (c : Nat × List (List ℚ)) : Prop := c.1 = 2048 ∧ c.2 ≠ []

theorem agree_calls {σ : Nat → Nat} {P : Nat → Prop} (calls calls' : List (Nat × List (List ℚ))) (m m' : Matcher) (h : AgreeOn σ P m m')
    (hc : List.Forall₂ (fun c c' => CameraFile c ∧ CameraFile c' ∧ ∀ i, P i → spAverage c'.2 i = spAverage c.2 (σ i)) calls calls')
    (hs : stagesOf m' calls' = stagesOf m calls) :
    List.Forall₂ (SameEntries σ P) (processAll m calls).2 (processAll m' calls').2 := by
  induction hc generalizing m m' with
  | nil => exact List.Forall₂.nil
  | @cons c c' cs cs' hcc _ ih =>
    obtain ⟨n, amp⟩ := c
    obtain ⟨n', amp'⟩ := c'
    obtain ⟨⟨rfl, hn⟩, ⟨rfl, hn'⟩, ha⟩ := hcc
    simp only [stagesOf, List.cons.injEq] at hs
    obtain ⟨h1, h2⟩ := agree_step h amp amp' hn hn' ha hs.1
    exact List.Forall₂.cons h2 (ih _ _ h1 hs.2)

/-- starting values and masks of a camera of 512 superpixels, if given -/
def ForCamera (starting : Option (List Int)) (bad : Option (List Bool)) : Prop :=
  (∀ d, starting = some d → d.length = 512) ∧ ∀ b, bad = some b → b.length = 512

/-- the starting value of superpixel `i` -/
def startOf (starting : Option (List Int)) (i : Nat) : Int := (starting.getD []).getD i 100

/-- whether superpixel `i` is flagged -/
def flagOf (bad : Option (List Bool)) (i : Nat) : Bool := (bad.getD []).getD i false

theorem agree_new (σ : Nat → Nat) (P : Nat → Prop) (hP : ∀ i, P i → i < 512 ∧ σ i < 512) (aim : ℚ) (s s' : Option (List Int)) (b b' : Option (List Bool))
    (h : ForCamera s b) (h' : ForCamera s' b') (hs : ∀ i, P i → startOf s' i = startOf s (σ i)) (hb : ∀ i, P i → flagOf b' i = flagOf b (σ i)) :
    AgreeOn σ P (newMatcher 2048 aim s b) (newMatcher 2048 aim s' b') := by
  have e512 : 2048 / 4 = 512 := rfl
  have hlen : ∀ (s : Option (List Int)) (b : Option (List Bool)), ForCamera s b → (newMatcher 2048 aim s b).sps.length = 512 := by
    intro s b h
    unfold newMatcher
    cases s with
    | none => rw [List.length_map, Option.getD_none, List.length_replicate]
    | some d => rw [List.length_map, Option.getD_some, h.1 d rfl]
  have hmask : ∀ (s : Option (List Int)) (b : Option (List Bool)), ForCamera s b → 512 ≤ (newMatcher 2048 aim s b).mask.length := by
    intro s b h
    unfold newMatcher matcherMask
    cases b with
    | none => simp only [List.length_replicate]; exact le_refl _
    | some d => simp only [h.2 d rfl]; exact le_refl _
  have hflag : ∀ (s : Option (List Int)) (b : Option (List Bool)) (i : Nat), (newMatcher 2048 aim s b).mask.getD i false = flagOf b i := by
    intro s b i
    unfold newMatcher matcherMask flagOf
    cases b with
    | none =>
      simp only [List.getD_eq_getElem?_getD, List.getElem?_replicate, Option.getD_none, List.getElem?_nil]
      split <;> rfl
    | some d => rfl
  have hstart : ∀ (s : Option (List Int)) (b : Option (List Bool)), ForCamera s b → ∀ i < 512,
      (newMatcher 2048 aim s b).sps[i]? = some ⟨startOf s i, startOf s i, 0, 0⟩ := by
    intro s b h i hi
    unfold newMatcher startOf
    cases s with
    | none => simp only [List.getElem?_map, List.getElem?_replicate, Option.getD_none, e512, if_pos hi, Option.map_some, List.getD_nil]
    | some d =>
      have : i < d.length := by rw [h.1 d rfl]; exact hi
      simp only [Option.getD_some, List.getElem?_map, List.getD_eq_getElem?_getD, List.getElem?_eq_getElem this, Option.map_some]
  refine ⟨rfl, rfl, rfl, hlen s b h, hlen s' b' h', hmask s b h, hmask s' b' h', ?_, ?_⟩
  · intro i hi
    rw [hflag, hflag, hb i hi]
  · intro i hi
    rw [hstart s' b' h' i (hP i hi).1, hstart s b h (σ i) (hP i hi).2, hs i hi]

/-- C174: other superpixels reach the DAC values of a superpixel only through the calls in which a pass ends: two cameras with the same starting
value, flag and mean amplitudes of superpixel `i`, whose passes end with the same calls, get the same values for it in every call. -/
theorem C174_superpixel (aim : ℚ) (s s' : Option (List Int)) (b b' : Option (List Bool)) (h : ForCamera s b) (h' : ForCamera s' b') (i : Nat) (hi : i < 512)
    (hs : startOf s' i = startOf s i) (hb : flagOf b' i = flagOf b i) (calls calls' : List (Nat × List (List ℚ)))
    (hc : List.Forall₂ (fun c c' => CameraFile c ∧ CameraFile c' ∧ ∃ v, MeanAmplitude c.2 i v ∧ MeanAmplitude c'.2 i v) calls calls')
    (hp : stagesOf (newMatcher 2048 aim s' b') calls' = stagesOf (newMatcher 2048 aim s b) calls) :
    List.Forall₂ (fun r r' => ∃ dacs dacs' done, r = .ok (dacs, done) ∧ r' = .ok (dacs', done) ∧ dacs'[i]? = dacs[i]?)
      (processAll (newMatcher 2048 aim s b) calls).2 (processAll (newMatcher 2048 aim s' b') calls').2 := by
  have ha := agree_new id (· = i) (fun j hj => by subst hj; exact ⟨hi, hi⟩) aim s s' b b' h h' (fun j hj => by subst hj; exact hs) (fun j hj => by subst hj; exact hb)
  have := agree_calls calls calls' _ _ ha (hc.imp fun c c' hcc => ⟨hcc.1, hcc.2.1, fun j hj => by
    subst hj
    obtain ⟨v, v1, v2⟩ := hcc.2.2
    rw [id, (spAverage_mean _ hcc.1.2 _ v).2 v1, (spAverage_mean _ hcc.2.1.2 _ v).2 v2]⟩) hp
  exact this.imp fun r r' ⟨d, d', done, e, e', hd⟩ => ⟨d, d', done, e, e', hd i rfl⟩

theorem agree_stage {σ : Nat → Nat} (h2 : ∀ j < 512, ∃ i < 512, σ i = j) {m m' : Matcher} (h : AgreeOn σ (· < 512) m m')
    (amp amp' : List (List ℚ)) (hn : amp ≠ []) (hn' : amp' ≠ []) (ha : ∀ i < 512, spAverage amp' i = spAverage amp (σ i)) :
    (process m' 2048 amp').1.globalStage = (process m 2048 amp).1.globalStage := by
  by_cases h3 : m.globalStage = 3
  · rw [process_complete m 2048 amp (by decide) h3, process_complete m' 2048 amp' (by decide) (h.stage.trans h3), h.stage]
  · rw [process_steps m 2048 amp hn (by decide) h3 (by rw [h.len]; exact h.masks) (by rw [h.len]),
      process_steps m' 2048 amp' hn' (by decide) (by rw [h.stage]; exact h3) (by rw [h.len']; exact h.masks') (by rw [h.len'])]
    have hit : (resetIfDue m').iteration = (resetIfDue m).iteration := by
      rw [resetIfDue_iteration, resetIfDue_iteration, h.stage, h.iteration]
    have hsps : ∀ i < 512, (stepped m' amp').sps[i]? = (stepped m amp).sps[σ i]? := by
      intro i hi
      rw [stepped_get, stepped_get, h.sps i hi]
      congr 1
      funext sp
      unfold stepAt
      rw [hit, (resetIfDue_const m').1, (resetIfDue_const m).1, (resetIfDue_const m').2.1, (resetIfDue_const m).2.1, h.mask i hi, h.aim, ha i hi, seen_agree h]
    have l : (stepped m amp).sps.length = 512 := by
      have : (stepped m amp).sps.length = m.sps.length := by simp [stepped, length_stepAll, resetIfDue_sps]
      rw [this, h.len]
    have l' : (stepped m' amp').sps.length = 512 := by
      have : (stepped m' amp').sps.length = m'.sps.length := by simp [stepped, length_stepAll, resetIfDue_sps]
      rw [this, h.len']
    have hall : ((stepped m' amp').sps.all fun sp => sp.stage == 3) = (stepped m amp).sps.all fun sp => sp.stage == 3 := by
      rw [Bool.eq_iff_iff, List.all_eq_true, List.all_eq_true]
      constructor
      · intro hx sp hsp
        obtain ⟨j, hj, rfl⟩ := List.mem_iff_getElem.1 hsp
        obtain ⟨i, hi, rfl⟩ := h2 j (by rw [← l]; exact hj)
        have := hsps i hi
        rw [List.getElem?_eq_getElem hj] at this
        exact hx _ (List.mem_of_getElem? this)
      · intro hx sp hsp
        obtain ⟨i, hi, rfl⟩ := List.mem_iff_getElem.1 hsp
        have := hsps i (by rw [← l']; exact hi)
        rw [List.getElem?_eq_getElem hi] at this
        exact hx _ (List.mem_of_getElem? this.symm)
    have hres : (resetIfDue m').globalStage = (resetIfDue m).globalStage := by
      unfold resetIfDue
      rw [h.stage]
      split
      · rfl
      · exact h.stage
    have key : ∀ (m : Matcher) amp, (stepped m amp).globalStage =
        if (stepped m amp).sps.all (fun sp => sp.stage == 3) then (resetIfDue m).globalStage + 1 else (resetIfDue m).globalStage := fun _ _ => rfl
    simp only
    rw [key, key, hall, hres]

/-- C174: the numbering of the superpixels does not matter: with the superpixels numbered in another way, starting values, flags and amplitudes alike,
the same DAC values are requested in every call for the same superpixels, and the procedure ends with the same call. -/
theorem C174_numbers (aim : ℚ) (s s' : Option (List Int)) (b b' : Option (List Bool)) (h : ForCamera s b) (h' : ForCamera s' b') (σ : Nat → Nat)
    (h1 : ∀ i < 512, σ i < 512) (h2 : ∀ j < 512, ∃ i < 512, σ i = j) (hs : ∀ i < 512, startOf s' i = startOf s (σ i))
    (hb : ∀ i < 512, flagOf b' i = flagOf b (σ i)) (calls calls' : List (Nat × List (List ℚ)))
    (hc : List.Forall₂ (fun c c' => CameraFile c ∧ CameraFile c' ∧ ∀ i < 512, ∃ v, MeanAmplitude c.2 (σ i) v ∧ MeanAmplitude c'.2 i v) calls calls') :
    List.Forall₂ (fun r r' => ∃ dacs dacs' done, r = .ok (dacs, done) ∧ r' = .ok (dacs', done) ∧ ∀ i < 512, dacs'[i]? = dacs[σ i]?)
      (processAll (newMatcher 2048 aim s b) calls).2 (processAll (newMatcher 2048 aim s' b') calls').2 := by
  have ha := agree_new σ (· < 512) (fun i hi => ⟨hi, h1 i hi⟩) aim s s' b b' h h' hs hb
  have hc' : List.Forall₂ (fun c c' => CameraFile c ∧ CameraFile c' ∧ ∀ i, i < 512 → spAverage c'.2 i = spAverage c.2 (σ i)) calls calls' :=
    hc.imp fun c c' hcc => ⟨hcc.1, hcc.2.1, fun i hi => by
      obtain ⟨v, v1, v2⟩ := hcc.2.2 i hi
      rw [(spAverage_mean _ hcc.1.2 _ v).2 v1, (spAverage_mean _ hcc.2.1.2 _ v).2 v2]⟩
  refine agree_calls calls calls' _ _ ha hc' ?_
  clear hc
  generalize newMatcher 2048 aim s b = m at ha
  generalize newMatcher 2048 aim s' b' = m' at ha
  induction hc' generalizing m m' with
  | nil => rfl
  | @cons c c' cs cs' hcc _ ih =>
    obtain ⟨n, amp⟩ := c
    obtain ⟨n', amp'⟩ := c'
    obtain ⟨⟨rfl, hn⟩, ⟨rfl, hn'⟩, hav⟩ := hcc
    have hst := agree_stage h2 ha amp amp' hn hn' hav
    simp only [stagesOf, hst]
    rw [ih _ _ (agree_step ha amp amp' hn hn' hav hst).1]

theorem mean_uniform (v : ℚ) (i : Nat) (hi : i < 512) : MeanAmplitude [List.replicate 2048 v] i v := by
  unfold MeanAmplitude
  have : 4 ≤ 2048 - 4 * i := by omega
  simp only [List.map_cons, List.map_nil, List.drop_replicate, List.take_replicate, Nat.min_eq_left this, List.sum_replicate, List.sum_cons, List.sum_nil,
    List.length_cons, List.length_nil]
  norm_num
  ring

/-- the first call does not end the first pass if superpixel 3 is not flagged and moves -/
theorem first_call_goes_on (bad : Option (List Bool)) (h : ForCamera none bad) (h3 : flagOf bad 3 = false) :
    stagesOf (newMatcher 2048 5 none bad) [(2048, [List.replicate 2048 6])] = [0] := by
  have ha := agree_new id (· = 3) (fun j hj => by subst hj; decide) 5 none none bad bad h h (fun _ _ => rfl) (fun _ _ => rfl)
  simp only [stagesOf, List.cons.injEq, and_true]
  have hs := stepped_get (newMatcher 2048 5 none bad) [List.replicate 2048 6] 3
  have hm : (newMatcher 2048 5 none bad).mask.getD 3 false = false := by
    unfold newMatcher matcherMask
    cases bad with
    | none => simp only [List.getD_eq_getElem?_getD, List.getElem?_replicate]; rfl
    | some b => exact h3
  have hsp : (newMatcher 2048 5 none bad).sps[3]? = some ⟨100, 100, 0, 0⟩ := by
    unfold newMatcher
    simp only [List.getElem?_map, List.getElem?_replicate, Option.getD_none]
    rfl
  have hr : resetIfDue (newMatcher 2048 5 none bad) = newMatcher 2048 5 none bad := rfl
  rw [hsp, hr, Option.map_some] at hs
  unfold stepAt at hs
  rw [hm, (spAverage_mean [List.replicate 2048 6] (List.cons_ne_nil _ _) 3 6).2 (mean_uniform 6 3 (by decide))] at hs
  have hval : stepSp (newMatcher 2048 5 none bad).iteration false (distanceOf (newMatcher 2048 5 none bad).aim 6) (directionOf (newMatcher 2048 5 none bad).aim 6)
      (seen (newMatcher 2048 5 none bad) ⟨100, 100, 0, 0⟩) = ⟨110, 100, 1 / 25, 0⟩ := by
    change stepSp 0 false (distanceOf 5 6) (directionOf 5 6) ⟨100, 100, 0, 0⟩ = _
    decide +kernel
  rw [hval] at hs
  rw [process_steps _ 2048 _ (List.cons_ne_nil _ _) (by decide) (show (0 : Nat) ≠ 3 by decide) (by rw [ha.len]; exact ha.masks) (by rw [ha.len])]
  have hall : ((stepped (newMatcher 2048 5 none bad) [List.replicate 2048 6]).sps.all fun sp => sp.stage == 3) = false := by
    rw [List.all_eq_false]
    exact ⟨_, List.mem_of_getElem? hs, by decide⟩
  change (if (stepped (newMatcher 2048 5 none bad) [List.replicate 2048 6]).sps.all (fun sp => sp.stage == 3) then 1 else 0) = 0
  rw [hall]
  rfl

/-- superpixel 7 flagged: superpixel 3 does not notice -/
example : List.Forall₂ (fun r r' => ∃ dacs dacs' done, r = .ok (dacs, done) ∧ r' = .ok (dacs', done) ∧ dacs'[3]? = dacs[3]?)
    (processAll (newMatcher 2048 5 none none) [(2048, [List.replicate 2048 6])]).2
    (processAll (newMatcher 2048 5 none (some (List.replicate 7 false ++ [true] ++ List.replicate 504 false))) [(2048, [List.replicate 2048 6])]).2 := by
  have hb : ForCamera none (some (List.replicate 7 false ++ [true] ++ List.replicate 504 false)) :=
    ⟨(fun _ h => by cases h), by rintro b ⟨⟩; simp only [List.length_append, List.length_replicate, List.length_cons, List.length_nil]⟩
  have hn : ForCamera none none := ⟨(fun _ h => by cases h), (fun _ h => by cases h)⟩
  refine C174_superpixel 5 none none none _ hn hb 3 (by decide) rfl rfl _ _
    (List.Forall₂.cons ⟨⟨rfl, List.cons_ne_nil _ _⟩, ⟨rfl, List.cons_ne_nil _ _⟩, 6, mean_uniform 6 3 (by decide), mean_uniform 6 3 (by decide)⟩ List.Forall₂.nil) ?_
  rw [first_call_goes_on _ hb rfl, first_call_goes_on _ hn rfl]

/-- the superpixels of a camera counted from the other end -/
example : List.Forall₂ (fun r r' => ∃ dacs dacs' done, r = .ok (dacs, done) ∧ r' = .ok (dacs', done) ∧ ∀ i < 512, dacs'[i]? = dacs[511 - i]?)
    (processAll (newMatcher 2048 5 (some ((List.range 512).map fun i : Nat => (i / 4 + 60 : Int))) none) [(2048, [List.replicate 2048 6])]).2
    (processAll (newMatcher 2048 5 (some ((List.range 512).map fun i : Nat => ((511 - i) / 4 + 60 : Int))) none) [(2048, [List.replicate 2048 6])]).2 := by
  refine C174_numbers 5 _ _ _ _ ⟨(fun d h => by rw [← Option.some.inj h, List.length_map, List.length_range]), (fun _ h => by cases h)⟩ ⟨(fun d h => by rw [← Option.some.inj h, List.length_map, List.length_range]), (fun _ h => by cases h)⟩
    (fun i => 511 - i) (fun i hi => by omega) (fun j hj => ⟨511 - j, by omega, by omega⟩) ?_ (fun i _ => rfl) _ _
    (List.Forall₂.cons ⟨⟨rfl, List.cons_ne_nil _ _⟩, ⟨rfl, List.cons_ne_nil _ _⟩, fun i hi => ⟨6, mean_uniform 6 _ (by omega), mean_uniform 6 i hi⟩⟩ List.Forall₂.nil)
  intro i hi
  unfold startOf
  simp only [Option.getD_some, List.getD_eq_getElem?_getD, List.getElem?_map, List.getElem?_range hi, List.getElem?_range (show 511 - i < 512 by omega), Option.map_some]
  omega

end Verif.Props
