import Verif.Model.MatcherTables
import Verif.Props.MatcherEmpty

/-!
# The tables returned by amplitude matching: shape (C153) and ownership (C154)
-/

namespace Verif.Props

open Verif.Py Verif.Model Verif.Spec Verif.Lemmas

/-! ## arrays and values -/

theorem joinSp_sps (sps : List Sp) : joinSp (sps.map Sp.dac) (sps.map Sp.prevDac) (restOf sps) = sps := by
  induction sps with
  | nil => rfl
  | cons sp sps ih => simp only [restOf, List.map_cons, joinSp] at ih ⊢; rw [ih]

theorem joinSp_parts (ds ps : List Int) (rs : List (ℚ × Nat)) (h1 : ds.length = rs.length) (h2 : ps.length = rs.length) :
    (joinSp ds ps rs).map Sp.dac = ds ∧ (joinSp ds ps rs).map Sp.prevDac = ps ∧ restOf (joinSp ds ps rs) = rs := by
  induction rs generalizing ds ps with
  | nil =>
    rw [List.length_nil, List.length_eq_zero_iff] at h1 h2
    subst h1 h2
    exact ⟨rfl, rfl, rfl⟩
  | cons r rs ih =>
    match ds, ps, h1, h2 with
    | d :: ds, p :: ps, h1, h2 =>
      obtain ⟨a, b, c⟩ := ih ds ps (by simpa using h1) (by simpa using h2)
      refine ⟨?_, ?_, ?_⟩
      · rw [joinSp, List.map_cons, a]
      · rw [joinSp, List.map_cons, b]
      · simp only [restOf] at c ⊢
        rw [joinSp, List.map_cons, c]

theorem joinSp_eq (sps : List Sp) (ds ps : List Int) (rs : List (ℚ × Nat)) (h1 : sps.map Sp.dac = ds) (h2 : sps.map Sp.prevDac = ps) (h3 : restOf sps = rs) :
    joinSp ds ps rs = sps := by
  subst h1 h2 h3
  exact joinSp_sps sps

theorem state_of (o : MatcherObj) (m : Matcher) (h1 : m.sps.map Sp.dac = o.arrays.getD o.current []) (h2 : m.sps.map Sp.prevDac = o.arrays.getD o.previous [])
    (h3 : restOf m.sps = o.rest) (h4 : o.aim = m.aim) (h5 : o.mask = m.mask) (h6 : o.globalStage = m.globalStage) (h7 : o.iteration = m.iteration) : o.state = m := by
  unfold MatcherObj.state
  rw [joinSp_eq m.sps _ _ _ h1 h2 h3, h4, h5, h6, h7]

/-- all arrays have an entry for each superpixel, and those in use exist -/
def GoodObj (o : MatcherObj) : Prop := o.current < o.arrays.length ∧ o.previous < o.arrays.length ∧ (∀ a ∈ o.arrays, a.length = o.rest.length) ∧ o.current ≠ o.previous

theorem GoodObj.len {o : MatcherObj} (h : GoodObj o) (k : Nat) (hk : k < o.arrays.length) : (o.arrays.getD k []).length = o.rest.length := by
  rw [List.getD_eq_getElem?_getD, List.getElem?_eq_getElem hk]
  exact h.2.2.1 _ (List.getElem_mem hk)

theorem GoodObj.parts {o : MatcherObj} (h : GoodObj o) : o.state.sps.map Sp.dac = o.arrays.getD o.current [] ∧
    o.state.sps.map Sp.prevDac = o.arrays.getD o.previous [] ∧ restOf o.state.sps = o.rest :=
  joinSp_parts _ _ _ (h.len _ h.1) (h.len _ h.2.1)

theorem good_new (nPixels : Nat) (aim : ℚ) (starting : Option (List Int)) (badHv : Option (List Bool)) :
    GoodObj (newMatcherObj nPixels aim starting badHv) ∧ (newMatcherObj nPixels aim starting badHv).state = newMatcher nPixels aim starting badHv := by
  constructor
  · refine ⟨by simp [newMatcherObj], by simp [newMatcherObj], fun a ha => ?_, by simp [newMatcherObj]⟩
    simp only [newMatcherObj, List.mem_cons, List.not_mem_nil, or_false, or_self] at ha
    rw [ha]
    simp only [newMatcherObj, List.length_map]
  · unfold MatcherObj.state newMatcherObj newMatcher
    simp only
    congr 1
    refine joinSp_eq _ _ _ _ ?_ ?_ ?_
    · rw [List.map_map]; exact List.map_id _
    · rw [List.map_map]; exact List.map_id _
    · unfold restOf; rw [List.map_map]; rfl

theorem reset_parts (m : Matcher) : (resetIfDue m).sps.map Sp.dac = m.sps.map Sp.dac ∧ (resetIfDue m).sps.map Sp.prevDac = m.sps.map Sp.prevDac := by
  rw [resetIfDue_sps]
  constructor <;> rw [List.map_map] <;> refine List.map_congr_left fun x _ => ?_ <;> simp only [Function.comp, seen] <;> split <;> rfl

theorem stepAll_previous (m : Matcher) (amp : List (List ℚ)) (k : Nat) (sps : List Sp) : (stepAll m amp k sps).map Sp.prevDac = sps.map Sp.dac := by
  induction sps generalizing k with
  | nil => rfl
  | cons sp sps ih =>
    rw [stepAll, List.map_cons, ih]
    rfl

theorem spoilAll_parts (m : Matcher) (n : Nat) (amp : List (List ℚ)) (sps : List Sp) :
    (spoilAll m n amp 0 sps).map Sp.dac = sps.map Sp.dac ∧ (spoilAll m n amp 0 sps).map Sp.prevDac = sps.map Sp.prevDac := by
  have h := spoilAll_dacs m n amp 0 sps
  constructor
  · simpa only [List.map_map, Function.comp_def] using congrArg (List.map Prod.fst) h
  · simpa only [List.map_map, Function.comp_def] using congrArg (List.map Prod.snd) h

theorem restOf_length (sps : List Sp) : (restOf sps).length = sps.length := by simp [restOf]

/-- how a call treats the arrays -/
inductive ArraysAfter (o : MatcherObj) : MatcherObj → Except Err (TableRef × List (Option ℚ) × Bool) → Prop
  | kept (o' : MatcherObj) (r : Except Err (TableRef × List (Option ℚ) × Bool)) (h1 : o'.arrays = o.arrays) (h2 : o'.current = o.current) (h3 : o'.previous = o.previous)
      (h4 : ∀ t avg fin, r = .ok (t, avg, fin) → fin = true ∧ t = ⟨o.current, [o.rest.length]⟩) : ArraysAfter o o' r
  | added (o' : MatcherObj) (r : Except Err (TableRef × List (Option ℚ) × Bool)) (new : List Int) (h1 : o'.arrays = o.arrays ++ [new]) (h2 : o'.current = o.arrays.length)
      (h3 : o'.previous = o.current) (h4 : ∀ t avg fin, r = .ok (t, avg, fin) → fin = false ∧ t = ⟨o'.current, [32, 16]⟩ ∧ new.length = 512) : ArraysAfter o o' r

/-- the values are those of `process`; a new array is made for every new table -/
theorem call_refines (o : MatcherObj) (h : GoodObj o) (n : Nat) (amp : List (List ℚ)) :
    (o.call n amp).1.state = (process o.state n amp).1 ∧ GoodObj (o.call n amp).1 ∧ (o.call n amp).1.rest.length = o.rest.length ∧
    ArraysAfter o (o.call n amp).1 (o.call n amp).2 ∧
    (process o.state n amp).2 = (match (o.call n amp).2 with
      | .error e => .error e
      | .ok (t, _, fin) => .ok ((o.call n amp).1.arrays.getD t.array [], fin)) ∧
    ∀ t avg fin, (o.call n amp).2 = .ok (t, avg, fin) → avg = pixelAverages n amp := by
  obtain ⟨p1, p2, p3⟩ := h.parts
  obtain ⟨q1, q2⟩ := reset_parts o.state
  obtain ⟨c1, c2, -⟩ := resetIfDue_const o.state
  have hl : (resetIfDue o.state).sps.length = o.rest.length := by
    rw [← p3, restOf_length, resetIfDue_sps, List.length_map]
  unfold MatcherObj.call process
  by_cases h1 : amp ≠ [] ∧ n % 4 ≠ 0
  · rw [if_pos h1, if_pos h1]
    exact ⟨rfl, h, rfl, .kept _ _ rfl rfl rfl (by simp), rfl, by simp⟩
  rw [if_neg h1, if_neg h1]
  simp only
  by_cases h2 : (resetIfDue o.state).globalStage = 3
  · rw [if_pos h2, if_pos h2]
    refine ⟨?_, ⟨h.1, h.2.1, fun a ha => ?_, h.2.2.2⟩, ?_, .kept _ _ rfl rfl rfl ?_, ?_, ?_⟩
    · exact state_of _ _ (q1.trans p1) (q2.trans p2) rfl c2.symm c1.symm rfl rfl
    · rw [restOf_length, hl]; exact h.2.2.1 a ha
    · rw [restOf_length, hl]
    · intro t avg fin e
      simp only [Except.ok.injEq, Prod.mk.injEq] at e
      exact ⟨e.2.2.symm, by rw [← e.1, h.len _ h.1]⟩
    · simp only; rw [q1, p1]
    · intro t avg fin e
      simp only [Except.ok.injEq, Prod.mk.injEq] at e
      exact e.2.1.symm
  rw [if_neg h2, if_neg h2]
  cases h3 : stepFails (resetIfDue o.state) (n / 4) amp.isEmpty 0 (resetIfDue o.state).sps with
  | some e =>
    obtain ⟨s1, s2⟩ := spoilAll_parts (resetIfDue o.state) (n / 4) amp (resetIfDue o.state).sps
    have hsl : (spoilAll (resetIfDue o.state) (n / 4) amp 0 (resetIfDue o.state).sps).length = o.rest.length := by
      rw [length_spoilAll, hl]
    refine ⟨?_, ⟨h.1, h.2.1, fun a ha => ?_, h.2.2.2⟩, ?_, .kept _ _ rfl rfl rfl (by simp), rfl, by simp⟩
    · exact state_of _ _ (s1.trans (q1.trans p1)) (s2.trans (q2.trans p2)) rfl c2.symm c1.symm rfl rfl
    · rw [restOf_length, hsl]; exact h.2.2.1 a ha
    · rw [restOf_length, hsl]
  | none =>
    have hsl : (stepAll (resetIfDue o.state) amp 0 (resetIfDue o.state).sps).length = o.rest.length := by rw [length_stepAll, hl]
    have hprev := (stepAll_previous (resetIfDue o.state) amp 0 (resetIfDue o.state).sps).trans (q1.trans p1)
    simp only
    generalize hsps : stepAll (resetIfDue o.state) amp 0 (resetIfDue o.state).sps = sps at hsl hprev
    have hstate : MatcherObj.state { o with
          arrays := o.arrays ++ [sps.map Sp.dac], previous := o.current, current := o.arrays.length, rest := restOf sps, iteration := (resetIfDue o.state).iteration + 1,
          globalStage := if (sps.all fun sp => sp.stage == 3) = true then (resetIfDue o.state).globalStage + 1 else (resetIfDue o.state).globalStage } =
        { resetIfDue o.state with sps := sps, iteration := (resetIfDue o.state).iteration + 1, globalStage := if (sps.all fun sp => sp.stage == 3) = true then (resetIfDue o.state).globalStage + 1 else (resetIfDue o.state).globalStage } := by
      refine state_of _ _ (by simp [List.getD_eq_getElem?_getD]) ?_ rfl c2.symm c1.symm rfl rfl
      simp only
      rw [hprev, List.getD_eq_getElem?_getD, List.getD_eq_getElem?_getD, List.getElem?_append_left h.1]
    have hgood : ∀ a ∈ o.arrays ++ [sps.map Sp.dac], a.length = (restOf sps).length := by
      intro a ha
      rw [restOf_length, hsl]
      rcases List.mem_append.1 ha with ha | ha
      · exact h.2.2.1 a ha
      · rw [List.mem_singleton] at ha
        rw [ha, List.length_map, hsl]
    by_cases h4 : sps.length ≠ 512
    · rw [if_pos h4, if_pos h4]
      refine ⟨hstate, ⟨by simp, by simp only [List.length_append]; have := h.1; omega, hgood, by have := h.1; simp only; omega⟩, by simp only [restOf_length, hsl], .added _ _ _ rfl rfl rfl (by simp), rfl, by simp⟩
    · rw [if_neg h4, if_neg h4]
      refine ⟨hstate, ⟨by simp, by simp only [List.length_append]; have := h.1; omega, hgood, by have := h.1; simp only; omega⟩, by simp only [restOf_length, hsl], .added _ _ _ rfl rfl rfl ?_, ?_, ?_⟩
      · intro t avg fin e
        simp only [Except.ok.injEq, Prod.mk.injEq] at e
        exact ⟨e.2.2.symm, e.1.symm, by rw [List.length_map]; omega⟩
      · simp [List.getD_eq_getElem?_getD]
      · intro t avg fin e
        simp only [Except.ok.injEq, Prod.mk.injEq] at e
        exact e.2.1.symm

theorem write_good (o : MatcherObj) (h : GoodObj o) (t : TableRef) (pos : Nat) (v : Int) : GoodObj (o.write t pos v) := by
  refine ⟨by simpa [MatcherObj.write] using h.1, by simpa [MatcherObj.write] using h.2.1, fun a ha => ?_, h.2.2.2⟩
  simp only [MatcherObj.write] at ha ⊢
  by_cases ht : t.array < o.arrays.length
  · rcases List.mem_or_eq_of_mem_set ha with ha | ha
    · exact h.2.2.1 a ha
    · rw [ha, List.length_set, h.len _ ht]
  · rw [List.set_eq_of_length_le (by omega)] at ha
    exact h.2.2.1 a ha

theorem flag_good (o : MatcherObj) (h : GoodObj o) (pos : Nat) (b : Bool) : GoodObj (o.flag pos b) := h

theorem run_good (o : MatcherObj) (h : GoodObj o) (actions : List MatcherAction) : GoodObj (o.run actions).1 := by
  induction actions generalizing o with
  | nil => exact h
  | cons a actions ih =>
    cases a with
    | call n amp => exact ih _ (call_refines o h n amp).2.1
    | write t pos v => exact ih _ (write_good o h t pos v)
    | flag pos b => exact ih _ (flag_good o h pos b)

theorem run_append (o : MatcherObj) (xs ys : List MatcherAction) :
    o.run (xs ++ ys) = (((o.run xs).1.run ys).1, (o.run xs).2 ++ ((o.run xs).1.run ys).2) := by
  induction xs generalizing o with
  | nil => rfl
  | cons a xs ih =>
    cases a with
    | call n amp => simp only [List.cons_append, MatcherObj.run, ih]
    | write t pos v => simp only [List.cons_append, MatcherObj.run, ih]
    | flag pos b => simp only [List.cons_append, MatcherObj.run, ih]

/-! ## C153 -/

/-- the means over the events, for each of `n` pixels; NaN without events -/
def AveragesOf (n : Nat) (amp : List (List ℚ)) (avg : List (Option ℚ)) : Prop :=
  avg.length = n ∧ ∀ p < n, (amp = [] → avg[p]? = some none) ∧
    (amp ≠ [] → ∃ a, avg[p]? = some (some a) ∧ a * amp.length = (amp.map fun event => event.getD p 0).sum)

theorem averagesOf_pixelAverages (n : Nat) (amp : List (List ℚ)) : AveragesOf n amp (pixelAverages n amp) := by
  refine ⟨by simp [pixelAverages], fun p hp => ⟨fun h => ?_, fun h => ?_⟩⟩
  · subst h
    simp [pixelAverages, hp]
  · have hl : (amp.length : ℚ) ≠ 0 := by
      have := List.length_pos_iff.2 h
      exact_mod_cast (by omega : amp.length ≠ 0)
    refine ⟨(amp.map fun event => event.getD p 0).sum / amp.length, ?_, div_mul_cancel₀ _ hl⟩
    unfold pixelAverages
    rw [List.getElem?_map, List.getElem?_range hp]
    simp [h]

/-- the result of a call, with shape and averages, for the values given by `process` -/
def FullResult (n : Nat) (amp : List (List ℚ)) : Except Err (List Int × Bool) → Except Err (List Nat × List Int × List (Option ℚ) × Bool) → Prop
  | .error e, .error e' => e' = e
  | .ok (dacs, fin), .ok (shape, values, avg, fin') => values = dacs ∧ fin' = fin ∧ shape = (if fin then [dacs.length] else [32, 16]) ∧ AveragesOf n amp avg
  | _, _ => False

theorem calls_refine (o : MatcherObj) (h : GoodObj o) (calls : List (Nat × List (List ℚ))) :
    (o.run (calls.map fun c => .call c.1 c.2)).1.state = (processAll o.state calls).1 ∧
    List.Forall₂ (fun x y => FullResult x.1.1 x.1.2 x.2 y) (calls.zip (processAll o.state calls).2) (o.run (calls.map fun c => .call c.1 c.2)).2 := by
  induction calls generalizing o with
  | nil => exact ⟨rfl, .nil⟩
  | cons c calls ih =>
    obtain ⟨n, amp⟩ := c
    obtain ⟨r1, r2, r3, r4, r5, r6⟩ := call_refines o h n amp
    obtain ⟨i1, i2⟩ := ih _ r2
    rw [r1] at i1 i2
    refine ⟨i1, ?_⟩
    simp only [List.map_cons, MatcherObj.run, processAll, List.zip_cons_cons]
    refine .cons ?_ i2
    rw [r5]
    cases hr : (o.call n amp).2 with
    | error e => exact rfl
    | ok x =>
      obtain ⟨t, avg, fin⟩ := x
      rw [hr] at r4
      refine ⟨rfl, rfl, ?_, by rw [r6 t avg fin hr]; exact averagesOf_pixelAverages n amp⟩
      cases r4 with
      | kept h1 h2 h3 h4 =>
        obtain ⟨f1, f2⟩ := h4 t avg fin rfl
        subst f1
        rw [h1, f2]
        simp only [if_true]
        rw [h.len _ h.1]
      | added new h1 h2 h3 h4 =>
        obtain ⟨f1, f2, -⟩ := h4 t avg fin rfl
        subst f1
        rw [f2]
        rfl

/-- **C153**, the results of every history of calls in full: the DAC values and the report of completion are those that the theorems on `process` are about, every table has the shape
(32, 16) except those of finished matchers, which have one dimension, and the third value has the mean amplitude of each pixel over the events. -/
theorem C153_calls (nPixels : Nat) (aim : ℚ) (starting : Option (List Int)) (badHv : Option (List Bool)) (calls : List (Nat × List (List ℚ))) :
    List.Forall₂ (fun x y => FullResult x.1.1 x.1.2 x.2 y) (calls.zip (processAll (newMatcher nPixels aim starting badHv) calls).2)
      ((newMatcherObj nPixels aim starting badHv).run (calls.map fun c => .call c.1 c.2)).2 := by
  obtain ⟨h1, h2⟩ := good_new nPixels aim starting badHv
  have := (calls_refine _ h1 calls).2
  rwa [h2] at this

/-- a run with one event of amplitude 6 in a full camera -/
example : (((newMatcherObj 2048 5 none none).run [.call 2048 [List.replicate 2048 6]]).2.map fun r =>
    r.toOption.map fun x => (x.1, x.2.1.take 2)) = [some ([32, 16], [110, 110])] := by decide +kernel

/-- every table can be indexed with module and superpixel, whatever happened before -/
def AlwaysByModule : Prop :=
  ∀ nPixels aim starting badHv actions n amp t avg fin, (((newMatcherObj nPixels aim starting badHv).run actions).1.call n amp).2 = .ok (t, avg, fin) →
    ∀ module < 32, ∀ superpixel < 16, ∃ d, readCell (((newMatcherObj nPixels aim starting badHv).run actions).1.call n amp).1 t module superpixel = .ok d

/-- what holds: the tables of calls that do not report completion can, and have the current DAC value of superpixel 16 * module + superpixel there. Missing from the full claim: the tables of
calls that report completion, for which every such index fails. -/
theorem C153_partial (nPixels : Nat) (aim : ℚ) (starting : Option (List Int)) (badHv : Option (List Bool)) (actions : List MatcherAction) (n : Nat) (amp : List (List ℚ)) (o : MatcherObj)
    (t : TableRef) (avg : List (Option ℚ)) (fin : Bool) (h : ((newMatcherObj nPixels aim starting badHv).run actions).1.call n amp = (o, .ok (t, avg, fin))) :
    (fin = false → ∀ module < 32, ∀ superpixel < 16, ∃ d, readCell o t module superpixel = .ok d ∧ (o.state.sps.map Sp.dac)[16 * module + superpixel]? = some d) ∧
    (fin = true → ∀ module superpixel, readCell o t module superpixel = .error .indexError) := by
  have hg := run_good _ (good_new nPixels aim starting badHv).1 actions
  obtain ⟨r1, r2, r3, r4, r5, r6⟩ := call_refines _ hg n amp
  rw [h] at r1 r2 r4
  constructor
  · rintro rfl module hm superpixel hs
    cases r4 with
    | kept h1 h2 h3 h4 => exact absurd (h4 t avg false rfl).1 (by simp)
    | added new h1 h2 h3 h4 =>
      obtain ⟨-, f2, f3⟩ := h4 t avg false rfl
      have hnew : o.arrays.getD t.array [] = new := by
        rw [f2]
        simp only at h1 h2 ⊢
        rw [h1, h2]
        simp [List.getD_eq_getElem?_getD]
      have hlt : 16 * module + superpixel < new.length := by omega
      refine ⟨new[16 * module + superpixel], ?_, ?_⟩
      · unfold readCell
        rw [hnew, f2]
        simp only
        rw [if_pos ⟨hm, hs⟩]
        unfold getIndex
        simp only
        rw [if_neg (by omega), if_neg (by omega), Int.toNat_natCast, List.getElem?_eq_getElem hlt]
      · have : o.arrays.getD o.current [] = new := by rw [← hnew, f2]
        rw [r2.parts.1, this, List.getElem?_eq_getElem hlt]
  · rintro rfl module superpixel
    cases r4 with
    | kept h1 h2 h3 h4 =>
      obtain ⟨-, f2⟩ := h4 t avg true rfl
      rw [f2]
      rfl
    | added new h1 h2 h3 h4 => exact absurd (h4 t avg true rfl).1 (by simp)

/-- C153: a module from 32 or a superpixel from 16 on is refused, also where the table has an entry at that place in memory -/
theorem C153_outside (nPixels : Nat) (aim : ℚ) (starting : Option (List Int)) (badHv : Option (List Bool)) (actions : List MatcherAction) (n : Nat) (amp : List (List ℚ)) (o : MatcherObj)
    (t : TableRef) (avg : List (Option ℚ)) (fin : Bool) (h : ((newMatcherObj nPixels aim starting badHv).run actions).1.call n amp = (o, .ok (t, avg, fin)))
    (module superpixel : Nat) (hout : 32 ≤ module ∨ 16 ≤ superpixel) : readCell o t module superpixel = .error .indexError := by
  cases fin with
  | true => exact (C153_partial nPixels aim starting badHv actions n amp o t avg true h).2 rfl module superpixel
  | false =>
    have hg := run_good _ (good_new nPixels aim starting badHv).1 actions
    obtain ⟨-, -, -, r4, -, -⟩ := call_refines _ hg n amp
    rw [h] at r4
    cases r4 with
    | kept h1 h2 h3 h4 => exact absurd (h4 t avg false rfl).1 (by simp)
    | added new h1 h2 h3 h4 =>
      obtain ⟨-, f2, -⟩ := h4 t avg false rfl
      unfold readCell
      rw [f2]
      simp only
      rw [if_neg (by omega)]

/-- superpixel 15 of module 1 is there after the first call, superpixel 16 is not -/
example : (match (newMatcherObj 2048 5 none none).call 2048 [List.replicate 2048 6] with
    | (o, .ok (t, _, _)) => ((readCell o t 1 15).toOption, (readCell o t 1 16).toOption)
    | (_, .error _) => (none, none)) = (some 110, none) := by decide +kernel

/-- the claim is false: the table of the call that reports completion has one dimension -/
theorem C153_false : ¬ AlwaysByModule := by
  intro hc
  obtain ⟨k, dacs, hk⟩ := linear_completes none fun _ h => by cases h
  have hlen : (newMatcher 2048 5 none none).sps.length = 512 := by simp [newMatcher, -List.reduceReplicate]
  unfold loopResult at hk
  rw [hlen] at hk
  obtain ⟨g1, g2⟩ := good_new 2048 5 none none
  have hstate : ∀ k, ∃ actions : List MatcherAction, ((newMatcherObj 2048 5 none none).run actions).1.state = loopState linearResponse (newMatcher 2048 5 none none) k := by
    intro k
    induction k with
    | zero => exact ⟨[], g2⟩
    | succ k ih =>
      obtain ⟨actions, ih⟩ := ih
      refine ⟨actions ++ [.call 2048 (frame linearResponse (loopState linearResponse (newMatcher 2048 5 none none) k))], ?_⟩
      rw [run_append]
      simp only [MatcherObj.run, loopState, hlen]
      rw [(call_refines _ (run_good _ g1 actions) _ _).1, ih]
  obtain ⟨actions, hs⟩ := hstate k
  obtain ⟨r1, r2, r3, r4, r5, r6⟩ := call_refines _ (run_good _ g1 actions) 2048 (frame linearResponse (loopState linearResponse (newMatcher 2048 5 none none) k))
  rw [hs, hk] at r5
  cases hr : (((newMatcherObj 2048 5 none none).run actions).1.call 2048 (frame linearResponse (loopState linearResponse (newMatcher 2048 5 none none) k))).2 with
  | error e => rw [hr] at r5; cases r5
  | ok x =>
    obtain ⟨t, avg, fin⟩ := x
    rw [hr] at r5
    simp only [Except.ok.injEq, Prod.mk.injEq] at r5
    obtain ⟨d, hd⟩ := hc 2048 5 none none actions 2048 _ t avg fin hr 0 (by omega) 0 (by omega)
    have := (C153_partial 2048 5 none none actions 2048 _ _ t avg fin (Prod.ext rfl hr)).2 r5.2.symm 0 0
    rw [hd] at this
    cases this

/-! ## C154 -/

/-- the same but for what is in array `k`, which is not in use -/
structure SameBut (k : Nat) (o o' : MatcherObj) : Prop where
  rest : o'.aim = o.aim ∧ o'.mask = o.mask ∧ o'.globalStage = o.globalStage ∧ o'.iteration = o.iteration ∧ o'.current = o.current ∧ o'.previous = o.previous ∧ o'.rest = o.rest
  len : o'.arrays.length = o.arrays.length
  arrays : ∀ j, j ≠ k → o'.arrays[j]? = o.arrays[j]?
  unused : k < o.arrays.length ∧ k ≠ o.current ∧ k ≠ o.previous

theorem SameBut.getD {k : Nat} {o o' : MatcherObj} (h : SameBut k o o') (j : Nat) (hj : j ≠ k) : o'.arrays.getD j [] = o.arrays.getD j [] := by
  rw [List.getD_eq_getElem?_getD, List.getD_eq_getElem?_getD, h.arrays j hj]

theorem SameBut.state {k : Nat} {o o' : MatcherObj} (h : SameBut k o o') : o'.state = o.state := by
  obtain ⟨a, b, c, d, e, f, g⟩ := h.rest
  unfold MatcherObj.state
  rw [a, b, c, d, e, f, g, h.getD _ h.unused.2.1.symm, h.getD _ h.unused.2.2.symm]

/-- a call does the same, and what it returns has the same values -/
theorem SameBut.call {k : Nat} {o o' : MatcherObj} (h : SameBut k o o') (n : Nat) (amp : List (List ℚ)) :
    SameBut k (o.call n amp).1 (o'.call n amp).1 ∧ (o'.call n amp).2 = (o.call n amp).2 ∧
    ∀ t avg fin, (o.call n amp).2 = .ok (t, avg, fin) → t.array ≠ k := by
  have hs := h.state
  obtain ⟨a, b, c, d, e, f, g⟩ := h.rest
  obtain ⟨u1, u2, u3⟩ := h.unused
  unfold MatcherObj.call
  rw [hs]
  by_cases h1 : amp ≠ [] ∧ n % 4 ≠ 0
  · rw [if_pos h1, if_pos h1]
    exact ⟨h, rfl, by simp⟩
  rw [if_neg h1, if_neg h1]
  simp only
  by_cases h2 : (resetIfDue o.state).globalStage = 3
  · rw [if_pos h2, if_pos h2]
    refine ⟨⟨⟨a, b, rfl, rfl, e, f, rfl⟩, h.len, h.arrays, h.unused⟩, ?_, ?_⟩
    · simp only
      rw [e, h.getD _ u2.symm]
    · intro t avg fin ht
      simp only [Except.ok.injEq, Prod.mk.injEq] at ht
      rw [← ht.1]
      exact u2.symm
  rw [if_neg h2, if_neg h2]
  cases h3 : stepFails (resetIfDue o.state) (n / 4) amp.isEmpty 0 (resetIfDue o.state).sps with
  | some err => exact ⟨⟨⟨a, b, rfl, rfl, e, f, rfl⟩, h.len, h.arrays, h.unused⟩, rfl, by simp⟩
  | none =>
    simp only
    generalize stepAll (resetIfDue o.state) amp 0 (resetIfDue o.state).sps = sps
    have hsame : SameBut k
        { o with
          arrays := o.arrays ++ [sps.map Sp.dac], previous := o.current, current := o.arrays.length, rest := restOf sps, iteration := (resetIfDue o.state).iteration + 1,
          globalStage := if (sps.all fun sp => sp.stage == 3) = true then (resetIfDue o.state).globalStage + 1 else (resetIfDue o.state).globalStage }
        { o' with
          arrays := o'.arrays ++ [sps.map Sp.dac], previous := o'.current, current := o'.arrays.length, rest := restOf sps, iteration := (resetIfDue o.state).iteration + 1,
          globalStage := if (sps.all fun sp => sp.stage == 3) = true then (resetIfDue o.state).globalStage + 1 else (resetIfDue o.state).globalStage } := by
      refine ⟨⟨a, b, rfl, rfl, h.len, e, rfl⟩, by simp [h.len], fun j hj => ?_, by simp; omega, by simp only; omega, u2⟩
      simp only
      by_cases hlt : j < o.arrays.length
      · rw [List.getElem?_append_left hlt, List.getElem?_append_left (by rw [h.len]; exact hlt), h.arrays j hj]
      · have hlen := h.len
        rw [List.getElem?_append_right (by omega), List.getElem?_append_right (by omega), hlen]
    by_cases h4 : sps.length ≠ 512
    · rw [if_pos h4, if_pos h4]
      exact ⟨hsame, rfl, by simp⟩
    · rw [if_neg h4, if_neg h4]
      refine ⟨hsame, by simp only; rw [h.len], ?_⟩
      intro t avg fin ht
      simp only [Except.ok.injEq, Prod.mk.injEq] at ht
      rw [← ht.1]
      simp only
      omega

theorem SameBut.run {k : Nat} {o o' : MatcherObj} (h : SameBut k o o') (actions : List MatcherAction) : (o'.run actions).2 = (o.run actions).2 := by
  induction actions generalizing o o' with
  | nil => rfl
  | cons a actions ih =>
    cases a with
    | call n amp =>
      obtain ⟨c1, c2, c3⟩ := h.call n amp
      simp only [MatcherObj.run]
      rw [ih c1, c2]
      congr 1
      cases hr : (o.call n amp).2 with
      | error e => rfl
      | ok x =>
        obtain ⟨t, avg, fin⟩ := x
        simp only [MatcherObj.shown]
        rw [c1.getD _ (c3 t avg fin hr)]
    | write t pos v =>
      refine ih ⟨h.rest, ?_, ?_, ?_⟩
      · simp [MatcherObj.write, h.len]
      · intro j hj
        simp only [MatcherObj.write, List.getElem?_set]
        rw [h.len, h.arrays j hj]
        by_cases ht : t.array = j
        · rw [if_pos ht, if_pos ht, h.getD _ (by rw [ht]; exact hj)]
        · rw [if_neg ht, if_neg ht]
      · simpa [MatcherObj.write] using h.unused
    | flag pos b =>
      obtain ⟨a, b', c, d, e, f, g⟩ := h.rest
      refine ih ⟨⟨a, ?_, c, d, e, f, g⟩, h.len, h.arrays, h.unused⟩
      simp only [MatcherObj.flag]
      rw [b']

/-- the number of tables returned by calls that did not report completion -/
def newTables (results : List (Except Err (List Nat × List Int × List (Option ℚ) × Bool))) : Nat :=
  results.countP fun r => match r with
    | .ok (_, _, _, fin) => !fin
    | .error _ => false

/-- an array is not in use any more two tables later -/
theorem out_of_use (o : MatcherObj) (h : GoodObj o) (k : Nat) (hk : k < o.arrays.length) (actions : List MatcherAction) :
    k < (o.run actions).1.arrays.length ∧
    (1 ≤ newTables (o.run actions).2 ∨ k ≠ o.current → k ≠ (o.run actions).1.current) ∧
    (2 ≤ newTables (o.run actions).2 ∨ (1 ≤ newTables (o.run actions).2 ∧ k ≠ o.current) ∨ (k ≠ o.current ∧ k ≠ o.previous) → k ≠ (o.run actions).1.previous) := by
  induction actions generalizing o with
  | nil => exact ⟨hk, by simp [newTables, MatcherObj.run], by simp [newTables, MatcherObj.run]⟩
  | cons a actions ih =>
    cases a with
    | write t pos v => exact ih _ (write_good o h t pos v) (by simpa [MatcherObj.write] using hk)
    | flag pos b => exact ih _ (flag_good o h pos b) hk
    | call n amp =>
      obtain ⟨-, r2, -, r4, -, -⟩ := call_refines o h n amp
      have hrest := ih _ r2
      simp only [MatcherObj.run]
      cases r4 with
      | kept h1 h2 h3 h4 =>
        rw [h1, h2, h3] at hrest
        have hn : ∀ rs, newTables ((o.call n amp).1.shown (o.call n amp).2 :: rs) = newTables rs := by
          intro rs
          unfold newTables
          rw [List.countP_cons]
          cases hr : (o.call n amp).2 with
          | error e => simp [MatcherObj.shown]
          | ok x =>
            obtain ⟨t, avg, fin⟩ := x
            simp [MatcherObj.shown, (h4 t avg fin hr).1]
        rw [hn]
        exact hrest hk
      | added new h1 h2 h3 h4 =>
        rw [h1, h2, h3] at hrest
        obtain ⟨i1, i2, i3⟩ := hrest (by simp; omega)
        refine ⟨i1, fun _ => i2 (Or.inr (by omega)), fun hc => i3 ?_⟩
        by_cases hkc : k = o.current
        · have hle : ∀ x rs, newTables (x :: rs) ≤ newTables rs + 1 := by
            intro x rs
            unfold newTables
            rw [List.countP_cons]
            have : ∀ b : Bool, (if b = true then 1 else 0) ≤ 1 := by decide
            have := this (match x with
              | .ok (_, _, _, fin) => !fin
              | .error _ => false)
            omega
          rcases hc with hc | ⟨-, hc⟩ | ⟨hc, -⟩
          · exact Or.inr (Or.inl ⟨by have := hle _ _ |>.trans' hc; omega, by omega⟩)
          · exact absurd hkc hc
          · exact absurd hkc hc
        · exact Or.inr (Or.inr ⟨by omega, hkc⟩)

/-- the tables belong to the caller: writing into a table returned by a call changes no later result -/
def OwnTables : Prop :=
  ∀ nPixels aim starting badHv before n amp o t avg fin pos v later, ((newMatcherObj nPixels aim starting badHv).run before).1.call n amp = (o, .ok (t, avg, fin)) →
    ((o.write t pos v).run later).2 = (o.run later).2

/-- what holds: writing into a table changes no later result once two more tables have been returned by calls that did not report completion, whatever else was done meanwhile. Missing from
the full claim: the two latest tables, of which the latest is what the matcher takes for the values set (`C154_taken`), and the table of a finished matcher (`C154_finished`). -/
theorem C154_partial (nPixels : Nat) (aim : ℚ) (starting : Option (List Int)) (badHv : Option (List Bool)) (before : List MatcherAction) (n : Nat) (amp : List (List ℚ)) (o : MatcherObj)
    (t : TableRef) (avg : List (Option ℚ)) (fin : Bool) (h : ((newMatcherObj nPixels aim starting badHv).run before).1.call n amp = (o, .ok (t, avg, fin)))
    (between : List MatcherAction) (h2 : 2 ≤ newTables (o.run between).2) (pos : Nat) (v : Int) (later : List MatcherAction) :
    (((o.run between).1.write t pos v).run later).2 = ((o.run between).1.run later).2 := by
  have hg := run_good _ (good_new nPixels aim starting badHv).1 before
  obtain ⟨-, r2, -, r4, -, -⟩ := call_refines _ hg n amp
  rw [h] at r2 r4
  simp only at r2 r4
  have ht : t.array < o.arrays.length := by
    cases r4 with
    | kept h1 h2 h3 h4 => rw [(h4 t avg fin rfl).2, h1]; exact hg.1
    | added new h1 h2 h3 h4 => rw [(h4 t avg fin rfl).2.1]; exact r2.1
  obtain ⟨u1, u2, u3⟩ := out_of_use o r2 t.array ht between
  have hsame : SameBut t.array (o.run between).1 ((o.run between).1.write t pos v) := by
    refine ⟨⟨rfl, rfl, rfl, rfl, rfl, rfl, rfl⟩, by simp [MatcherObj.write], fun j hj => ?_, u1, u2 (Or.inl (by omega)), u3 (Or.inl h2)⟩
    simp only [MatcherObj.write, List.getElem?_set, if_neg hj.symm]
  exact hsame.run later

/-- the matcher takes what was written into the latest table for the value set: a call after it does what it does if the superpixel had been set to `v` -/
theorem C154_taken (nPixels : Nat) (aim : ℚ) (starting : Option (List Int)) (badHv : Option (List Bool)) (before : List MatcherAction) (n : Nat) (amp : List (List ℚ)) (o : MatcherObj)
    (t : TableRef) (avg : List (Option ℚ)) (fin : Bool) (h : ((newMatcherObj nPixels aim starting badHv).run before).1.call n amp = (o, .ok (t, avg, fin)))
    (i : Nat) (v : Int) (later : List (Nat × List (List ℚ))) :
    List.Forall₂ (fun x y => FullResult x.1.1 x.1.2 x.2 y)
      (later.zip (processAll { o.state with sps := o.state.sps.modify i fun sp => { sp with dac := v } } later).2)
      ((o.write t i v).run (later.map fun c => .call c.1 c.2)).2 := by
  have hg := run_good _ (good_new nPixels aim starting badHv).1 before
  obtain ⟨-, r2, -, r4, -, -⟩ := call_refines _ hg n amp
  rw [h] at r2 r4
  simp only at r2 r4
  have hcur : t.array = o.current := by
    cases r4 with
    | kept h1 h2 h3 h4 => rw [(h4 t avg fin rfl).2, h2]
    | added new h1 h2 h3 h4 => rw [(h4 t avg fin rfl).2.1]
  obtain ⟨p1, p2, p3⟩ := r2.parts
  have hstate : (o.write t i v).state = { o.state with sps := o.state.sps.modify i fun sp => { sp with dac := v } } := by
    have hmap : ∀ (f : Sp → Int) (l : List Sp) (i : Nat), (∀ sp, f { sp with dac := v } = f sp) → (l.modify i fun sp => { sp with dac := v }).map f = l.map f := by
      intro f l i hf
      refine List.ext_getElem? fun j => ?_
      rw [List.getElem?_map, List.getElem?_map, List.getElem?_modify]
      cases l[j]? with
      | none => rfl
      | some sp =>
        by_cases hij : i = j
        · simp [hij, hf]
        · simp [hij]
    refine state_of _ _ ?_ ?_ ?_ rfl rfl rfl rfl
    · simp only [MatcherObj.write, hcur]
      rw [← p1]
      refine List.ext_getElem? fun j => ?_
      rw [List.getD_eq_getElem?_getD, List.getElem?_set_self r2.1, Option.getD_some, List.getElem?_map, List.getElem?_modify, List.getElem?_set, List.getElem?_map,
        List.length_map]
      by_cases hij : i = j
      · subst hij
        by_cases hl : i < o.state.sps.length
        · rw [List.getElem?_eq_getElem hl]
          simp [hl]
        · rw [List.getElem?_eq_none (by omega)]
          simp [hl]
      · rw [if_neg hij]
        cases o.state.sps[j]? <;> simp [hij]
    · simp only [MatcherObj.write, hcur]
      rw [hmap Sp.prevDac _ _ fun _ => rfl, p2, List.getD_eq_getElem?_getD, List.getD_eq_getElem?_getD, List.getElem?_set_ne r2.2.2.2]
    · simp only [MatcherObj.write]
      rw [← p3]
      unfold restOf
      refine List.ext_getElem? fun j => ?_
      rw [List.getElem?_map, List.getElem?_map, List.getElem?_modify]
      cases o.state.sps[j]? with
      | none => rfl
      | some sp => by_cases hij : i = j <;> simp [hij]
  have := (calls_refine _ (write_good o r2 t i v) later).2
  rwa [hstate] at this

/-- the table of a finished matcher is what it returns from then on, with whatever was written into it -/
theorem C154_finished (nPixels : Nat) (aim : ℚ) (starting : Option (List Int)) (badHv : Option (List Bool)) (before : List MatcherAction) (n : Nat) (amp : List (List ℚ)) (o : MatcherObj)
    (t : TableRef) (avg : List (Option ℚ)) (h : ((newMatcherObj nPixels aim starting badHv).run before).1.call n amp = (o, .ok (t, avg, true)))
    (i : Nat) (v : Int) (n' : Nat) (amp' : List (List ℚ)) (hn : n' % 4 = 0) :
    ∃ avg', ((o.write t i v).run [.call n' amp']).2 = [.ok (t.shape, (o.arrays.getD t.array []).set i v, avg', true)] := by
  have hg := run_good _ (good_new nPixels aim starting badHv).1 before
  obtain ⟨r1, r2, -, r4, r5, -⟩ := call_refines _ hg n amp
  rw [h] at r1 r2 r4 r5
  simp only at r1 r2 r4 r5
  have hcur : t.array = o.current ∧ t.shape = [o.rest.length] := by
    cases r4 with
    | kept h1 h2 h3 h4 =>
      have := (h4 t avg true rfl).2
      rw [this, h2]
      refine ⟨rfl, ?_⟩
      simp only
      rw [← r2.len o.current r2.1, ← hg.len _ hg.1, h1, h2]
    | added new h1 h2 h3 h4 => exact absurd (h4 t avg true rfl).1 (by simp)
  have hstage : o.globalStage = 3 := by
    rcases process_ok_inv _ _ _ _ r5 with ⟨e1, e2, -⟩ | ⟨-, -, e3⟩
    · have : o.state.globalStage = 3 := by rw [r1, e2]; exact e1
      exact this
    · injection e3 with _ e3
      cases e3
  have hreset : resetIfDue (o.write t i v).state = (o.write t i v).state := (resetIfDue_const _).2.2.2.1 (by
    show o.globalStage ≠ 1
    omega)
  have hc : ((o.write t i v).call n' amp').2 = .ok (⟨o.current, [((o.write t i v).arrays.getD o.current []).length]⟩, pixelAverages n' amp', true) := by
    unfold MatcherObj.call
    rw [if_neg (by rintro ⟨-, h⟩; exact h hn)]
    simp only [hreset]
    rw [if_pos (show (o.write t i v).state.globalStage = 3 from hstage)]
    rfl
  have ha : ((o.write t i v).call n' amp').1.arrays = (o.write t i v).arrays := by
    unfold MatcherObj.call
    rw [if_neg (by rintro ⟨-, h⟩; exact h hn)]
    simp only [hreset]
    rw [if_pos (show (o.write t i v).state.globalStage = 3 from hstage)]
  have hw : (o.write t i v).arrays.getD o.current [] = (o.arrays.getD t.array []).set i v := by
    simp only [MatcherObj.write, hcur.1]
    rw [List.getD_eq_getElem?_getD, List.getElem?_set_self r2.1, Option.getD_some]
  refine ⟨pixelAverages n' amp', ?_⟩
  simp only [MatcherObj.run, hc, MatcherObj.shown, ha]
  rw [hw, List.length_set, hcur.1, r2.len _ r2.1, hcur.2]

/-- all superpixels too bright by 1 -/
def brightFrame : List (List ℚ) := [List.replicate 2048 6]

/-- superpixel 0 moves on by 10 as long as it is not finished -/
theorem bright_step (m : Matcher) (ha : m.aim = 5) (hl : m.sps.length = 512) (hm : m.mask = List.replicate 512 false) (hg : m.globalStage = 0) (sp : Sp)
    (h0 : m.sps[0]? = some sp) (hs : sp.stage = 0) (hd : 10 ≤ sp.dac ∧ sp.dac ≤ 240) (hp : m.iteration = 0 ∨ sp.prevDist = 1 / 25) :
    ∃ dacs, (process m 2048 brightFrame).2 = .ok (dacs, false) ∧ dacs[0]? = some (sp.dac + 10) ∧
      (process m 2048 brightFrame).1.sps[0]? = some ⟨sp.dac + 10, sp.dac, 1 / 25, 0⟩ ∧ (process m 2048 brightFrame).1.globalStage = 0 ∧
      (process m 2048 brightFrame).1.sps.length = 512 := by
  have hr : resetIfDue m = m := (resetIfDue_const m).2.2.2.1 (by omega)
  have havg : spAverage brightFrame 0 = 6 := by
    unfold spAverage brightFrame
    simp only [List.map_cons, List.map_nil, List.sum_cons, List.sum_nil, List.length_singleton]
    norm_num [List.getD_eq_getElem?_getD, List.getElem?_replicate]
  have hdist : distanceOf 5 6 = 1 / 25 := by norm_num [distanceOf]
  have hdir : directionOf 5 6 = 1 := by norm_num [directionOf, npSign]
  have hstep : stepAt m brightFrame 0 sp = ⟨sp.dac + 10, sp.dac, 1 / 25, 0⟩ := by
    unfold stepAt stepSp nextDac
    rw [ha, havg, hdist, hdir, hm, show (List.replicate 512 false).getD 0 false = false from rfl, if_neg (by omega), if_neg (by simp)]
    have hprev : (if m.iteration = 0 then (1 / 25 : ℚ) else sp.prevDist) = 1 / 25 := by
      rcases hp with hp | hp
      · rw [if_pos hp]
      · rw [hp]; simp
    simp only [hprev, lt_irrefl, if_false, hs, if_true]
    rw [if_neg (by omega), if_neg (by omega)]
    simp
  have hget : (stepped m brightFrame).sps[0]? = some ⟨sp.dac + 10, sp.dac, 1 / 25, 0⟩ := by
    unfold stepped
    simp only
    rw [getElem?_stepAll, hr, h0, Nat.zero_add, Option.map_some, hstep]
  have hlen : (stepped m brightFrame).sps.length = 512 := by
    unfold stepped
    simp only
    rw [length_stepAll, hr, hl]
  have hp := process_steps m 2048 brightFrame (by unfold brightFrame; exact List.cons_ne_nil _ _) (by norm_num) (by omega) (by rw [hl, hm, List.length_replicate]) (by rw [hl])
  rw [if_pos hl] at hp
  rw [hp]
  refine ⟨_, rfl, by rw [List.getElem?_map, hget]; rfl, hget, ?_, hlen⟩
  unfold stepped at hget ⊢
  simp only at hget ⊢
  rw [if_neg, hr, hg]
  intro hall
  have := List.all_eq_true.1 hall _ (List.mem_of_getElem? hget)
  simp at this

theorem full_table {n : Nat} {amp : List (List ℚ)} {dacs : List Int} {x : Except Err (List Nat × List Int × List (Option ℚ) × Bool)} (h : FullResult n amp (.ok (dacs, false)) x) :
    ∃ avg, x = .ok ([32, 16], dacs, avg, false) := by
  match x, h with
  | .ok (shape, values, avg, fin), h =>
    obtain ⟨rfl, rfl, rfl, -⟩ := h
    exact ⟨avg, rfl⟩

theorem one_table (m : Matcher) (n : Nat) (amp : List (List ℚ)) (dacs : List Int) (results : List (Except Err (List Nat × List Int × List (Option ℚ) × Bool)))
    (h : List.Forall₂ (fun x y => FullResult x.1.1 x.1.2 x.2 y) ([(n, amp)].zip (processAll m [(n, amp)]).2) results) (hp : (process m n amp).2 = .ok (dacs, false)) :
    ∃ avg, results = [.ok ([32, 16], dacs, avg, false)] := by
  simp only [processAll, hp, List.zip_cons_cons, List.zip_nil_right] at h
  match results, h with
  | [x], h =>
    rw [List.forall₂_cons] at h
    obtain ⟨avg, h⟩ := full_table h.1
    exact ⟨avg, by rw [h]⟩

theorem not_taken (o : MatcherObj) (r2 : GoodObj o) (ha : o.state.aim = 5) (hm : o.state.mask = List.replicate 512 false) (e3 : o.state.sps[0]? = some ⟨110, 100, 1 / 25, 0⟩)
    (e4 : o.state.globalStage = 0) (e5 : o.state.sps.length = 512)
    (taken : List.Forall₂ (fun x y => FullResult x.1.1 x.1.2 x.2 y)
      ([(2048, brightFrame)].zip (processAll { o.state with sps := o.state.sps.modify 0 fun sp => { sp with dac := 200 } } [(2048, brightFrame)]).2)
      (o.run [.call 2048 brightFrame]).2) : False := by
  obtain ⟨d1, f1, f2, -⟩ := bright_step o.state ha e5 hm e4 _ e3 rfl (by norm_num) (Or.inr rfl)
  obtain ⟨d2, f3, f4, -⟩ := bright_step { o.state with sps := o.state.sps.modify 0 fun sp => { sp with dac := 200 } } ha (by rw [List.length_modify]; exact e5) hm e4
    ⟨200, 100, 1 / 25, 0⟩ (by rw [List.getElem?_modify, e3]; rfl) rfl (by norm_num) (Or.inr rfl)
  obtain ⟨a1, b1⟩ := one_table _ _ _ _ _ (calls_refine o r2 [(2048, brightFrame)]).2 f1
  obtain ⟨a2, b2⟩ := one_table _ _ _ _ _ taken f3
  have b := b1.symm.trans b2
  simp only [List.cons.injEq, Except.ok.injEq, Prod.mk.injEq] at b
  rw [b.1.2.1, f4] at f2
  norm_num at f2

theorem pair_of {α β : Type} (p : α × β) (y : β) (h : p.2 = y) : p = (p.1, y) := by rw [← h]

/-- the claim is false: a value written into the first table is where the second call continues from -/
theorem C154_false : ¬ OwnTables := by
  intro hc
  have hc := hc 2048 5 none none []
  have ht := C154_taken 2048 5 none none []
  obtain ⟨g1, g2⟩ := good_new 2048 5 none none
  have hlen : (newMatcher 2048 5 none none).sps.length = 512 := by simp [newMatcher, -List.reduceReplicate]
  have h0 : (newMatcher 2048 5 none none).sps[0]? = some ⟨100, 100, 0, 0⟩ := by
    unfold newMatcher
    simp only [Option.getD_none]
    rw [List.getElem?_map, List.getElem?_replicate_of_lt (by norm_num)]
    rfl
  have hmask : (newMatcher 2048 5 none none).mask = List.replicate 512 false := rfl
  have haim : (newMatcher 2048 5 none none).aim = 5 := rfl
  have hstage : (newMatcher 2048 5 none none).globalStage = 0 := rfl
  have hiter : (newMatcher 2048 5 none none).iteration = 0 := rfl
  generalize newMatcher 2048 5 none none = m at g2 hlen h0 hmask haim hstage hiter
  generalize newMatcherObj 2048 5 none none = o0 at hc ht g1 g2
  have hrun0 : (o0.run []).1 = o0 := rfl
  rw [hrun0] at hc ht
  obtain ⟨dacs, e1, -, e3, e4, e5⟩ := bright_step m haim hlen hmask hstage _ h0 rfl (by norm_num) (Or.inl hiter)
  obtain ⟨r1, r2, -, r4, r5, r6⟩ := call_refines _ g1 2048 brightFrame
  rw [g2] at r1 r5
  rw [e1] at r5
  cases hr : (o0.call 2048 brightFrame).2 with
  | error e => rw [hr] at r5; cases r5
  | ok x =>
    obtain ⟨t, avg, fin⟩ := x
    have hcall : o0.call 2048 brightFrame = ((o0.call 2048 brightFrame).1, .ok (t, avg, fin)) := pair_of _ _ hr
    rw [show (100 : Int) + 10 = 110 from rfl] at e3
    have heq := hc 2048 brightFrame (o0.call 2048 brightFrame).1 t avg fin 0 200 [.call 2048 brightFrame] hcall
    have ha : (o0.call 2048 brightFrame).1.state.aim = 5 := by rw [r1, (process_const _ _ _).2, haim]
    have hm : (o0.call 2048 brightFrame).1.state.mask = List.replicate 512 false := by rw [r1, (process_const _ _ _).1, hmask]
    rw [← r1] at e3 e4 e5
    have taken := ht 2048 brightFrame _ t avg fin hcall 0 200 [(2048, brightFrame)]
    rw [List.map_singleton, heq] at taken
    exact not_taken _ r2 ha hm e3 e4 e5 taken

theorem two_tables (m : Matcher) (n : Nat) (amp : List (List ℚ)) (d1 d2 : List Int) (results : List (Except Err (List Nat × List Int × List (Option ℚ) × Bool)))
    (h : List.Forall₂ (fun x y => FullResult x.1.1 x.1.2 x.2 y) ([(n, amp), (n, amp)].zip (processAll m [(n, amp), (n, amp)]).2) results) (h1 : (process m n amp).2 = .ok (d1, false))
    (h2 : (process (process m n amp).1 n amp).2 = .ok (d2, false)) : 2 ≤ newTables results := by
  simp only [processAll, h1, h2, List.zip_cons_cons, List.zip_nil_right] at h
  match results, h with
  | [x, y], h =>
    rw [List.forall₂_cons, List.forall₂_cons] at h
    obtain ⟨a1, b1⟩ := full_table h.1
    obtain ⟨a2, b2⟩ := full_table h.2.1
    rw [b1, b2]
    simp [newTables]

/-- two new tables in two calls with a bright camera, as `C154_partial` asks for -/
example : 2 ≤ newTables ((newMatcherObj 2048 5 none none).run [.call 2048 brightFrame, .call 2048 brightFrame]).2 := by
  obtain ⟨g1, g2⟩ := good_new 2048 5 none none
  have hlen : (newMatcher 2048 5 none none).sps.length = 512 := by simp [newMatcher, -List.reduceReplicate]
  have h0 : (newMatcher 2048 5 none none).sps[0]? = some ⟨100, 100, 0, 0⟩ := by
    unfold newMatcher
    simp only [Option.getD_none]
    rw [List.getElem?_map, List.getElem?_replicate_of_lt (by norm_num)]
    rfl
  have hmask : (newMatcher 2048 5 none none).mask = List.replicate 512 false := rfl
  have haim : (newMatcher 2048 5 none none).aim = 5 := rfl
  have hstage : (newMatcher 2048 5 none none).globalStage = 0 := rfl
  have hiter : (newMatcher 2048 5 none none).iteration = 0 := rfl
  generalize newMatcher 2048 5 none none = m at g2 hlen h0 hmask haim hstage hiter
  generalize newMatcherObj 2048 5 none none = o at g1 g2 ⊢
  obtain ⟨dacs, e1, -, e3, e4, e5⟩ := bright_step m haim hlen hmask hstage _ h0 rfl (by norm_num) (Or.inl hiter)
  have c1 := (process_const m 2048 brightFrame).1.trans hmask
  have c2 := (process_const m 2048 brightFrame).2.trans haim
  obtain ⟨d1, f1, -⟩ := bright_step (process m 2048 brightFrame).1 c2 e5 c1 e4 _ e3 rfl (by norm_num) (Or.inr rfl)
  have k := (calls_refine o g1 [(2048, brightFrame), (2048, brightFrame)]).2
  rw [g2] at k
  exact two_tables m 2048 brightFrame dacs d1 _ k e1 f1

end Verif.Props
