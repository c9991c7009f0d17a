import Verif.Props.MatcherTables

/-!
# Superpixels flagged while the matching is under way (C158)

The constructor of `AmplitudeMatcher` keeps the array given as `bad_hv` itself (`calib/amplitude_matcher.py:57`: `ravel` gives a view), so a caller who learns of a broken superpixel can
flag it there.
-/

namespace Verif.Props

open Verif.Py Verif.Model Verif.Spec Verif.Lemmas

/-- a result without shape and averages -/
def valuesOf : Except Err (List Nat × List Int × List (Option ℚ) × Bool) → Except Err (List Int × Bool)
  | .error e => .error e
  | .ok (_, values, _, finished) => .ok (values, finished)

theorem run_values (o : MatcherObj) (h : GoodObj o) (calls : List (Nat × List (List ℚ))) :
    (o.run (calls.map fun c => .call c.1 c.2)).2.map valuesOf = (processAll o.state calls).2 := by
  induction calls generalizing o with
  | nil => rfl
  | cons c calls ih =>
    obtain ⟨n, amp⟩ := c
    obtain ⟨r1, r2, -, -, r5, -⟩ := call_refines o h n amp
    simp only [List.map_cons, MatcherObj.run, processAll]
    rw [ih _ r2, r1, r5]
    cases hr : (o.call n amp).2 with
    | error e => rfl
    | ok x => rfl

theorem call_mask (o : MatcherObj) (n : Nat) (amp : List (List ℚ)) : (o.call n amp).1.mask = o.mask := by
  unfold MatcherObj.call
  split
  · rfl
  · simp only
    split
    · rfl
    · split
      · rfl
      · split <;> rfl

theorem run_mask_length (o : MatcherObj) (actions : List MatcherAction) : (o.run actions).1.mask.length = o.mask.length := by
  induction actions generalizing o with
  | nil => rfl
  | cons a as ih =>
    cases a with
    | call n amp => simp only [MatcherObj.run, ih, call_mask]
    | write t pos v => simp only [MatcherObj.run, ih, MatcherObj.write]
    | flag pos b => simp only [MatcherObj.run, ih, MatcherObj.flag, List.length_set]

/-- a call leaves the value of a flagged superpixel or sets 255 -/
theorem flagged_change (m : Matcher) (n : Nat) (amp : List (List ℚ)) (i : Nat) (hm : m.mask.getD i false = true) (sp' : Sp)
    (h : (process m n amp).1.sps[i]? = some sp') : ∃ sp, m.sps[i]? = some sp ∧ (sp'.dac = 255 ∨ sp'.dac = sp.dac) := by
  obtain ⟨sp, h1, h2⟩ := process_change m n amp i sp' h
  have hseen : (seen m sp).dac = sp.dac := by unfold seen; split <;> rfl
  refine ⟨sp, h1, ?_⟩
  cases h2 with
  | same => exact Or.inr rfl
  | reset => exact Or.inr hseen
  | step =>
    unfold stepAt stepSp nextDac
    rw [(resetIfDue_const m).1, hm]
    by_cases h3 : (seen m sp).stage = 3
    · rw [if_pos h3]; exact Or.inr hseen
    · rw [if_neg h3]; exact Or.inl rfl
  | spoil => exact Or.inr hseen

/-- every table of a matcher with a flagged superpixel has one of two values there -/
theorem flagged_calls (i : Nat) (v : Int) (dacs : List Int) (fin : Bool) (e : Int) (hd : dacs[i]? = some e) (calls : List (Nat × List (List ℚ))) (m : Matcher)
    (hm : m.mask.getD i false = true) (hv : ∀ sp, m.sps[i]? = some sp → sp.dac = 255 ∨ sp.dac = v) (hr : .ok (dacs, fin) ∈ (processAll m calls).2) : e = 255 ∨ e = v := by
  induction calls generalizing m with
  | nil => cases hr
  | cons c calls ih =>
    obtain ⟨n, a⟩ := c
    have hv' : ∀ sp, (process m n a).1.sps[i]? = some sp → sp.dac = 255 ∨ sp.dac = v := by
      intro sp' h'
      obtain ⟨sp, h1, h2⟩ := flagged_change m n a i hm sp' h'
      rcases h2 with h2 | h2
      · exact Or.inl h2
      · rw [h2]; exact hv sp h1
    rcases List.mem_cons.1 hr with hr | hr
    · have hsps : dacs = (process m n a).1.sps.map Sp.dac := by
        rcases process_ok_inv m n a _ hr.symm with ⟨-, he, h⟩ | ⟨-, he, h⟩ <;> rw [he] <;> injection h
      rw [hsps, List.getElem?_map, Option.map_eq_some_iff] at hd
      obtain ⟨sp, h1, rfl⟩ := hd
      exact hv' sp h1
    · exact ih _ (by rw [(process_const m n a).1]; exact hm) hv' hr

/-- flagged before the second pass has begun, a superpixel has 255 in the final table -/
theorem flagged_final (i : Nat) (dacs : List Int) (e : Int) (hd : dacs[i]? = some e) (calls : List (Nat × List (List ℚ))) (m : Matcher)
    (hm : m.mask.getD i false = true) (hg : m.globalStage ≤ 1 ∨ m.globalStage ≤ 3 ∧ ∀ sp, m.sps[i]? = some sp → sp.dac = 255)
    (hok : ∀ r ∈ (processAll m calls).2, ∃ t, r = .ok t) (hr : .ok (dacs, true) ∈ (processAll m calls).2) : e = 255 := by
  induction calls generalizing m with
  | nil => cases hr
  | cons c calls ih =>
    obtain ⟨n, a⟩ := c
    obtain ⟨r1, hr1⟩ := hok (process m n a).2 (by simp [processAll])
    have hok' : ∀ r ∈ (processAll (process m n a).1 calls).2, ∃ t, r = .ok t := fun r h => hok r (by simp [processAll, h])
    have hm' : (process m n a).1.mask.getD i false = true := by rw [(process_const m n a).1]; exact hm
    have hg' : (process m n a).1.globalStage ≤ 1 ∨ (process m n a).1.globalStage ≤ 3 ∧ ∀ sp, (process m n a).1.sps[i]? = some sp → sp.dac = 255 := by
      rcases hg with hg | ⟨hg, hv⟩
      · by_cases h0 : m.globalStage = 0
        · left
          rcases process_global m n a (by omega) with h | ⟨h, -⟩ | ⟨⟨-, h⟩ | ⟨h, -⟩, -⟩ <;> omega
        · have h1 : m.globalStage = 1 := by omega
          right
          constructor
          · rcases process_global m n a (by omega) with h | ⟨-, h⟩ | ⟨⟨-, h⟩ | ⟨-, h⟩, -⟩ <;> omega
          · intro sp hsp
            rcases process_ok_inv m n a _ hr1 with ⟨h3, -⟩ | ⟨-, he, -⟩
            · omega
            · rw [he] at hsp
              simp only at hsp
              rw [stepped_get, Option.map_eq_some_iff] at hsp
              obtain ⟨sp0, -, rfl⟩ := hsp
              unfold stepAt stepSp nextDac seen
              rw [(resetIfDue_const m).1, hm, if_pos h1]
              rfl
      · right
        constructor
        · rcases process_global m n a hg with h | ⟨-, h⟩ | ⟨⟨-, h⟩ | ⟨-, h⟩, -⟩ <;> omega
        · intro sp' h'
          obtain ⟨sp, h1, h2⟩ := flagged_change m n a i hm sp' h'
          rcases h2 with h2 | h2
          · exact h2
          · rw [h2]; exact hv sp h1
    rcases List.mem_cons.1 hr with hr | hr
    · rcases process_ok_inv m n a _ hr.symm with ⟨h3, he, h⟩ | ⟨-, -, h⟩
      · rcases hg with hg | ⟨-, hv⟩
        · omega
        · injection h with h _
          rw [h, List.getElem?_map, Option.map_eq_some_iff] at hd
          obtain ⟨sp, h1, rfl⟩ := hd
          exact hv sp h1
      · injection h with _ h
        cases h
    · exact ih _ hm' hg' hok' hr

/-- the superpixels flagged at any time have 255 in all later tables -/
def FlaggedLater : Prop :=
  ∀ nPixels aim starting bad before i (calls : List (Nat × List (List ℚ))) shape values avg fin e, i < bad.length →
    .ok (shape, values, avg, fin) ∈ ((((newMatcherObj nPixels aim starting (some bad)).run before).1.flag i true).run (calls.map fun c => .call c.1 c.2)).2 →
    values[i]? = some e → e = 255

/-- **C158**, what holds: from the moment a superpixel is flagged, every table has 255 or the value of that moment for it; flagged before the second pass, it has 255 when the matching is
complete, if no call fails in between. Missing from the full claim: a superpixel that was finished when it was flagged, which keeps its value (until the second pass, or forever). -/
theorem C158_partial (nPixels : Nat) (aim : ℚ) (starting : Option (List Int)) (bad : List Bool) (before : List MatcherAction) (o : MatcherObj)
    (ho : ((newMatcherObj nPixels aim starting (some bad)).run before).1 = o) (i : Nat) (hi : i < bad.length) (calls : List (Nat × List (List ℚ))) (shape : List Nat) (values : List Int)
    (avg : List (Option ℚ)) (fin : Bool) (hr : .ok (shape, values, avg, fin) ∈ ((o.flag i true).run (calls.map fun c => .call c.1 c.2)).2) (e : Int) (he : values[i]? = some e) :
    (e = 255 ∨ (o.arrays.getD o.current [])[i]? = some e) ∧
    (o.globalStage ≤ 1 → fin = true → (∀ r ∈ ((o.flag i true).run (calls.map fun c => .call c.1 c.2)).2, ∃ t, r = .ok t) → e = 255) := by
  have hg : GoodObj o := by rw [← ho]; exact run_good _ (good_new nPixels aim starting (some bad)).1 before
  have hf := flag_good o hg i true
  have hlen : o.mask.length = bad.length := by rw [← ho, run_mask_length]; rfl
  have hm : (o.flag i true).state.mask.getD i false = true := by
    show (o.mask.set i true).getD i false = true
    rw [List.getD_eq_getElem?_getD, List.getElem?_set_self (by omega)]; rfl
  have hmem : (.ok (values, fin) : Except Err (List Int × Bool)) ∈ (processAll (o.flag i true).state calls).2 := by
    rw [← run_values _ hf]
    exact List.mem_map.2 ⟨_, hr, rfl⟩
  have hst : (o.flag i true).state.sps = o.state.sps := rfl
  constructor
  · rcases hv : (o.arrays.getD o.current [])[i]? with _ | v
    · have hsp : ∀ sp, (o.flag i true).state.sps[i]? = some sp → sp.dac = 255 ∨ sp.dac = 255 := by
        intro sp hsp
        rw [← hg.parts.1, List.getElem?_map, ← hst, hsp] at hv
        cases hv
      exact Or.inl ((flagged_calls i 255 values fin e he calls _ hm hsp hmem).elim id id)
    · have hsp : ∀ sp, (o.flag i true).state.sps[i]? = some sp → sp.dac = 255 ∨ sp.dac = v := by
        intro sp hsp
        rw [← hg.parts.1, List.getElem?_map, ← hst, hsp] at hv
        injection hv with hv
        exact Or.inr hv
      rcases flagged_calls i v values fin e he calls _ hm hsp hmem with h | h
      · exact Or.inl h
      · exact Or.inr (by rw [h])
  · intro hs hfin hok
    subst hfin
    refine flagged_final i values e he calls _ hm (Or.inl hs) (fun r h => ?_) hmem
    rw [← run_values _ hf] at h
    obtain ⟨x, hx, rfl⟩ := List.mem_map.1 h
    obtain ⟨⟨s, d, a, f⟩, rfl⟩ := hok x hx
    exact ⟨_, rfl⟩

/-- flagged before the first call, it is as flagged from the start (with `C50_flagged_partial`: 255 in every table) -/
theorem C158_start (nPixels : Nat) (aim : ℚ) (starting : Option (List Int)) (bad : List Bool) (i : Nat) (actions : List MatcherAction) :
    ((newMatcherObj nPixels aim starting (some bad)).run (.flag i true :: actions)).2 = ((newMatcherObj nPixels aim starting (some (bad.set i true))).run actions).2 := rfl

/-- flagged from the start: all superpixels but the first -/
def lone : List Bool := false :: List.replicate 511 true

/-- one event with the same amplitude in all pixels -/
def flatFrame (a : ℚ) : List (List ℚ) := [List.replicate 2048 a]

/-- six calls that finish both passes of the first superpixel at another value than 255 -/
def bothPasses : List (Nat × List (List ℚ)) := [(2048, flatFrame 6), (2048, flatFrame 7), (2048, flatFrame 8), (2048, flatFrame 9), (2048, flatFrame 6), (2048, flatFrame 7)]

/-- the first value of the tables, and the report of completion -/
def firstValues (rs : List (Except Err (List Nat × List Int × List (Option ℚ) × Bool))) : List (Option (Int × Bool)) :=
  rs.map fun r => match r with
    | .ok (_, d, _, f) => d.head?.map fun x => (x, f)
    | .error _ => none

/-- flagged after both passes: no effect -/
theorem too_late : firstValues ((((newMatcherObj 2048 5 none (some lone)).run (bothPasses.map fun c => .call c.1 c.2)).1.flag 0 true).run
    ([(2048, flatFrame 6)].map fun c => .call c.1 c.2)).2 = [some (100, true)] := by decide +kernel

/-- the claim as stated is false: after both passes nothing changes the table any more -/
theorem C158_false : ¬ FlaggedLater := by
  intro h
  have h1 := too_late
  generalize hrs : ((((newMatcherObj 2048 5 none (some lone)).run (bothPasses.map fun c => .call c.1 c.2)).1.flag 0 true).run
    ([(2048, flatFrame 6)].map fun c => .call c.1 c.2)).2 = rs at h1
  rcases rs with _ | ⟨r, rs⟩
  · cases h1
  · simp only [firstValues, List.map_cons, List.cons.injEq] at h1
    have h2 := h1.1
    cases r with
    | error e => cases h2
    | ok x =>
      obtain ⟨shape, values, avg, fin⟩ := x
      have hv : values[0]? = some 100 := by
        cases values with
        | nil => cases h2
        | cons v vs =>
          simp only [List.head?_cons, Option.map_some, Option.some.injEq, Prod.mk.injEq] at h2
          rw [h2.1]; rfl
      have hl : 0 < lone.length := by unfold lone; rw [List.length_cons]; omega
      have := h 2048 5 none lone (bothPasses.map fun c => .call c.1 c.2) 0 [(2048, flatFrame 6)] shape values avg fin 100 hl (by rw [hrs]; exact List.mem_cons_self) hv
      cases this

/-- flagged after the third call, in the first pass: 255 from the next call on, although it would have had 100; and the matching is completed with 255 -/
example : firstValues ((newMatcherObj 2048 5 none (some lone)).run (bothPasses.map fun c => .call c.1 c.2)).2 =
      [some (110, false), some (100, false), some (110, false), some (100, false), some (101, false), some (100, false)] ∧
    firstValues ((((newMatcherObj 2048 5 none (some lone)).run ((bothPasses.take 3).map fun c => .call c.1 c.2)).1.flag 0 true).run
      ((bothPasses.drop 3).map fun c => .call c.1 c.2)).2 = [some (255, false), some (255, false), some (255, true)] := by decide +kernel

/-- flagged when it is finished in the first pass: it keeps its value until the second pass -/
example : (((newMatcherObj 2048 5 none (some lone)).run ((bothPasses.take 4).map fun c => .call c.1 c.2)).1).globalStage ≤ 1 ∧
    firstValues ((((newMatcherObj 2048 5 none (some lone)).run ((bothPasses.take 4).map fun c => .call c.1 c.2)).1.flag 0 true).run
      ((bothPasses.drop 4).map fun c => .call c.1 c.2)).2 = [some (255, false), some (255, true)] := by decide +kernel

end Verif.Props
