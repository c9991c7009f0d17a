import Verif.Model.Files
import Verif.Spec.Files
import Verif.Lemmas.HvConfig

/-! # C38: high-voltage configuration parsing -/

namespace Verif.Props

open Verif.Py Verif.Model Verif.Spec Verif.Lemmas

/-- pick the table -/
def table (on : Bool) (r : HvTable × HvTable) : HvTable := if on then r.2 else r.1

/-- C38: parsing fails exactly when some line names a module or superpixel that does not exist, with an `IndexError`. -/
theorem C38_total (lines : List (List Char)) :
    ((∀ l ∈ lines, ∀ on m s v, SetsHv on l m s v → m < 32 ∧ s < 16) → ∃ r, extractHvCfg lines = .ok r) ∧
    (¬ (∀ l ∈ lines, ∀ on m s v, SetsHv on l m s v → m < 32 ∧ s < 16) → extractHvCfg lines = .error .indexError) := by
  constructor
  · intro h
    obtain ⟨d, o, h1, _⟩ := hvLoop_spec lines (fun _ _ => 0) (fun _ _ => 0) fun l hl on m s v hs => h l hl on m s v ((lineSets_iff ..).1 hs)
    exact ⟨_, h1⟩
  · intro h
    push Not at h
    obtain ⟨l, hl, on, m, s, v, h1, h2⟩ := h
    exact hvLoop_error lines _ _ ⟨l, hl, on, m, s, v, (lineSets_iff ..).2 h1, fun hc => absurd hc.2 (by have := h2 hc.1; omega)⟩

/-- C38: every entry of either table is the value of the last line of the file that sets it, and 0 if no line does; lines
that set nothing, or something else, have no influence. The tables hold 16-bit numbers: a value from 32768 on is stored modulo 65536. -/
theorem C38_last_value (lines : List (List Char)) (r : HvTable × HvTable) (h : extractHvCfg lines = .ok r) (on : Bool) (tm sp : Nat) :
    ((∀ l ∈ lines, ∀ v, ¬ SetsHv on l tm sp v) ∧ table on r tm sp = 0) ∨
    ∃ pre l post v, lines = pre ++ l :: post ∧ SetsHv on l tm sp v ∧ (∀ l' ∈ post, ∀ v', ¬ SetsHv on l' tm sp v') ∧
      (-32768 ≤ table on r tm sp ∧ table on r tm sp < 32768 ∧ (65536 : Int) ∣ v - table on r tm sp) ∧ (v < 32768 → table on r tm sp = v) := by
  have hr : ∀ l ∈ lines, ∀ on m s v, lineSets on l = some (m, s, v) → m < 32 ∧ s < 16 := by
    intro l hl on m s v hs
    by_contra hc
    have := hvLoop_error lines (fun _ _ => 0) (fun _ _ => 0) ⟨l, hl, on, m, s, v, hs, hc⟩
    unfold extractHvCfg at h
    rw [this] at h; cases h
  obtain ⟨d, o, h1, h2, h3⟩ := hvLoop_spec lines (fun _ _ => 0) (fun _ _ => 0) hr
  have hro : r = (d, o) := by
    unfold extractHvCfg at h
    rw [h1] at h
    injection h with h
    exact h.symm
  have ht : table on r tm sp = lastSet on 0 tm sp lines := by
    subst hro
    cases on
    · exact h2 tm sp
    · exact h3 tm sp
  rw [ht]
  rcases lastSet_cases on 0 tm sp lines with ⟨h4, h5⟩ | ⟨pre, l, post, v, h4, h5, h6, h7⟩
  · exact Or.inl ⟨fun l hl v hs => h4 l hl v ((lineSets_iff ..).2 hs), h5⟩
  · refine Or.inr ⟨pre, l, post, v, h4, (lineSets_iff ..).1 h5, fun l' hl' v' hs => h6 l' hl' v' ((lineSets_iff ..).2 hs), ?_, fun hv => ?_⟩
    · rw [h7]; unfold toInt16; omega
    · rw [h7]; unfold toInt16; omega

/-- the line of a configuration file that sets one entry -/
def renderHv (on : Bool) (tm sp v : Nat) : List Char :=
  'M' :: ':' :: (decimal tm ++ ('/' :: 'F' :: '/' :: 'S' :: ':' :: (decimal sp ++ ('|' ::
    ((if on then ['H', 'V', 'O', 'n'] else ['H', 'V']) ++ ('=' :: (decimal v ++ [])))))))

theorem digits_decimal (n : Nat) : Digits (decimal n) := (digits_iff _).2 ⟨decimal_ne_nil n, decimal_digits n⟩

theorem assigns_render (on : Bool) (tm sp v : Nat) :
    Assigns (if on then ['H', 'V', 'O', 'n'] else ['H', 'V']) (renderHv on tm sp v) tm sp v :=
  ⟨0, ⟨decimal tm, decimal sp, decimal v, [], rfl, digits_decimal _, digits_decimal _, digits_decimal _, by intro c hc; (cases hc),
    by simp, by simp, by simp⟩, by simp⟩

theorem setsHv_render (on on' : Bool) (tm sp v m s w : Nat) :
    SetsHv on' (renderHv on tm sp v) m s w ↔ on' = on ∧ m = tm ∧ s = sp ∧ w = v := by
  have hin : ['H', 'V', 'O', 'n'] <:+: renderHv on tm sp v ↔ on = true := by
    constructor
    · intro h
      cases on with
      | true => rfl
      | false =>
        have hO : 'O' ∈ renderHv false tm sp v := h.subset (by simp)
        have nd : ∀ n, 'O' ∉ decimal n := fun n hn => absurd (decimal_digits n 'O' hn) (by decide)
        unfold renderHv at hO
        simp [nd] at hO
    · rintro rfl
      refine ⟨'M' :: ':' :: (decimal tm ++ ('/' :: 'F' :: '/' :: 'S' :: ':' :: (decimal sp ++ ['|']))), '=' :: (decimal v ++ []), ?_⟩
      simp [renderHv]
  have uniq : ∀ tag line m s w m' s' w', Assigns tag line m s w → Assigns tag line m' s' w' → m = m' ∧ s = s' ∧ w = w' := by
    intro tag line m s w m' s' w' h h'
    rw [← search_iff] at h h'
    rw [h] at h'
    injection h' with h'
    injection h' with e1 h'
    injection h' with e2 e3
    exact ⟨e1, e2, e3⟩
  have ha := assigns_render on tm sp v
  unfold SetsHv
  rw [hin]
  constructor
  · intro h
    cases on' <;> cases on <;> simp only [if_true, Bool.false_eq_true, if_false, not_true, not_false_iff, true_and, false_and] at h ha ⊢
    · exact uniq _ _ _ _ _ _ _ _ h ha
    · exact uniq _ _ _ _ _ _ _ _ h ha
  · rintro ⟨rfl, rfl, rfl, rfl⟩
    cases on'
    · simpa using ha
    · simpa using ha

/-- C38: a file that contains for every module and superpixel the two lines rendered from two tables of values below 2^15,
in any order, any number of times, and with any unrelated lines in between, parses back to these tables. -/
theorem C38_render (values : Bool → Nat → Nat → Nat) (hv : ∀ on tm sp, values on tm sp < 32768) (lines : List (List Char))
    (hall : ∀ on tm sp, tm < 32 → sp < 16 → renderHv on tm sp (values on tm sp) ∈ lines)
    (honly : ∀ l ∈ lines, (∃ on tm sp, tm < 32 ∧ sp < 16 ∧ l = renderHv on tm sp (values on tm sp)) ∨ ∀ on m s v, ¬ SetsHv on l m s v) :
    ∃ r, extractHvCfg lines = .ok r ∧ ∀ on tm sp, tm < 32 → sp < 16 → table on r tm sp = values on tm sp := by
  obtain ⟨r, hr⟩ := (C38_total lines).1 (by
    intro l hl on m s v hs
    rcases honly l hl with ⟨on', tm, sp, h1, h2, rfl⟩ | h
    · obtain ⟨_, rfl, rfl, _⟩ := (setsHv_render ..).1 hs
      exact ⟨h1, h2⟩
    · exact absurd hs (h on m s v))
  refine ⟨r, hr, fun on tm sp htm hsp => ?_⟩
  rcases C38_last_value lines r hr on tm sp with ⟨h, _⟩ | ⟨pre, l, post, v, h1, h2, h3, h4, h5⟩
  · exact absurd ((setsHv_render ..).2 ⟨rfl, rfl, rfl, rfl⟩) (h _ (hall on tm sp htm hsp) (values on tm sp))
  · have hl : l ∈ lines := by rw [h1]; simp
    rcases honly l hl with ⟨on', tm', sp', _, _, rfl⟩ | h
    · obtain ⟨rfl, rfl, rfl, rfl⟩ := (setsHv_render ..).1 h2
      exact h5 (hv _ _ _)
    · exact absurd h2 (h _ _ _ _)

/-- a file meeting the hypotheses of `C38_render`, with unrelated lines around -/
example (values : Bool → Nat → Nat → Nat) (hv : ∀ on tm sp, values on tm sp < 32768) :
    ∃ r, extractHvCfg ("# config".toList :: ((List.range 32).flatMap fun tm => (List.range 16).flatMap fun sp =>
        [renderHv false tm sp (values false tm sp), renderHv true tm sp (values true tm sp)]) ++ ["M:3/F/S:|HV=7".toList]) = .ok r ∧
      ∀ on tm sp, tm < 32 → sp < 16 → table on r tm sp = values on tm sp := by
  refine C38_render values hv _ (fun on tm sp h1 h2 => ?_) (fun l hl => ?_)
  · refine List.mem_append_left _ (List.mem_cons_of_mem _ (List.mem_flatMap.2 ⟨tm, by simpa using h1, List.mem_flatMap.2 ⟨sp, by simpa using h2, ?_⟩⟩))
    cases on <;> simp
  · have junk : ∀ l, lineSets true l = none → lineSets false l = none → ∀ on m s v, ¬ SetsHv on l m s v := by
      intro l h1 h2 on m s v h
      rw [← lineSets_iff] at h
      cases on
      · rw [h2] at h; cases h
      · rw [h1] at h; cases h
    rcases List.mem_append.1 hl with hl | hl
    · rcases List.mem_cons.1 hl with rfl | hl
      · exact Or.inr (junk _ (by decide +kernel) (by decide +kernel))
      · obtain ⟨tm, h1, hl⟩ := List.mem_flatMap.1 hl
        obtain ⟨sp, h2, hl⟩ := List.mem_flatMap.1 hl
        have h1 := List.mem_range.1 h1
        have h2 := List.mem_range.1 h2
        simp only [List.mem_cons, List.not_mem_nil, or_false] at hl
        rcases hl with rfl | rfl
        · exact Or.inl ⟨_, tm, sp, h1, h2, rfl⟩
        · exact Or.inl ⟨_, tm, sp, h1, h2, rfl⟩
    · rw [List.mem_singleton.1 hl]
      exact Or.inr (junk _ (by decide +kernel) (by decide +kernel))

/-- the last line wins, lines may carry other text, and an unknown module is an error -/
example : (extractHvCfg ["x M:1/F/S:2|HV=100 # a".toList, "M:1/F/S:2|HV=250".toList, "M:1/F/S:2|HVOn=1".toList]).toOption.map
    (fun r => (r.1 1 2, r.2 1 2, r.1 2 1)) = some (250, 1, 0) := by decide +kernel

example : (extractHvCfg ["M:32/F/S:2|HV=100".toList]).toOption.isNone = true := by decide +kernel

end Verif.Props
