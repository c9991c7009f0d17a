import Verif.Model.ReadColumns
import Verif.Py.DictLemmas
import Mathlib.Data.List.Induction

/-! # C128: reading the columns of a reducer -/

namespace Verif.Props

open Verif.Py Verif.Model

variable {ω σ β : Type}

/-- C128: before an event was processed, reading a column raises `ValueError`. -/
theorem C128_unprepared (c : ColumnClass ω σ β) (s : σ) (name : String) (h : name ∈ c.every) : readColumn c (newObj s) name = .error .valueError := by
  unfold readColumn
  rw [if_neg (by simpa using h)]
  rfl

/-- C128: names that are no columns are no attributes, whatever was processed. -/
theorem C128_unknown (c : ColumnClass ω σ β) (active : List String) (s : σ) (ws : List ω) (name : String) (h : name ∉ c.every) :
    readColumn c (processEvents c active (newObj s) ws) name = .error .attributeError := by
  unfold readColumn
  rw [if_pos h]

example : readColumn (spClass 4 2) (processEvents (spClass 4 2) ["sp_max"] (newObj []) [[[1, 2], [3, 4], [5, 6], [7, 8]]]) "charge" = .error .attributeError :=
  C128_unknown _ _ _ _ _ (by decide)

theorem processEvents_null (c : ColumnClass ω σ β) (active : List String) (o : ColumnObj ω σ) (ws : List ω) (h : c.own = []) : processEvents c active o ws = o := by
  unfold processEvents
  induction ws with
  | nil => rfl
  | cons w ws ih => rw [List.foldl_cons, show (processObj c active o w).1 = o by unfold processObj; rw [if_pos h]]; exact ih

/-- C128: a class that only inherits columns returns an empty dictionary for each event, and its columns stay unreadable. -/
theorem C128_inherited_only (c : ColumnClass ω σ β) (active : List String) (s : σ) (ws : List ω) (w : ω) (h : c.own = []) :
    (processObj c active (processEvents c active (newObj s) ws) w).2 = .ok [] ∧
    ∀ name ∈ c.every, readColumn c (processEvents c active (newObj s) (ws ++ [w])) name = .error .valueError := by
  rw [processEvents_null c active _ ws h, processEvents_null c active _ (ws ++ [w]) h]
  refine ⟨by unfold processObj; rw [if_pos h], fun name hn => C128_unprepared c s name hn⟩

theorem readColumns_ok (c : ColumnClass ω σ β) (o : ColumnObj ω σ) (active : List String) (d : Dict String β) (h : readColumns c o active = .ok d) :
    Dict.keys d = active ∧ ∀ name ∈ active, ∃ v, Dict.get? d name = some v ∧ readColumn c o name = .ok v := by
  induction active generalizing d with
  | nil => cases h; exact ⟨rfl, by simp⟩
  | cons n ns ih =>
    unfold readColumns at h
    split at h
    · cases h
    rename_i v hv
    split at h
    · cases h
    rename_i d' hd
    cases h
    obtain ⟨i1, i2⟩ := ih d' hd
    refine ⟨by simpa [Dict.keys] using i1, fun name hn => ?_⟩
    rw [Dict.get?_cons]
    by_cases he : n = name
    · subst he; exact ⟨v, by simp, hv⟩
    · rw [if_neg he]; exact i2 name ((List.mem_cons.1 hn).resolve_left (fun h => he h.symm))

/-- C128 (missing: events whose preparation raised): after an event has been processed, each column can be read and has the value of this event, whatever events came
before, failed or not; it is the value in the returned dictionary if the column is active. -/
theorem C128_partial (c : ColumnClass ω σ β) (active : List String) (o : ColumnObj ω σ) (w : ω) (s : σ) (ho : c.own ≠ []) (hp : c.prepare o.attrs w = .ok s) :
    (∀ name ∈ c.every, readColumn c (processObj c active o w).1 name = c.value s w name) ∧
    ∀ d, (processObj c active o w).2 = .ok d → Dict.keys d = active ∧
      ∀ name ∈ active, ∃ v, Dict.get? d name = some v ∧ readColumn c (processObj c active o w).1 name = .ok v := by
  have h1 : processObj c active o w = (⟨some w, s⟩, readColumns c ⟨some w, s⟩ active) := by unfold processObj; rw [if_neg ho, hp]
  rw [h1]
  refine ⟨fun name hn => ?_, fun d hd => readColumns_ok c _ active d hd⟩
  unfold readColumn
  rw [if_neg (by simpa using hn)]

/-- C128: for a class whose attributes are made from the event alone the values read do not depend on earlier events. -/
theorem C128_history (c : ColumnClass ω σ β) (active : List String) (s0 s0' : σ) (ws ws' : List ω) (w : ω) (ho : c.own ≠ [])
    (halone : ∀ s s', c.prepare s w = c.prepare s' w) (hok : ∃ s, c.prepare s0 w = .ok s) (name : String) :
    readColumn c (processEvents c active (newObj s0) (ws ++ [w])) name = readColumn c (processEvents c active (newObj s0') (ws' ++ [w])) name := by
  obtain ⟨s, hs⟩ := hok
  have key : ∀ o : ColumnObj ω σ, (processObj c active o w).1 = ⟨some w, s⟩ := by
    intro o
    unfold processObj
    rw [if_neg ho, halone o.attrs s0, hs]
  unfold processEvents
  rw [List.foldl_append, List.foldl_append, List.foldl_cons, List.foldl_cons, List.foldl_nil, List.foldl_nil, key, key]

/-- C128 is false: when `SPAmplitude` could not process an event, its columns are those of the event before. -/
theorem C128_false : ∃ (good bad : List (List ℚ)) (o : ColumnObj (List (List ℚ)) (List (List ℚ))),
    o = processEvents (spClass 4 2) ["sp_max"] (newObj []) [good] ∧ (processObj (spClass 4 2) ["sp_max"] o bad).2 = .error .valueError ∧
    (processObj (spClass 4 2) ["sp_max"] o bad).1.waveforms = some bad ∧
    readColumn (spClass 4 2) (processObj (spClass 4 2) ["sp_max"] o bad).1 "sp_max" = .ok [10, 10, 10, 10] := by
  refine ⟨[[1, 0], [2, 0], [3, 0], [4, 0]], [[9, 9]], _, rfl, ?_, ?_, ?_⟩ <;> decide +kernel

/-- C128 (exactly what is read after failures): after an event whose preparation succeeded and any number of events whose preparation raised, the columns are
calculated from the attributes of the former and the waveforms of the latest event; if no preparation succeeded yet, from the attributes of the new object. Every
history with an event is of one of the two kinds. -/
theorem C128_stale_partial (c : ColumnClass ω σ β) (active : List String) (s0 : σ) (ho : c.own ≠ []) (name : String) (hname : name ∈ c.every) :
    (∀ (pre : List ω) (g : ω) (bad : List ω) (s : σ) (last : ω), c.prepare (processEvents c active (newObj s0) pre).attrs g = .ok s →
      (∀ w ∈ bad, ∃ e, c.prepare s w = .error e) → (g :: bad).getLast? = some last →
      readColumn c (processEvents c active (newObj s0) (pre ++ g :: bad)) name = c.value s last name) ∧
    (∀ (bad : List ω) (last : ω), (∀ w ∈ bad, ∃ e, c.prepare s0 w = .error e) → bad.getLast? = some last →
      readColumn c (processEvents c active (newObj s0) bad) name = c.value s0 last name) ∧
    ∀ ws : List ω, (∀ w ∈ ws, ∃ e, c.prepare s0 w = .error e) ∨
      ∃ pre g bad s, ws = pre ++ g :: bad ∧ c.prepare (processEvents c active (newObj s0) pre).attrs g = .ok s ∧ ∀ w ∈ bad, ∃ e, c.prepare s w = .error e := by
  have fails : ∀ (bad : List ω) (o : ColumnObj ω σ), (∀ w ∈ bad, ∃ e, c.prepare o.attrs w = .error e) →
      processEvents c active o bad = ⟨match bad.getLast? with | some w => some w | none => o.waveforms, o.attrs⟩ := by
    intro bad
    induction bad with
    | nil => intro o _; rfl
    | cons w ws ih =>
      intro o h
      obtain ⟨e, he⟩ := h w (by simp)
      have h1 : (processObj c active o w).1 = ⟨some w, o.attrs⟩ := by unfold processObj; rw [if_neg ho, he]
      have h2 : processEvents c active o (w :: ws) = processEvents c active ⟨some w, o.attrs⟩ ws := by
        unfold processEvents; rw [List.foldl_cons, h1]
      rw [h2, ih ⟨some w, o.attrs⟩ fun v hv => h v (List.mem_cons_of_mem _ hv)]
      cases ws with
      | nil => rfl
      | cons v vs =>
        rw [List.getLast?_cons_cons]
        obtain ⟨l, hl⟩ : ∃ l, (v :: vs).getLast? = some l := ⟨_, List.getLast?_eq_some_getLast (by simp)⟩
        rw [hl]
  have good : ∀ (pre : List ω) (g : ω) (bad : List ω) (s : σ), c.prepare (processEvents c active (newObj s0) pre).attrs g = .ok s →
      processEvents c active (newObj s0) (pre ++ g :: bad) = processEvents c active ⟨some g, s⟩ bad := by
    intro pre g bad s hg
    have h1 : (processObj c active (processEvents c active (newObj s0) pre) g).1 = ⟨some g, s⟩ := by
      unfold processObj; rw [if_neg ho, hg]
    unfold processEvents at h1 ⊢
    rw [List.foldl_append, List.foldl_cons, h1]
  have read : ∀ (w : ω) (s : σ), readColumn c ⟨some w, s⟩ name = c.value s w name := by
    intro w s; unfold readColumn; rw [if_neg (by simpa using hname)]
  refine ⟨?_, ?_, ?_⟩
  · intro pre g bad s last hg hb hl
    rw [good pre g bad s hg, fails bad ⟨some g, s⟩ hb]
    cases bad with
    | nil => obtain rfl : g = last := by simpa using hl
             exact read _ _
    | cons v vs =>
      rw [List.getLast?_cons_cons] at hl
      rw [hl]; exact read _ _
  · intro bad last hb hl
    rw [fails bad (newObj s0) hb, hl]
    exact read _ _
  · intro ws
    induction ws using List.reverseRecOn with
    | nil => exact Or.inl (by simp)
    | append_singleton ws w ih =>
      rcases ih with ih | ⟨pre, g, bad, s, rfl, hg, hb⟩
      · have ha : (processEvents c active (newObj s0) ws).attrs = s0 := by rw [fails ws (newObj s0) ih]; rfl
        cases hw : c.prepare s0 w with
        | error e =>
          refine Or.inl fun v hv => ?_
          rcases List.mem_append.1 hv with hv | hv
          · exact ih v hv
          · obtain rfl : v = w := by simpa using hv
            exact ⟨e, hw⟩
        | ok s => exact Or.inr ⟨ws, w, [], s, rfl, by rw [ha]; exact hw, by simp⟩
      · have ha : (processEvents c active (newObj s0) (pre ++ g :: bad)).attrs = s := by
          rw [good pre g bad s hg, fails bad ⟨some g, s⟩ hb]
        cases hw : c.prepare s w with
        | error e =>
          refine Or.inr ⟨pre, g, bad ++ [w], s, by simp, hg, fun v hv => ?_⟩
          rcases List.mem_append.1 hv with hv | hv
          · exact hb v hv
          · obtain rfl : v = w := by simpa using hv
            exact ⟨e, hw⟩
        | ok s' => exact Or.inr ⟨pre ++ g :: bad, w, [], s', rfl, by rw [ha]; exact hw, by simp⟩

/-- the hypotheses for one good and two bad events -/
example : (spClass 4 2).prepare (processEvents (spClass 4 2) ["sp_max"] (newObj []) []).attrs [[1, 0], [2, 0], [3, 0], [4, 0]] = .ok [[10, 0]] ∧
    (∀ w ∈ [[[9, 9]], [[7, 8], [9, 9]]], ∃ e, (spClass 4 2).prepare [[10, 0]] w = .error e) ∧
    readColumn (spClass 4 2) (processEvents (spClass 4 2) ["sp_max"] (newObj []) [[[1, 0], [2, 0], [3, 0], [4, 0]], [[9, 9]], [[7, 8], [9, 9]]]) "sp_max" = .ok [10, 10, 10, 10] := by
  refine ⟨by decide +kernel, ?_, by decide +kernel⟩
  intro w hw
  simp only [List.mem_cons, List.not_mem_nil, or_false] at hw
  rcases hw with rfl | rfl <;> exact ⟨.valueError, by decide +kernel⟩

/-- one event in four pixels, read after it was processed; the column which is not active too -/
example : (processObj (spClass 4 2) ["sp_max"] (newObj []) [[1, 0], [2, 0], [3, 0], [4, 0]]).2 = .ok [("sp_max", [10, 10, 10, 10])] ∧
    readColumn (spClass 4 2) (processObj (spClass 4 2) ["sp_max"] (newObj []) [[1, 0], [2, 0], [3, 0], [4, 0]]).1 "sp_argmax" = .ok [0, 0, 0, 0] ∧
    (spClass 4 2).own ≠ [] ∧ (∀ s s' ws, (spClass 4 2).prepare s ws = (spClass 4 2).prepare s' ws) := by
  refine ⟨?_, ?_, by decide, fun _ _ _ => rfl⟩ <;> decide +kernel

end Verif.Props
