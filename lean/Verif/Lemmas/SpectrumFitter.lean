import Verif.Spec.SpectrumFitter
import Verif.Py.DictLemmas
import Mathlib.Data.List.Induction
import Mathlib.Data.List.Nodup
import Verif.Lemmas.Chain

namespace Verif.Lemmas

open Verif.Py Verif.Model Verif.Spec

/-- the three keyword arguments of a fit parameter -/
def kwEntries (p : SpecParam) (x : String) : Dict String KwVal :=
  [(x, .start p.initial), ("limit_" ++ x, .limits p.limits), ("fix_" ++ x, .fixed p.fixed)]

/-- all keyword arguments -/
def allKw (n : Nat) (params : List SpecParam) : Dict String KwVal := params.flatMap fun p => (fitNamesOf n p).flatMap (kwEntries p)

theorem addName_kwargs (p : SpecParam) (x : String) (s : Prepared) : (addName p x s).kwargs = Dict.update s.kwargs (kwEntries p x) := rfl

theorem keys_allKw (n : Nat) (params : List SpecParam) :
    Dict.keys (allKw n params) = (fitNames n params).flatMap fun x => [x, "limit_" ++ x, "fix_" ++ x] := by
  unfold Dict.keys allKw fitNames
  rw [List.map_flatMap, List.flatMap_assoc]
  congr 1
  funext p
  rw [List.map_flatMap]
  rfl

/-- state after some passes of the inner loop -/
theorem foldl_addMulti (p : SpecParam) (s : Prepared) (m : Nat) (hm : m ≤ s.lookup.length) :
    ((List.range m).foldl (addMulti p) s).names = s.names ++ (List.range m).map (numbered p.name) ∧
    ((List.range m).foldl (addMulti p) s).next = s.next + m ∧
    ((List.range m).foldl (addMulti p) s).kwargs = Dict.update s.kwargs (((List.range m).map (numbered p.name)).flatMap (kwEntries p)) ∧
    ((List.range m).foldl (addMulti p) s).lookup.length = s.lookup.length ∧
    ∀ i : Nat, ((List.range m).foldl (addMulti p) s).lookup[i]? =
      if i < m then (s.lookup[i]?).map fun d => d.set p.name (s.next + i) else s.lookup[i]? := by
  induction m with
  | zero => simp
  | succ m ih =>
    obtain ⟨h1, h2, h3, h4, h5⟩ := ih (by omega)
    rw [List.range_succ, List.foldl_append, List.foldl_cons, List.foldl_nil]
    generalize (List.range m).foldl (addMulti p) s = t at h1 h2 h3 h4 h5
    have e : addMulti p t m = ⟨t.names ++ [numbered p.name m], Dict.update t.kwargs (kwEntries p (numbered p.name m)),
      t.lookup.modify m fun d => d.set p.name t.next, t.next + 1⟩ := rfl
    rw [e]
    refine ⟨?_, ?_, ?_, ?_, ?_⟩
    · simp [h1]
    · simp only [h2]; omega
    · simp only [h3, List.map_append, List.flatMap_append, Dict.update_append]
      simp
    · simp [h4]
    · intro i
      simp only [List.getElem?_modify, h5, h2]
      by_cases hi : m = i
      · subst hi
        rw [if_neg (Nat.lt_irrefl _), if_pos (Nat.lt_succ_self _)]
        simp
      · by_cases hlt : i < m
        · rw [if_pos hlt, if_pos (by omega)]
          simp [hi]
        · rw [if_neg hlt, if_neg (by omega)]
          simp [hi]

/-- what one parameter adds -/
theorem addParam_spec (n : Nat) (s : Prepared) (p : SpecParam) (hn : s.lookup.length = n) :
    (addParam n s p).names = s.names ++ fitNamesOf n p ∧ (addParam n s p).next = s.next + (fitNamesOf n p).length ∧
    (addParam n s p).kwargs = Dict.update s.kwargs ((fitNamesOf n p).flatMap (kwEntries p)) ∧ (addParam n s p).lookup.length = n ∧
    ∀ i < n, ∃ d, s.lookup[i]? = some d ∧ (addParam n s p).lookup[i]? = some (d.set p.name (s.next + if p.multi then i else 0)) ∧
      (fitNamesOf n p)[if p.multi then i else 0]? = some (fitName p i) := by
  unfold addParam fitNamesOf
  cases hm : p.multi with
  | false =>
    rw [if_pos (by simp)]
    refine ⟨by simp [addName], by simp [addName], by simp [addName_kwargs], by simp [addName, hn], ?_⟩
    intro i hi
    refine ⟨s.lookup[i]'(by omega), List.getElem?_eq_getElem (by omega), ?_, ?_⟩
    · simp only [addName, List.getElem?_map]
      rw [List.getElem?_eq_getElem (by omega : i < s.lookup.length)]
      simp
    · simp [fitName, hm]
  | true =>
    rw [if_neg (by simp), if_pos rfl]
    obtain ⟨h1, h2, h3, h4, h5⟩ := foldl_addMulti p s n (by omega)
    have e : (List.range n).map (fitName p) = (List.range n).map (numbered p.name) := by
      refine List.map_congr_left fun i _ => ?_
      simp [fitName, hm, numbered]
    rw [e]
    refine ⟨h1, by simp [h2], h3, by omega, ?_⟩
    intro i hi
    refine ⟨s.lookup[i]'(by omega), List.getElem?_eq_getElem (by omega), ?_, ?_⟩
    · rw [h5, if_pos hi, List.getElem?_eq_getElem (by omega : i < s.lookup.length)]
      simp
    · rw [← e]
      simp [hi]

theorem prepare_inv (n : Nat) (params : List SpecParam) (hd : (params.map (·.name)).Nodup) :
    (prepareParams n params).names = fitNames n params ∧ (prepareParams n params).next = (fitNames n params).length ∧
    (prepareParams n params).kwargs = Dict.update [] (allKw n params) ∧ (prepareParams n params).lookup.length = n ∧
    (∀ p ∈ params, ∀ i < n, ∃ d slot, (prepareParams n params).lookup[i]? = some d ∧ d.get? p.name = some slot ∧
      (fitNames n params)[slot]? = some (fitName p i)) ∧
    (∀ (i : Nat) d, (prepareParams n params).lookup[i]? = some d → ∀ name, (∃ slot, d.get? name = some slot) ↔ name ∈ params.map (·.name)) := by
  induction params using List.reverseRecOn with
  | nil =>
    refine ⟨rfl, rfl, rfl, by simp [prepareParams], by simp, ?_⟩
    intro i d hi name
    have : d = [] := by
      have := List.mem_of_getElem? hi
      simp only [prepareParams, List.foldl_nil] at this
      exact List.eq_of_mem_replicate this
    rw [this]
    simp
  | append_singleton ps p ih =>
    have hd' : (ps.map (·.name)).Nodup ∧ p.name ∉ ps.map (·.name) := by
      rw [List.map_append, List.nodup_append] at hd
      refine ⟨hd.1, fun hmem => ?_⟩
      exact hd.2.2 _ hmem p.name (by simp) rfl
    obtain ⟨i1, i2, i3, i4, i5, i6⟩ := ih hd'.1
    have e : prepareParams n (ps ++ [p]) = addParam n (prepareParams n ps) p := by
      unfold prepareParams
      rw [List.foldl_append]
      rfl
    rw [e]
    generalize prepareParams n ps = s at i1 i2 i3 i4 i5 i6
    obtain ⟨a1, a2, a3, a4, a5⟩ := addParam_spec n s p i4
    have ef : fitNames n (ps ++ [p]) = fitNames n ps ++ fitNamesOf n p := by simp [fitNames]
    refine ⟨by rw [a1, i1, ef], by rw [a2, i2, ef, List.length_append], ?_, a4, ?_, ?_⟩
    · rw [a3, i3, ← Dict.update_append]
      congr 1
      simp [allKw]
    · intro q hq i hi
      obtain ⟨d, hd1, hd2, hd3⟩ := a5 i hi
      refine ⟨d.set p.name (s.next + if p.multi then i else 0), ?_⟩
      rcases List.mem_append.1 hq with hq | hq
      · obtain ⟨d', slot, hs1, hs2, hs3⟩ := i5 q hq i hi
        rw [hd1] at hs1
        cases hs1
        refine ⟨slot, hd2, ?_, ?_⟩
        · have hne : p.name ≠ q.name := fun h => hd'.2 (h ▸ List.mem_map_of_mem hq)
          rw [Dict.get?_set_ne _ _ hne]
          exact hs2
        · rw [ef, List.getElem?_append_left (List.getElem?_eq_some_iff.1 hs3).1]
          exact hs3
      · rw [List.mem_singleton] at hq
        subst hq
        refine ⟨_, hd2, Dict.get?_set_self _ _ _, ?_⟩
        rw [ef, i2, List.getElem?_append_right (by omega), Nat.add_sub_cancel_left]
        exact hd3
    · intro i d hi name
      have hin : i < n := by rw [← a4]; exact (List.getElem?_eq_some_iff.1 hi).1
      obtain ⟨d0, hd1, hd2, -⟩ := a5 i hin
      rw [hd2] at hi
      cases hi
      have h6 := i6 i d0 hd1 name
      rw [List.map_append, List.mem_append, ← h6, List.map_cons, List.map_nil, List.mem_singleton, Dict.get?_set]
      by_cases hn : p.name = name
      · simp [hn]
      · simp [hn, Ne.symm hn]

theorem books (n : Nat) (params : List SpecParam) (h : Distinct n params) : Books n params (prepareParams n params) := by
  obtain ⟨i1, i2, i3, i4, i5, i6⟩ := prepare_inv n params h.1
  refine ⟨i1, ?_, i4, ?_, i6, ?_⟩
  · rw [i1]
    have h2 := h.2
    generalize fitNames n params = l at h2
    clear i1 i2 i5
    induction l with
    | nil => simp
    | cons x l ih =>
      rw [List.flatMap_cons, List.nodup_append] at h2
      refine List.nodup_cons.2 ⟨fun hx => ?_, ih h2.2.1⟩
      exact h2.2.2 x (by simp) x (List.mem_flatMap.2 ⟨x, hx, by simp⟩) rfl
  · intro p hp i hi
    rw [i1]
    exact i5 p hp i hi
  · intro p hp x hx
    have hk : (Dict.keys (allKw n params)).Nodup := by rw [keys_allKw]; exact h.2
    have hget : ∀ e ∈ kwEntries p x, (prepareParams n params).kwargs.get? e.1 = some e.2 := by
      intro e he
      rw [i3, Dict.get?_update _ _ _ hk]
      rw [Dict.get?_of_mem_nodup hk (v := e.2)]
      · rfl
      · exact List.mem_flatMap.2 ⟨p, hp, List.mem_flatMap.2 ⟨x, hx, he⟩⟩
    exact ⟨hget (x, _) (by simp [kwEntries]), hget ("limit_" ++ x, _) (by simp [kwEntries]), hget ("fix_" ++ x, _) (by simp [kwEntries])⟩

/-! ## Configuration -/

theorem popSection_entry {α : Type} (s : Option (Option (Dict String α))) (hs : Section s) (name : String) (old : α) :
    ∃ rest, popSection s name old = some (entryOr s name old, rest) ∧ Section rest ∧
      (∀ name' old', name' ≠ name → entryOr rest name' old' = entryOr s name' old') ∧
      (∀ names, Foreign rest names ↔ Foreign s (name :: names)) := by
  match s with
  | none =>
    refine ⟨none, rfl, hs, fun _ _ _ => rfl, fun names => ?_⟩
    constructor
    · rintro ⟨d, h, -⟩; cases h
    · rintro ⟨d, h, -⟩; cases h
  | some none =>
    obtain ⟨d, h, -⟩ := hs none rfl
    cases h
  | some (some d) =>
    obtain ⟨d', h, hn⟩ := hs (some d) rfl
    cases h
    refine ⟨some (some (d.erase name)), ?_, ?_, ?_, ?_⟩
    · simp only [popSection, entryOr]
      cases d.get? name <;> rfl
    · intro t ht
      cases ht
      refine ⟨d.erase name, rfl, ?_⟩
      have : ∀ d : Dict String α, (Dict.keys (d.erase name)).Sublist (Dict.keys d) := by
        intro d
        induction d with
        | nil => exact List.Sublist.refl _
        | cons x d ih =>
          simp only [Dict.erase]
          split
          · simp only [Dict.keys, List.map_cons]; exact List.sublist_cons_self _ _
          · simp only [Dict.keys, List.map_cons] at ih ⊢; exact ih.cons_cons _
      exact hn.sublist (this d)
    · intro name' old' hne
      simp only [entryOr]
      rw [get?_erase_ne d name name' (Ne.symm hne)]
    · intro names
      have hmem : ∀ x, x ∈ Dict.keys (d.erase name) ↔ x ∈ Dict.keys d ∧ x ≠ name := by
        intro x
        rw [Dict.mem_keys_iff, Dict.mem_keys_iff]
        by_cases hx : x = name
        · subst hx
          rw [keys_mem_erase d x hn]
          simp
        · rw [get?_erase_ne d name x (Ne.symm hx)]
          simp [hx]
      constructor
      · rintro ⟨d', h, x, hx, hx'⟩
        cases h
        exact ⟨d, rfl, x, ((hmem x).1 hx).1, by simp only [List.mem_cons, not_or]; exact ⟨((hmem x).1 hx).2, hx'⟩⟩
      · rintro ⟨d', h, x, hx, hx'⟩
        cases h
        simp only [List.mem_cons, not_or] at hx'
        exact ⟨_, rfl, x, (hmem x).2 ⟨hx, hx'.1⟩, hx'.2⟩

theorem loadParams_spec (c : SpecConfig) (params : List SpecParam) (hi : Section c.initial) (hl : Section c.limits) (hf : Section c.fixed)
    (hd : (params.map (·.name)).Nodup) :
    ∃ rest, loadParams c params = (params.map (configured c), rest, true) ∧ Section rest.initial ∧ Section rest.limits ∧ Section rest.fixed ∧
      (∀ names, Foreign rest.initial names ↔ Foreign c.initial (params.map (·.name) ++ names)) ∧
      (∀ names, Foreign rest.limits names ↔ Foreign c.limits (params.map (·.name) ++ names)) ∧
      (∀ names, Foreign rest.fixed names ↔ Foreign c.fixed (params.map (·.name) ++ names)) := by
  induction params generalizing c with
  | nil => exact ⟨c, rfl, hi, hl, hf, fun _ => Iff.rfl, fun _ => Iff.rfl, fun _ => Iff.rfl⟩
  | cons p ps ih =>
    rw [List.map_cons, List.nodup_cons] at hd
    obtain ⟨ri, ei, si, vi, fi⟩ := popSection_entry c.initial hi p.name p.initial
    obtain ⟨rl, el, sl, vl, fl⟩ := popSection_entry c.limits hl p.name p.limits
    obtain ⟨rf, ef, sf, vf, ff⟩ := popSection_entry c.fixed hf p.name p.fixed
    obtain ⟨rest, h, a1, a2, a3, b1, b2, b3⟩ := ih { c with initial := ri, limits := rl, fixed := rf } si sl sf hd.2
    refine ⟨rest, ?_, a1, a2, a3, ?_, ?_, ?_⟩
    · rw [loadParams, ei]
      simp only [el, ef, h]
      rw [List.map_cons]
      congr 1
      refine congrArg₂ List.cons rfl ?_
      refine List.map_congr_left fun q hq => ?_
      have hne : q.name ≠ p.name := fun h => hd.1 (h ▸ List.mem_map_of_mem hq)
      simp only [configured, vi q.name _ hne, vl q.name _ hne, vf q.name _ hne]
    · intro names
      rw [b1, fi]; rfl
    · intro names
      rw [b2, fl]; rfl
    · intro names
      rw [b3, ff]; rfl

theorem dropEmpty_isSome {α : Type} (s : Option (Option (Dict String α))) (hs : Section s) : (dropEmpty s).isSome = true ↔ Foreign s [] := by
  match s with
  | none => exact ⟨fun h => (by cases h), fun ⟨d, h, _⟩ => (by cases h)⟩
  | some none =>
    obtain ⟨d, h, -⟩ := hs none rfl
    cases h
  | some (some []) =>
    constructor
    · intro h; cases h
    · rintro ⟨d, h, x, hx, -⟩
      cases h
      cases hx
  | some (some (x :: d)) =>
    exact ⟨fun _ => ⟨x :: d, rfl, x.1, by simp [Dict.keys], by simp⟩, fun _ => rfl⟩

/-- the dictionary built by the loop of `save_config` -/
theorem savedSection {α : Type} (params : List SpecParam) (g : SpecParam → α) (hd : (params.map (·.name)).Nodup) :
    (Dict.keys (params.foldl (fun d p => Dict.set d p.name (g p)) ([] : Dict String α))).Nodup ∧
    (∀ name, name ∈ Dict.keys (params.foldl (fun d p => Dict.set d p.name (g p)) ([] : Dict String α)) ↔ name ∈ params.map (·.name)) ∧
    ∀ p ∈ params, Dict.get? (params.foldl (fun d p => Dict.set d p.name (g p)) ([] : Dict String α)) p.name = some (g p) := by
  have e : params.foldl (fun d p => Dict.set d p.name (g p)) ([] : Dict String α) = Dict.update [] (params.map fun p => (p.name, g p)) := by
    unfold Dict.update
    rw [List.foldl_map]
  have hk : Dict.keys (params.map fun p => (p.name, g p)) = params.map (·.name) := by simp [Dict.keys]
  rw [e]
  refine ⟨Dict.nodup_keys_update _ _ (by simp [Dict.keys]), ?_, ?_⟩
  · intro name
    rw [Dict.mem_keys_update, hk]
    simp [Dict.keys]
  · intro p hp
    rw [Dict.get?_update _ _ _ (by rw [hk]; exact hd)]
    rw [Dict.get?_of_mem_nodup (by rw [hk]; exact hd) (v := g p) (List.mem_map_of_mem (f := fun p => (p.name, g p)) hp)]
    rfl

theorem replaceParams_spec (params ps : List SpecParam) :
    (replaceParams params ps).2 = decide (∀ p ∈ ps, p.name ∈ params.map (·.name)) ∧
    ((replaceParams params ps).2 = true → (replaceParams params ps).1 = params.map fun q => (ps.reverse.find? fun p => p.name = q.name).getD q) := by
  induction ps generalizing params with
  | nil => simp [replaceParams]
  | cons p ps ih =>
    unfold replaceParams replaceParam
    by_cases h : p.name ∈ params.map (·.name)
    · rw [if_pos h]
      simp only
      have hnames : (params.map fun q => if q.name = p.name then p else q).map (·.name) = params.map (·.name) := by
        rw [List.map_map]
        refine List.map_congr_left fun q _ => ?_
        simp only [Function.comp]
        by_cases hq : q.name = p.name
        · rw [if_pos hq, hq]
        · rw [if_neg hq]
      obtain ⟨h1, h2⟩ := ih (params.map fun q => if q.name = p.name then p else q)
      rw [hnames] at h1
      refine ⟨?_, fun hok => ?_⟩
      · rw [h1]
        simp
        intro _
        simpa using h
      · rw [h2 hok, List.map_map]
        refine List.map_congr_left fun q _ => ?_
        simp only [Function.comp, List.reverse_cons, List.find?_append]
        by_cases hq : q.name = p.name
        · simp only [hq]
          have hor : ∀ A : Option SpecParam, A.getD p = (A.or (some p)).getD q := fun A => by cases A <;> rfl
          have h3 : [p].find? (fun r => decide (r.name = p.name)) = some p := by simp
          rw [h3]
          exact hor _
        · have hif : (if q.name = p.name then p else q) = q := if_neg hq
          simp only [hif]
          have : [p].find? (fun r => decide (r.name = q.name)) = none := by simp [Ne.symm hq]
          rw [this]
          simp
    · rw [if_neg h]
      refine ⟨?_, fun h => by cases h⟩
      symm
      rw [decide_eq_false_iff_not]
      exact fun hall => h (hall p List.mem_cons_self)

end Verif.Lemmas
