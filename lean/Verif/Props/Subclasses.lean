import Verif.Lemmas.Subclasses
import Mathlib.Data.List.Nodup

/-! # C04, C09, C10: discovery of subclasses, factories, reader selection -/

namespace Verif.Props

open Verif.Py Verif.Model Verif.Spec Verif.Lemmas

/-- A small hierarchy with a diamond, an abstract intermediate class and a name clash: 0 base, 1 "A" (abstract) and
2 "B" below 0, 3 "C" below both 1 and 2, 4 "B" below 1. -/
def clashHierarchy : Hierarchy where
  n := 5
  name c := match c with
    | 0 => "Base" | 1 => "A" | 2 => "B" | 3 => "C" | _ => "B"
  isAbstract c := c == 0 || c == 1
  subs c := match c with
    | 0 => [1, 2] | 1 => [3, 4] | 2 => [3] | _ => []
  created_after := by
    intro c s hs
    match c with
    | 0 => simp at hs; omega
    | 1 => simp at hs; omega
    | 2 => simp at hs; omega
    | (c + 3) => simp at hs

theorem clash_result : childSubclasses clashHierarchy 0 = [2, 3] := by
  simp [childSubclasses_eq, clashHierarchy, uniqueLoop]

/-- C09 (soundness): only non-abstract strict descendants are returned. -/
theorem C09_sound (h : Hierarchy) (base g : Nat) (hg : g ∈ childSubclasses h base) :
    Descends h base g ∧ h.isAbstract g = false := mem_childSubclasses h base g hg

example : Descends clashHierarchy 0 3 ∧ clashHierarchy.isAbstract 3 = false :=
  C09_sound _ _ _ (by rw [clash_result]; decide)

/-- C09 (completeness): every non-abstract strict descendant is represented by a class of the same name. -/
theorem C09_complete (h : Hierarchy) (base g : Nat) (hg : Descends h base g) (ha : h.isAbstract g = false) :
    ∃ g' ∈ childSubclasses h base, h.name g' = h.name g := by
  have hm := (mem_enumerate_iff h base g).mpr hg
  have hf := childSubclasses_find h (h.name g) base
  cases hc : (childSubclasses h base).find? (fun x => h.name x = h.name g) with
  | some g' =>
    exact ⟨g', List.mem_of_find?_eq_some hc, by simpa using List.find?_some hc⟩
  | none =>
    rw [hc] at hf
    have := (List.find?_eq_none.mp hf.symm) g hm
    simp [ha] at this

example : ∃ g' ∈ childSubclasses clashHierarchy 0, clashHierarchy.name g' = "B" :=
  C09_complete clashHierarchy 0 4
    (.step (s := 1) (by simp [clashHierarchy]) (.direct (by simp [clashHierarchy]))) rfl

/-- C09: no two returned classes share a name. -/
theorem C09_unique_names (h : Hierarchy) (base : Nat) : ((childSubclasses h base).map h.name).Nodup := by
  rw [childSubclasses_eq]; exact uniqueLoop_nodup _ _ _ (by simp)

example : ((childSubclasses readerHierarchy 0).map readerHierarchy.name).Nodup := C09_unique_names _ _

/-- C09: among classes with the same name the first non-abstract one in breadth-then-depth order is kept. -/
theorem C09_first_wins (h : Hierarchy) (base : Nat) (k : String) :
    (childSubclasses h base).find? (fun g => h.name g = k)
      = (enumerate h base).find? (fun g => !h.isAbstract g && decide (h.name g = k)) :=
  childSubclasses_find h k base

example : (childSubclasses clashHierarchy 0).find? (fun g => clashHierarchy.name g = "B") = some 2 := by
  rw [clash_result]; rfl

/-- C09: direct subclasses come before deeper ones, and a direct subclass wins a name clash against a deeper one. -/
theorem C09_direct_first (h : Hierarchy) (base : Nat) :
    ∃ l1 l2, childSubclasses h base = l1 ++ l2 ∧ (∀ g ∈ l1, g ∈ h.subs base) ∧
      (∀ s ∈ h.subs base, h.isAbstract s = false → ∃ g ∈ l1, h.name g = h.name s) := by
  rw [childSubclasses_eq, List.filter_append, uniqueLoop_append]
  obtain ⟨t, ht, -⟩ := uniqueLoop_prefix h.name
    (((h.subs base).flatMap (childSubclasses h)).filter fun g => !h.isAbstract g)
    (uniqueLoop h.name ((h.subs base).filter fun g => !h.isAbstract g) [])
  refine ⟨_, t, ht, ?_, ?_⟩
  · intro g hg
    exact (List.mem_filter.mp (mem_uniqueLoop_nil hg)).1
  · intro s hs ha
    have hf := uniqueLoop_find h.name (h.name s) ((h.subs base).filter fun g => !h.isAbstract g) []
    rw [List.nil_append] at hf
    cases hc : (uniqueLoop h.name ((h.subs base).filter fun g => !h.isAbstract g) []).find?
        (fun x => h.name x = h.name s) with
    | some g' => exact ⟨g', List.mem_of_find?_eq_some hc, by simpa using List.find?_some hc⟩
    | none =>
      rw [hc] at hf
      have := (List.find?_eq_none.mp hf.symm) s (List.mem_filter.mpr ⟨hs, by simp [ha]⟩)
      simp at this

example : ∃ l1 l2, childSubclasses clashHierarchy 0 = l1 ++ l2 ∧ (∀ g ∈ l1, g ∈ clashHierarchy.subs 0) ∧
    (∀ s ∈ clashHierarchy.subs 0, clashHierarchy.isAbstract s = false →
      ∃ g ∈ l1, clashHierarchy.name g = clashHierarchy.name s) := C09_direct_first _ _

/-! ## C10 -/

theorem zip_update_get (l : List Nat) (name : Nat → String) (k : String) (hn : (l.map name).Nodup) :
    Dict.get? (Dict.update [] ((l.map name).zip l)) k = l.find? (fun g => name g = k) := by
  have hkeys : Dict.keys ((l.map name).zip l) = l.map name := by
    unfold Dict.keys
    rw [List.map_fst_zip]; simp
  rw [Dict.get?_update _ _ _ (by rw [hkeys]; exact hn)]
  simp only [Dict.get?_nil, Option.or_none]
  clear hn hkeys
  induction l with
  | nil => rfl
  | cons g l ih =>
    simp only [List.map_cons, List.zip_cons_cons, Dict.get?_cons, ih, List.find?_cons]
    by_cases h : name g = k <;> simp [h]

/-- C10: `produce(name)` returns a non-abstract descendant with exactly the requested name, the first one in
breadth-then-depth order. -/
theorem C10_produce_ok (h : Hierarchy) (base : Nat) (k : String) (g : Nat) :
    produce h base k = .ok g ↔
      (enumerate h base).find? (fun x => !h.isAbstract x && decide (h.name x = k)) = some g := by
  unfold produce
  dsimp only
  rw [Dict.getItem_eq_ok_iff, zip_update_get _ _ _ (C09_unique_names h base), childSubclasses_find]

example : produce readerHierarchy 0 "ReaderR1" = .ok 3 := by
  rw [C10_produce_ok]; simp [enumerate_eq, readerHierarchy]

/-- C10: the produced class is a non-abstract descendant of the requested name. -/
theorem C10_produce_sound (h : Hierarchy) (base : Nat) (k : String) (g : Nat) (hp : produce h base k = .ok g) :
    h.name g = k ∧ Descends h base g ∧ h.isAbstract g = false := by
  rw [C10_produce_ok] at hp
  have h1 := List.find?_some hp
  have h2 := List.mem_of_find?_eq_some hp
  simp at h1
  exact ⟨h1.2, (mem_enumerate_iff h base g).mp h2, by simpa using h1.1⟩

example : readerHierarchy.name 3 = "ReaderR1" ∧ Descends readerHierarchy 0 3 ∧ readerHierarchy.isAbstract 3 = false :=
  C10_produce_sound readerHierarchy 0 "ReaderR1" 3
    (by rw [C10_produce_ok]; simp [enumerate_eq, readerHierarchy])

/-- C10: `KeyError` exactly when no non-abstract descendant has the requested name; no other error occurs. -/
theorem C10_produce_error (h : Hierarchy) (base : Nat) (k : String) (e : Err) :
    produce h base k = .error e ↔
      e = .keyError ∧ ∀ g, Descends h base g → h.isAbstract g = false → h.name g ≠ k := by
  unfold produce
  dsimp only
  rw [Dict.getItem_eq_error_iff, zip_update_get _ _ _ (C09_unique_names h base), childSubclasses_find,
    List.find?_eq_none]
  constructor
  · rintro ⟨h1, h2⟩
    refine ⟨h2, ?_⟩
    intro g hg ha hk
    exact h1 g ((mem_enumerate_iff h base g).mpr hg) (by simp [ha, hk])
  · rintro ⟨h1, h2⟩
    refine ⟨?_, h1⟩
    intro g hg
    have hg := (mem_enumerate_iff h base g).mp hg
    cases ha : h.isAbstract g
    · simp [h2 g hg ha]
    · simp

example : produce readerHierarchy 0 "NoSuchReader" = .error .keyError := by
  rw [C10_produce_error]
  refine ⟨rfl, ?_⟩
  intro g hg _
  have := (mem_enumerate_iff _ _ _).mpr hg
  simp [enumerate_eq, readerHierarchy] at this
  rcases this with rfl | rfl | rfl | rfl <;> decide

/-! ## C04 -/

/-- C04: the class chosen by `from_path` recognises the file and is a non-abstract reader. -/
theorem C04_chosen_recognises (h : Hierarchy) (base : Nat) (compatible : Nat → Bool) (g : Nat)
    (hg : fromPath h base compatible = some g) :
    compatible g = true ∧ Descends h base g ∧ h.isAbstract g = false :=
  ⟨List.find?_some hg, C09_sound h base g (List.mem_of_find?_eq_some hg)⟩

/-- C04: every candidate before the chosen one does not recognise the file (first match). -/
theorem C04_first_match (h : Hierarchy) (base : Nat) (compatible : Nat → Bool) (g : Nat) :
    fromPath h base compatible = some g ↔
      compatible g = true ∧ ∃ l1 l2, childSubclasses h base = l1 ++ g :: l2 ∧ ∀ c ∈ l1, compatible c = false := by
  unfold fromPath
  rw [List.find?_eq_some_iff_append]
  constructor
  · rintro ⟨h1, l1, l2, h2, h3⟩
    exact ⟨h1, l1, l2, h2, fun c hc => by simpa using h3 c hc⟩
  · rintro ⟨h1, l1, l2, h2, h3⟩
    exact ⟨h1, l1, l2, h2, fun c hc => by simp [h3 c hc]⟩

/-- C04: `None` is returned exactly when no discovered class recognises the file. -/
theorem C04_none_iff (h : Hierarchy) (base : Nat) (compatible : Nat → Bool) :
    fromPath h base compatible = none ↔ ∀ c ∈ childSubclasses h base, compatible c = false := by
  unfold fromPath
  rw [List.find?_eq_none]
  simp

theorem reader_children : childSubclasses readerHierarchy 0 = [1, 2, 3, 4] := by
  simp [childSubclasses_eq, readerHierarchy, uniqueLoop]

example : fromPath readerHierarchy 0 (fun c => c == 2) = some 2 := by
  unfold fromPath; rw [reader_children]; rfl
example : fromPath readerHierarchy 0 (fun _ => false) = none := by
  rw [C04_none_iff]; simp

/-- C04: a class that recognises only files some direct subclass of the base also recognises is never chosen over the
direct subclasses. -/
theorem C04_specialised_never_chosen (h : Hierarchy) (base : Nat) (compatible : Nat → Bool) (s g : Nat)
    (hs : s ∈ childSubclasses h base) (hdirect : s ∈ h.subs base) (hindirect : g ∉ h.subs base)
    (himp : compatible g = true → compatible s = true) :
    fromPath h base compatible ≠ some g := by
  intro hg
  rw [C04_first_match] at hg
  obtain ⟨hc, l1, l2, hl, hno⟩ := hg
  obtain ⟨d1, d2, hd, hdd, hcover⟩ := C09_direct_first h base
  have hsabs := (C09_sound h base s hs).2
  -- `s` itself lies in the direct part, since names are unique
  obtain ⟨s', hs', hname⟩ := hcover s hdirect hsabs
  have hs'mem : s' ∈ childSubclasses h base := by rw [hd]; simp [hs']
  have hss : s' = s := List.inj_on_of_nodup_map (C09_unique_names h base) hs'mem hs hname
  subst hss
  -- `g` lies in the indirect part
  have hgd : g ∉ d1 := fun hg => hindirect (hdd g hg)
  -- therefore `s` precedes `g`
  have hsl1 : s' ∈ l1 := by
    rw [hd] at hl
    rcases List.append_eq_append_iff.mp hl with ⟨a, ha, hb⟩ | ⟨a, ha, hb⟩
    · rw [ha]; simp [hs']
    · cases a with
      | nil => simp at ha; rw [← ha]; exact hs'
      | cons x a =>
        simp at hb
        obtain ⟨rfl, hb⟩ := hb
        exact absurd (by rw [ha]; simp) hgd
  have := hno s' hsl1
  rw [himp hc] at this
  cases this

/-- C04 for CHECLabPy's readers: `ReaderR1` and `ReaderR0` inherit `is_compatible` from `TIOReader`, so `from_path`
never returns them. -/
example (compatible : Nat → Bool) (h : compatible 3 = compatible 1) :
    fromPath readerHierarchy 0 compatible ≠ some 3 :=
  C04_specialised_never_chosen readerHierarchy 0 compatible 1 3 (by rw [reader_children]; decide)
    (by simp [readerHierarchy]) (by simp [readerHierarchy]) (by rw [h]; exact id)

end Verif.Props
