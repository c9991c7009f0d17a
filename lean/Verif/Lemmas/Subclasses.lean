import Verif.Model.Subclasses
import Verif.Spec.Subclasses
import Verif.Py.DictLemmas

namespace Verif.Lemmas

open Verif.Py Verif.Model Verif.Spec

theorem uniqueLoop_prefix (name : Nat → String) (l u : List Nat) :
    ∃ t, uniqueLoop name l u = u ++ t ∧ t.Sublist l := by
  induction l generalizing u with
  | nil => exact ⟨[], by simp [uniqueLoop]⟩
  | cons c l ih =>
    unfold uniqueLoop
    split
    · obtain ⟨t, h1, h2⟩ := ih u
      exact ⟨t, h1, h2.cons _⟩
    · obtain ⟨t, h1, h2⟩ := ih (u ++ [c])
      refine ⟨c :: t, by rw [h1]; simp, h2.cons_cons _⟩

theorem uniqueLoop_append (name : Nat → String) (a b u : List Nat) :
    uniqueLoop name (a ++ b) u = uniqueLoop name b (uniqueLoop name a u) := by
  induction a generalizing u with
  | nil => simp [uniqueLoop]
  | cons c a ih =>
    simp only [List.cons_append, uniqueLoop]
    split <;> exact ih _

theorem uniqueLoop_nodup (name : Nat → String) (l u : List Nat) (hu : (u.map name).Nodup) :
    ((uniqueLoop name l u).map name).Nodup := by
  induction l generalizing u with
  | nil => simpa [uniqueLoop] using hu
  | cons c l ih =>
    unfold uniqueLoop
    split
    · exact ih u hu
    · rename_i h
      apply ih
      rw [List.map_append, List.nodup_append]
      refine ⟨hu, by simp, ?_⟩
      intro a ha b hb
      simp at hb; subst hb
      rintro rfl; exact h ha

theorem uniqueLoop_find (name : Nat → String) (k : String) (l u : List Nat) :
    (uniqueLoop name l u).find? (fun g => name g = k)
      = ((u ++ l).find? fun g => name g = k) := by
  induction l generalizing u with
  | nil => simp [uniqueLoop]
  | cons c l ih =>
    unfold uniqueLoop
    split
    · rename_i h
      rw [ih]
      rw [List.find?_append, List.find?_append]
      by_cases hk : name c = k
      · have : ∃ x ∈ u, name x = k := by
          rw [List.mem_map] at h
          obtain ⟨x, hx, hx'⟩ := h
          exact ⟨x, hx, hx'.trans hk⟩
        obtain ⟨x, hx, hx'⟩ := this
        have : (u.find? fun g => name g = k) ≠ none := by
          rw [Ne, List.find?_eq_none]
          intro hh
          exact hh x hx (by simpa using hx')
        cases hf : (u.find? fun g => name g = k) with
        | none => exact absurd hf this
        | some v => simp
      · simp [hk]
    · rw [ih]; simp

theorem mem_uniqueLoop_nil {name : Nat → String} {l : List Nat} {g : Nat} (h : g ∈ uniqueLoop name l []) : g ∈ l := by
  obtain ⟨t, h1, h2⟩ := uniqueLoop_prefix name l []
  rw [h1] at h
  exact h2.subset (by simpa using h)

/-- unfolding without `attach` -/
theorem childSubclasses_eq (h : Hierarchy) (base : Nat) :
    childSubclasses h base = uniqueLoop h.name
      ((h.subs base ++ (h.subs base).flatMap (childSubclasses h)).filter fun g => !h.isAbstract g) [] := by
  conv_lhs => unfold childSubclasses
  have : (h.subs base).attach.flatMap (fun x => match x with | ⟨s, _⟩ => childSubclasses h s)
      = (h.subs base).flatMap (childSubclasses h) := by
    rw [List.flatMap_subtype (g := childSubclasses h)]
    · simp
    · intro x hx; rfl
  dsimp only
  rw [this]

/-- induction along the hierarchy -/
theorem hier_induction (h : Hierarchy) {motive : Nat → Prop}
    (step : ∀ c, (∀ s ∈ h.subs c, motive s) → motive c) (c : Nat) : motive c := by
  induction hk : h.n - c using Nat.strongRecOn generalizing c with
  | ind k ih =>
    subst hk
    apply step
    intro s hs
    have := h.created_after c s hs
    exact ih (h.n - s) (by omega) s rfl

theorem enumerate_eq (h : Hierarchy) (base : Nat) :
    enumerate h base = h.subs base ++ (h.subs base).flatMap (enumerate h) := by
  conv_lhs => unfold enumerate
  have : (h.subs base).attach.flatMap (fun x => match x with | ⟨s, _⟩ => enumerate h s)
      = (h.subs base).flatMap (enumerate h) := by
    rw [List.flatMap_subtype (g := enumerate h)]
    · simp
    · intro x hx; rfl
  rw [this]

theorem find?_flatMap_congr {β : Type} (l : List β) (f g : β → List Nat) (p : Nat → Bool)
    (h : ∀ b ∈ l, (f b).find? p = (g b).find? p) : (l.flatMap f).find? p = (l.flatMap g).find? p := by
  induction l with
  | nil => rfl
  | cons b l ih =>
    simp only [List.flatMap_cons, List.find?_append]
    rw [h b (by simp), ih (fun b hb => h b (by simp [hb]))]

theorem find?_congr' {β : Type} {p q : β → Bool} {l : List β} (h : ∀ x ∈ l, p x = q x) :
    l.find? p = l.find? q := by
  induction l with
  | nil => rfl
  | cons a l ih =>
    rw [List.find?_cons, List.find?_cons, h a (by simp), ih (fun x hx => h x (by simp [hx]))]

/-- looking a name up in the discovered classes is looking it up in the naive enumeration -/
theorem childSubclasses_find (h : Hierarchy) (k : String) (base : Nat) :
    (childSubclasses h base).find? (fun g => h.name g = k)
      = (enumerate h base).find? (fun g => !h.isAbstract g && decide (h.name g = k)) := by
  induction base using hier_induction h with
  | step c ih =>
    have hp : (fun a => decide ((!h.isAbstract a) = true ∧ decide (h.name a = k) = true))
        = (fun g => !h.isAbstract g && decide (h.name g = k)) := by
      funext a; simp
    rw [childSubclasses_eq, uniqueLoop_find, List.nil_append, List.find?_filter, enumerate_eq,
      List.find?_append, List.find?_append, hp]
    congr 1
    apply find?_flatMap_congr
    intro s hs
    rw [← ih s hs]
    apply find?_congr'
    intro g hg
    have : g ∈ (childSubclasses h s) := hg
    rw [childSubclasses_eq] at this
    have := mem_uniqueLoop_nil this
    rw [List.mem_filter] at this
    simp [this.2]

theorem mem_enumerate_iff (h : Hierarchy) (base g : Nat) : g ∈ enumerate h base ↔ Descends h base g := by
  constructor
  · induction base using hier_induction h with
    | step c ih =>
      rw [enumerate_eq, List.mem_append, List.mem_flatMap]
      rintro (hg | ⟨s, hs, hg⟩)
      · exact .direct hg
      · exact .step hs (ih s hs hg)
  · intro hd
    induction hd with
    | direct hs => rw [enumerate_eq, List.mem_append]; exact Or.inl hs
    | step hs _ ih =>
      rw [enumerate_eq, List.mem_append, List.mem_flatMap]
      exact Or.inr ⟨_, hs, ih⟩

theorem mem_childSubclasses (h : Hierarchy) (base g : Nat) (hg : g ∈ childSubclasses h base) :
    Descends h base g ∧ h.isAbstract g = false := by
  induction base using hier_induction h generalizing g with
  | step c ih =>
    rw [childSubclasses_eq] at hg
    have := mem_uniqueLoop_nil hg
    rw [List.mem_filter, List.mem_append, List.mem_flatMap] at this
    obtain ⟨h1, h2⟩ := this
    refine ⟨?_, by simpa using h2⟩
    rcases h1 with h1 | ⟨s, hs, h1⟩
    · exact .direct h1
    · exact .step hs (ih s hs g h1).1

end Verif.Lemmas
