import Verif.Py.Basic
import Mathlib.Data.List.Induction

/-! Lemmas about the dictionary model. -/

namespace Verif.Py.Dict

variable {κ ν : Type _} [DecidableEq κ]

@[simp] theorem get?_nil (k : κ) : get? ([] : Dict κ ν) k = none := rfl

theorem get?_cons (k' : κ) (v : ν) (d : Dict κ ν) (k : κ) :
    get? ((k', v) :: d) k = if k' = k then some v else get? d k := rfl

theorem get?_set (d : Dict κ ν) (k k' : κ) (v : ν) :
    get? (set d k v) k' = if k = k' then some v else get? d k' := by
  induction d with
  | nil => simp [set, get?]
  | cons a d ih =>
    obtain ⟨ka, va⟩ := a
    by_cases h : ka = k
    · subst h; by_cases h2 : ka = k' <;> simp [set, get?, h2]
    · simp only [set, h, if_false, get?, ih]
      by_cases h2 : ka = k'
      · subst h2; simp [Ne.symm h]
      · simp [h2]

@[simp] theorem get?_set_self (d : Dict κ ν) (k : κ) (v : ν) : get? (set d k v) k = some v := by
  simp [get?_set]

theorem get?_set_ne (d : Dict κ ν) {k k' : κ} (v : ν) (h : k ≠ k') :
    get? (set d k v) k' = get? d k' := by simp [get?_set, h]

theorem get?_eq_none_iff (d : Dict κ ν) (k : κ) : get? d k = none ↔ k ∉ keys d := by
  induction d with
  | nil => simp [keys]
  | cons a d ih =>
    obtain ⟨ka, va⟩ := a
    simp only [get?_cons, keys, List.map_cons, List.mem_cons]
    by_cases h : ka = k
    · simp [h]
    · simp only [h, if_false, ih, keys]
      constructor
      · intro hk hc; rcases hc with hc | hc
        · exact h hc.symm
        · exact hk hc
      · intro hk hc; exact hk (Or.inr hc)

theorem mem_keys_iff (d : Dict κ ν) (k : κ) : k ∈ keys d ↔ ∃ v, get? d k = some v := by
  have := get?_eq_none_iff d k
  constructor
  · intro h
    cases hg : get? d k with
    | none => exact absurd h (this.mp hg)
    | some v => exact ⟨v, rfl⟩
  · rintro ⟨v, hv⟩
    by_contra h
    rw [this.mpr h] at hv; cases hv

theorem keys_set (d : Dict κ ν) (k : κ) (v : ν) :
    keys (set d k v) = if k ∈ keys d then keys d else keys d ++ [k] := by
  induction d with
  | nil => simp [set, keys]
  | cons a d ih =>
    obtain ⟨ka, va⟩ := a
    by_cases h : ka = k
    · subst h; simp [set, keys]
    · simp only [set, h, if_false]
      have : keys ((ka, va) :: set d k v) = ka :: keys (set d k v) := rfl
      rw [this, ih]
      have h2 : keys ((ka, va) :: d) = ka :: keys d := rfl
      rw [h2]
      by_cases hk : k ∈ keys d
      · simp [hk]
      · simp [hk, Ne.symm h]

theorem nodup_keys_set (d : Dict κ ν) (k : κ) (v : ν) (h : (keys d).Nodup) :
    (keys (set d k v)).Nodup := by
  rw [keys_set]
  split
  · exact h
  · rename_i hk
    rw [List.nodup_append]
    refine ⟨h, by simp, ?_⟩
    intro a ha b hb
    simp at hb; subst hb
    rintro rfl; exact hk ha

theorem mem_keys_set (d : Dict κ ν) (k k' : κ) (v : ν) :
    k' ∈ keys (set d k v) ↔ k' = k ∨ k' ∈ keys d := by
  rw [mem_keys_iff, mem_keys_iff]
  simp only [get?_set]
  by_cases h : k = k'
  · subst h; simp
  · simp [h, Ne.symm h]

@[simp] theorem update_nil (a : Dict κ ν) : update a [] = a := rfl

theorem update_cons (a b : Dict κ ν) (k : κ) (v : ν) :
    update a ((k, v) :: b) = update (set a k v) b := rfl

theorem update_append (a b c : Dict κ ν) : update a (b ++ c) = update (update a b) c := by
  simp [update, List.foldl_append]

/-- lookup in `{**a, **b}`: the last entry of `b` for the key, else the entry of `a` -/
theorem get?_update_reverse (a b : Dict κ ν) (k : κ) :
    get? (update a b) k = (get? b.reverse k).or (get? a k) := by
  induction b using List.reverseRecOn generalizing a with
  | nil => simp
  | append_singleton b x ih =>
    obtain ⟨kx, vx⟩ := x
    rw [update_append]
    simp only [update_cons, update_nil, get?_set, List.reverse_append, List.reverse_cons, List.reverse_nil,
      List.nil_append, List.singleton_append, get?_cons, ih]
    by_cases h : kx = k <;> simp [h]

theorem get?_update (a b : Dict κ ν) (k : κ) (hb : (keys b).Nodup) :
    get? (update a b) k = (get? b k).or (get? a k) := by
  induction b generalizing a with
  | nil => simp
  | cons x b ih =>
    obtain ⟨kx, vx⟩ := x
    have hn : kx ∉ keys b := (List.nodup_cons.mp hb).1
    have hb' : (keys b).Nodup := (List.nodup_cons.mp hb).2
    rw [update_cons, ih _ hb', get?_cons, get?_set]
    by_cases h : kx = k
    · subst h; simp [(get?_eq_none_iff b kx).mpr hn]
    · simp [h]

theorem nodup_keys_update (a b : Dict κ ν) (h : (keys a).Nodup) : (keys (update a b)).Nodup := by
  induction b generalizing a with
  | nil => exact h
  | cons x b ih => rw [update_cons]; exact ih _ (nodup_keys_set _ _ _ h)

theorem mem_keys_update (a b : Dict κ ν) (k : κ) :
    k ∈ keys (update a b) ↔ k ∈ keys b ∨ k ∈ keys a := by
  induction b generalizing a with
  | nil => simp [keys]
  | cons x b ih =>
    obtain ⟨kx, vx⟩ := x
    rw [update_cons, ih, mem_keys_set]
    show _ ↔ k ∈ kx :: keys b ∨ _
    rw [List.mem_cons]
    tauto

theorem getItem_eq_ok_iff (d : Dict κ ν) (k : κ) (v : ν) : getItem d k = .ok v ↔ get? d k = some v := by
  unfold getItem; cases get? d k <;> simp

theorem getItem_eq_error_iff (d : Dict κ ν) (k : κ) (e : Err) :
    getItem d k = .error e ↔ get? d k = none ∧ e = .keyError := by
  unfold getItem; cases get? d k <;> simp [eq_comm]

theorem mem_of_get? {d : Dict κ ν} {k : κ} {v : ν} (h : get? d k = some v) : (k, v) ∈ d := by
  induction d with
  | nil => simp at h
  | cons x d ih =>
    obtain ⟨kx, vx⟩ := x
    rw [get?_cons] at h
    split at h
    · rename_i hk; simp at h; subst hk; subst h; simp
    · exact List.mem_cons_of_mem _ (ih h)

theorem get?_of_mem_nodup {d : Dict κ ν} {k : κ} {v : ν} (hn : (keys d).Nodup) (h : (k, v) ∈ d) :
    get? d k = some v := by
  induction d with
  | nil => simp at h
  | cons x d ih =>
    obtain ⟨kx, vx⟩ := x
    have hn' := List.nodup_cons.mp hn
    rw [get?_cons]
    rcases List.mem_cons.mp h with h | h
    · cases h; simp
    · have : kx ≠ k := by
        rintro rfl
        exact hn'.1 (List.mem_map.mpr ⟨(kx, v), h, rfl⟩)
      simp [this]; exact ih hn'.2 h

theorem get?_append (a b : Dict κ ν) (k : κ) : get? (a ++ b) k = (get? a k).or (get? b k) := by
  induction a with
  | nil => simp
  | cons x a ih =>
    obtain ⟨kx, vx⟩ := x
    simp only [List.cons_append, get?_cons, ih]
    by_cases h : kx = k <;> simp [h]

end Verif.Py.Dict
