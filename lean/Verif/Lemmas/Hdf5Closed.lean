import Verif.Lemmas.Hdf5Session

/-! Files closed after any history of calls. -/

namespace Verif.Lemmas

open Verif.Py Verif.Model Verif.Spec

variable {ρ ν : Type}

theorem append_attr (s s' : Store ρ ν) (key : String) (df : List ρ) (h : Store.append s key df = .ok s') (name : String) :
    fileAttr s' key name = fileAttr s key name := by
  unfold Store.append at h
  split at h
  · cases h; rfl
  · cases hg : Dict.get? s key with
    | none =>
      rw [hg] at h
      cases h
      simp [fileAttr, hg, Dict.get?]
    | some nd =>
      rw [hg] at h
      cases hf : nd.fmt with
      | fixed => simp [hf] at h
      | table =>
        simp only [hf] at h
        cases h
        simp [fileAttr, hg]

theorem flush_attr_any (c : WCfg ρ) (st : WState ρ ν) (key name : String) :
    fileAttr (flush c st key).1.store key name = fileAttr st.store key name := by
  unfold flush
  split
  · rfl
  · dsimp only
    cases ha : Store.append st.store key (c.prep (st.dfList key).flatten) with
    | error e => rfl
    | ok s' => exact append_attr _ _ _ _ ha name

/-- attributes of nodes other than `mapping` before closing a fresh file -/
theorem run_attr_none_any (c : WCfg ρ) (ops : List (Op ρ ν)) (key name : String) (hk : key ≠ "mapping") :
    fileAttr (run c (WState.init []) ops).store key name = none := by
  induction ops using List.reverseRecOn with
  | nil => rfl
  | append_singleton ops op ih =>
    rw [run_snoc]
    by_cases ha : OpAppends op key
    · cases op with
      | append df k =>
        have hkk : k = key := ha
        subst hkk
        rw [← ih]
        change fileAttr (append c _ df k).1.store k name = _
        unfold append
        dsimp only
        split
        · exact flush_attr_any c _ k name
        · rfl
      | _ => exact absurd ha (by simp [OpAppends])
    · by_cases hw : OpWrites op key
      · cases op with
        | write k df =>
          have hkk : k = key := hw
          subst hkk
          simp [step, write, fileAttr, put_get, Dict.get?]
        | addMapping m md => exact absurd hw hk
        | append df k => exact absurd hw (by simp [OpWrites])
        | addMetadata k n kv => exact absurd hw (by simp [OpWrites])
      · have hs := step_untouched c (run c (WState.init []) ops) op key hw ha
        unfold fileAttr at ih ⊢
        rw [hs.1]
        exact ih

/-- what a fresh file contains apart from the rows, whenever closing succeeds -/
structure ClosedSpec (c : WCfg ρ) (ops : List (Op ρ ν)) (order : List String) (s : Store ρ ν) : Prop where
  nodup : (Dict.keys s).Nodup
  rows : ∀ key, IsData ops key → fileRows s key = fileRows (flush c (run c (WState.init []) ops) key).1.store key
  fmt : ∀ key, IsData ops key → (Dict.get? s key).map Node.fmt =
    ((Dict.get? (flush c (run c (WState.init []) ops) key).1.store key).map Node.fmt).or (some .fixed)
  bytes : ∀ key, IsData ops key → fileField s key "metadata" "n_bytes" = some (.int (finalBytes c (run c (WState.init []) ops) key))
  total : fileField s "data" "metadata" "total_bytes" = some (.int (order.map fun k => (finalBytes c (run c (WState.init []) ops) k : Int)).sum)
  version : fileField s "data" "metadata" "version" = some (.str "3.1.0")
  attr : ∀ key name, key ≠ "mapping" → ((fileAttr s key name).isSome ↔
    HasMeta ops key name ∨ (name = "metadata" ∧ (IsData ops key ∨ key = "data")))
  fieldAll : ∀ key name f, (HasMeta ops key name ∨ (name = "metadata" ∧ (IsData ops key ∨ key = "data"))) →
    ¬ (key = "data" ∧ name = "metadata" ∧ (f = "total_bytes" ∨ f = "version")) →
    ¬ (IsData ops key ∧ name = "metadata" ∧ f = "n_bytes") → fileField s key name f = lastField ops key name f
  present : ∀ key, (Dict.get? s key).isSome ↔ (IsData ops key ∨ key = "data" ∨ (∃ name, HasMeta ops key name) ∨
    (key = "mapping" ∧ ∃ m md, Op.addMapping m md ∈ ops))
  mapAttr : (fileAttr s "mapping" "metadata").isSome ↔
    (HasMeta ops "mapping" "metadata" ∨ IsData ops "mapping" ∨ ∃ m md, Op.addMapping m md ∈ ops)

theorem closed_spec (c : WCfg ρ) (ops : List (Op ρ ν)) (order : List String) (ho : IsOrder ops order) (s : Store ρ ν)
    (hs : writeSession c ops order = .ok s) : ClosedSpec c ops order s := by
  obtain ⟨k1, k2, k3⟩ := run_keys c ([] : Store ρ ν) ops
  obtain ⟨m1, m2, m3, m4⟩ := run_metadata c ([] : Store ρ ν) ops
  obtain ⟨s', hs', f1, f2, f3, f4, f5, f6⟩ := finish_spec c order (run c (WState.init []) ops) ho.1
    (session_flushes c ops order ho s hs) m1 (k3 (by simp [Dict.keys]))
  have : s' = s := by
    have : writeSession c ops order = .ok s' := hs'
    rw [hs] at this
    exact (Except.ok.inj this).symm
  subst this
  have hmeta : ∀ key, key ∈ Dict.keys (run c (WState.init []) ops).metadata ↔ ∃ name, HasMeta ops key name := by
    intro key
    rw [m4]
    constructor
    · rintro ⟨n, kv, a, b, d⟩; exact ⟨n, a, b, kv, d⟩
    · rintro ⟨n, a, b, kv, d⟩; exact ⟨n, kv, a, b, d⟩
  refine ⟨f1, fun key hd => ?_, fun key hd => ?_, ?_, ?_, ?_, ?_, ?_, ?_, ?_⟩
  · rw [f2 key, if_pos ((ho.2 key).mpr hd)]
  · rw [f4 key, if_pos ((ho.2 key).mpr hd), if_pos (.inl ((ho.2 key).mpr hd))]
  · intro key hd
    have hk := (ho.2 key).mpr hd
    rw [f6 key "metadata" "n_bytes" (Or.inr ⟨rfl, Or.inl hk⟩)]
    simp [hk]
  · rw [f6 "data" "metadata" "total_bytes" (Or.inr ⟨rfl, Or.inr rfl⟩)]
    simp
  · rw [f6 "data" "metadata" "version" (Or.inr ⟨rfl, Or.inr rfl⟩)]
    simp
  · intro key name hkm
    rw [f5 key name]
    have : fileAttr (if key ∈ order then (flush c (run c (WState.init []) ops) key).1.store
        else (run c (WState.init []) ops).store) key name = none := by
      split
      · rw [flush_attr_any c _ key name]; exact run_attr_none_any c ops key name hkm
      · exact run_attr_none_any c ops key name hkm
    rw [this]
    simp only [Bool.or_eq_true, decide_eq_true_eq, Option.isSome_none, Bool.false_eq_true, or_false, m3, ho.2]
    rfl
  · intro key name f hmeta h1 h2
    rw [f6 key name f (by rw [m3, ho.2]; exact hmeta), ← m2]
    rw [if_neg (by grind), if_neg (by grind), if_neg]
    rintro ⟨a, b, d⟩; exact h2 ⟨(ho.2 key).mp a, b, d⟩
  · intro key
    rw [f3 key]
    simp only [Bool.or_eq_true, decide_eq_true_eq, hmeta, ho.2]
    by_cases hd : IsData ops key
    · simp [hd]
    · have hko : key ∉ order := fun h => hd ((ho.2 key).mp h)
      have hna : ¬ IsAppended ops key := fun h => hd (Or.inl h)
      rw [if_neg hko]
      by_cases hkm : key = "mapping"
      · subst hkm
        have hr := (run_mapping c ([] : Store ρ ν) ops hna).1
        have hnw : ¬ ∃ df, Op.write "mapping" df ∈ ops := fun h => hd (Or.inr h)
        rw [hr]
        simp only [hd, hnw, Dict.get?, Option.isSome_none, Bool.false_eq_true, false_or, true_and]
        grind
      · have hr := run_written c ([] : Store ρ ν) key ops hna (fun h => absurd h hkm)
        have hnw : lastWrite ops key = none := by
          rw [← Option.not_isSome_iff_eq_none, lastWrite_isSome]
          exact fun h => hd (Or.inr h)
        rw [hnw] at hr
        rw [hr.1]
        simp [hkm, Dict.get?]
  · rw [f5 "mapping" "metadata"]
    simp only [Bool.or_eq_true, decide_eq_true_eq, m3, ho.2, true_and]
    by_cases hd : IsData ops "mapping"
    · simp [hd]
    · have hko : "mapping" ∉ order := fun h => hd ((ho.2 _).mp h)
      have hna : ¬ IsAppended ops "mapping" := fun h => hd (Or.inl h)
      rw [if_neg hko]
      have hr := (run_mapping c ([] : Store ρ ν) ops hna).2
      have hnw : ¬ ∃ df, Op.write "mapping" df ∈ ops := fun h => hd (Or.inr h)
      rcases hr with hr | hr
      · exact absurd hr hnw
      · rw [hr]
        simp [hd, fileAttr, Dict.get?, HasMeta]

end Verif.Lemmas
