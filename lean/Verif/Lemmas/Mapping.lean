import Verif.Lemmas.Hdf5Session

/-! # The mapping in a closed file -/

namespace Verif.Lemmas

open Verif.Py Verif.Model Verif.Spec

variable {ρ ν : Type}

theorem lastMapping_snoc (ops : List (Op ρ ν)) (op : Op ρ ν) :
    lastMapping (ops ++ [op]) = match op with
      | .addMapping m md => some (m, md)
      | _ => lastMapping ops := by
  unfold lastMapping
  rw [List.foldl_append]
  rfl

theorem run_lastMapping (c : WCfg ρ) (ops : List (Op ρ ν)) (hd : ¬ IsData ops "mapping") :
    Dict.get? (run c (WState.init []) ops).store "mapping" =
      (lastMapping ops).map fun p => { fmt := .fixed, rows := p.1, attrs := [("metadata", p.2)] } := by
  induction ops using List.reverseRecOn with
  | nil => rfl
  | append_singleton ops op ih =>
    have hd' : ¬ IsData ops "mapping" := fun h => hd (by
      rcases h with ⟨df, h⟩ | ⟨df, h⟩
      · exact Or.inl ⟨df, by simp [h]⟩
      · exact Or.inr ⟨df, by simp [h]⟩)
    rw [run_snoc, lastMapping_snoc]
    cases op with
    | addMapping m md =>
      simp [step, addMapping, put_get, setAttr_get, Dict.set]
    | append df k =>
      have hk : ¬ OpAppends (Op.append df k : Op ρ ν) "mapping" := fun h => hd (Or.inl ⟨df, by
        have : k = "mapping" := h
        simp [this]⟩)
      rw [(step_untouched c _ (Op.append df k) "mapping" (by simp [OpWrites]) hk).1, ih hd']
    | write k df =>
      have hk : ¬ OpWrites (Op.write k df : Op ρ ν) "mapping" := fun h => hd (Or.inr ⟨df, by
        have : k = "mapping" := h
        simp [this]⟩)
      rw [(step_untouched c _ (Op.write k df) "mapping" hk (by simp [OpAppends])).1, ih hd']
    | addMetadata k n kv =>
      rw [(step_untouched c _ (Op.addMetadata k n kv) "mapping" (by simp [OpWrites]) (by simp [OpAppends])).1, ih hd']

/-- closing a file leaves a dictionary alone that is not addressed by `add_metadata` -/
theorem finish_attr (c : WCfg ρ) (order : List String) (st : WState ρ ν) (hn : order.Nodup) (hf : ∀ k ∈ order, (flush c st k).2 = none)
    (hm : MetaWF st.metadata) (s : Store ρ ν) (h : finish c st order = .ok s) (k name : String) (hk : k ∉ order) (hd : k ≠ "data")
    (hmd : metaDict st.metadata k name = none) : fileAttr s k name = fileAttr st.store k name := by
  obtain ⟨st', h1, h2⟩ := finishLoop_spec c order st 0 hn hf hm
  unfold finish at h
  rw [h1] at h
  simp only [addMetadata, bind, Except.bind, pure, Except.pure] at h
  injection h with h
  subst h
  rw [if_neg (by decide)]
  obtain ⟨-, -, -, -, g5⟩ := saveMetadata_spec _ (metaUpdate_wf st'.metadata "data" "metadata" _ h2.wf) st'.store
  rw [g5 k name, metaDict_update, if_neg (by rintro ⟨rfl, -⟩; exact hd rfl)]
  have e1 : metaDict st'.metadata k name = none := by
    have := h2.dict k name
    rw [hmd] at this
    simpa [hk] using this
  rw [e1]
  unfold fileAttr
  rw [(h2.outside k hk).1]
  rfl

/-- the mapping in a closed file -/
theorem session_mapping (c : WCfg ρ) (ops : List (Op ρ ν)) (order : List String) (ho : IsOrder ops order)
    (hd : ¬ IsData ops "mapping") (hm : ¬ HasMeta ops "mapping" "metadata") (s : Store ρ ν) (h : writeSession c ops order = .ok s)
    (m : List ρ) (md : MetaDict ν) (hl : lastMapping ops = some (m, md)) :
    fileRows s "mapping" = m ∧ fileAttr s "mapping" "metadata" = some md := by
  obtain ⟨k1, k2, k3⟩ := run_keys c ([] : Store ρ ν) ops
  obtain ⟨m1, -, m3, -⟩ := run_metadata c ([] : Store ρ ν) ops
  have hfo : ∀ k ∈ order, (flush c (run c (WState.init []) ops) k).2 = none := session_flushes c ops order ho s h
  have hk : "mapping" ∉ order := fun h => hd ((ho.2 _).1 h)
  have hr := run_lastMapping c ops hd
  rw [hl] at hr
  obtain ⟨s', hs', -, f2, -⟩ := finish_spec c order (run c (WState.init []) ops) ho.1 hfo m1 (k3 (by simp [Dict.keys]))
  have : s' = s := by
    have : writeSession c ops order = .ok s' := hs'
    rw [h] at this
    injection this with this
    exact this.symm
  subst this
  constructor
  · rw [f2, if_neg hk]
    unfold fileRows
    rw [hr]
    rfl
  · rw [finish_attr c order _ ho.1 hfo m1 s' hs' "mapping" "metadata" hk (by decide) (by
      have := (m3 "mapping" "metadata").not.mpr hm
      simpa using this)]
    unfold fileAttr
    rw [hr]
    rfl

end Verif.Lemmas
