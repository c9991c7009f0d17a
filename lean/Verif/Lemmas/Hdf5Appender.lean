import Verif.Lemmas.Hdf5Reader

namespace Verif.Lemmas

open Verif.Py Verif.Model Verif.Spec

variable {ρ ν : Type}

/-- inner loop of the appender's `_save_metadata` -/
def mergeInner (key : String) (s : Store ρ ν) (sub : Dict String (MetaDict ν)) : Store ρ ν :=
  sub.foldl (fun s (nd : String × MetaDict ν) =>
      let old := match Dict.get? s key with
        | none => []
        | some node => (Dict.get? node.attrs nd.1).getD []
      Store.setAttr s key nd.1 (Dict.update old nd.2)) s

theorem mergeInner_spec (key : String) (sub : Dict String (MetaDict ν)) (s : Store ρ ν)
    (hs : (Dict.get? s key).isSome) (hn : (Dict.keys sub).Nodup) :
    (∀ k, (Dict.get? (mergeInner key s sub) k).isSome = (Dict.get? s k).isSome) ∧
    (∀ k, fileRows (mergeInner key s sub) k = fileRows s k) ∧
    (∀ k, k ≠ key → Dict.get? (mergeInner key s sub) k = Dict.get? s k) ∧
    (∀ name, fileAttr (mergeInner key s sub) key name
      = match Dict.get? sub name with
        | none => fileAttr s key name
        | some d => some (Dict.update ((fileAttr s key name).getD []) d)) := by
  induction sub generalizing s with
  | nil => simp [mergeInner, Dict.get?]
  | cons x sub ih =>
    obtain ⟨nm, d⟩ := x
    have hn' := List.nodup_cons.mp hn
    have hx : nm ∉ Dict.keys sub := hn'.1
    have hold : (match Dict.get? s key with
        | none => []
        | some node => (Dict.get? node.attrs nm).getD []) = (fileAttr s key nm).getD [] := by
      unfold fileAttr; cases Dict.get? s key <;> rfl
    have hcons : mergeInner key s ((nm, d) :: sub)
        = mergeInner key (Store.setAttr s key nm (Dict.update ((fileAttr s key nm).getD []) d)) sub := by
      rw [← hold]; rfl
    rw [hcons]
    have ih' := ih (Store.setAttr s key nm (Dict.update ((fileAttr s key nm).getD []) d))
      (by rw [isSome_setAttr]; exact hs) hn'.2
    refine ⟨?_, ?_, ?_, ?_⟩
    · intro k; rw [ih'.1 k, isSome_setAttr]
    · intro k; rw [ih'.2.1 k, fileRows_setAttr]
    · intro k hk; rw [ih'.2.2.1 k hk, setAttr_get, if_neg (Ne.symm hk)]
    · intro name
      rw [ih'.2.2.2 name, fileAttr_setAttr _ _ _ _ _ _ hs, Dict.get?_cons]
      by_cases hnm : nm = name
      · subst hnm
        simp [(Dict.get?_eq_none_iff sub nm).mpr hx]
      · simp [hnm]

theorem saveMetadataMerge_cons (s : Store ρ ν) (k : String) (sub : Dict String (MetaDict ν))
    (m : Dict String (Dict String (MetaDict ν))) :
    saveMetadataMerge s ((k, sub) :: m)
      = saveMetadataMerge (mergeInner k (if (Dict.get? s k).isSome then s else Store.put s k []) sub) m := rfl

theorem saveMetadataMerge_spec (m : Dict String (Dict String (MetaDict ν))) (hm : MetaWF m) (s : Store ρ ν) :
    (∀ k, fileRows (saveMetadataMerge s m) k = fileRows s k) ∧
    (∀ k, k ∉ Dict.keys m → Dict.get? (saveMetadataMerge s m) k = Dict.get? s k) ∧
    (∀ k name, fileAttr (saveMetadataMerge s m) k name
      = match metaDict m k name with
        | none => fileAttr s k name
        | some d => some (Dict.update ((fileAttr s k name).getD []) d)) := by
  induction m generalizing s with
  | nil => simp [saveMetadataMerge, metaDict, Dict.get?]
  | cons x m ih =>
    obtain ⟨key, sub⟩ := x
    have hn := List.nodup_cons.mp hm.1
    have hx : key ∉ Dict.keys m := hn.1
    have hwf : MetaWF m := ⟨hn.2, fun kv hkv => hm.2 kv (by simp [hkv])⟩
    have hsub : (Dict.keys sub).Nodup := (hm.2 (key, sub) (by simp)).1
    rw [saveMetadataMerge_cons]
    generalize hs1 : (if (Dict.get? s key).isSome then s else Store.put s key []) = s1
    have hsome : (Dict.get? s1 key).isSome := by
      subst hs1; split
      · assumption
      · simp [put_get]
    have hs1get : ∀ k, k ≠ key → Dict.get? s1 k = Dict.get? s k := by
      intro k hk
      subst hs1; split
      · rfl
      · rw [put_get, if_neg (Ne.symm hk)]
    have hs1rows : ∀ k, fileRows s1 k = fileRows s k := by
      intro k
      by_cases hk : k = key
      · subst hk hs1
        split
        · rfl
        · rename_i h
          unfold fileRows; rw [put_get]
          have : Dict.get? s k = none := by simpa using h
          simp [this]
      · unfold fileRows; rw [hs1get k hk]
    have hs1attr : ∀ k n, fileAttr s1 k n = fileAttr s k n := by
      intro k n
      by_cases hk : k = key
      · subst hk hs1
        split
        · rfl
        · rename_i h
          unfold fileAttr; rw [put_get]
          have : Dict.get? s k = none := by simpa using h
          simp [this]
      · unfold fileAttr; rw [hs1get k hk]
    obtain ⟨i1, i2, i3, i4⟩ := mergeInner_spec key sub s1 hsome hsub
    obtain ⟨j1, j2, j3⟩ := ih hwf (mergeInner key s1 sub)
    refine ⟨?_, ?_, ?_⟩
    · intro k; rw [j1, i2, hs1rows]
    · intro k hk
      have : k ≠ key ∧ k ∉ Dict.keys m := by simpa [Dict.keys] using hk
      rw [j2 k this.2, i3 k this.1, hs1get k this.1]
    · intro k name
      rw [j3 k name]
      by_cases hk : k = key
      · subst hk
        have : metaDict m k name = none := by
          unfold metaDict; rw [(Dict.get?_eq_none_iff m k).mpr hx]; rfl
        rw [this]
        dsimp only
        rw [i4 name, hs1attr]
        simp [metaDict, Dict.get?]
      · have e1 : metaDict ((key, sub) :: m) k name = metaDict m k name := by
          unfold metaDict; rw [Dict.get?_cons, if_neg (Ne.symm hk)]
        have e2 : fileAttr (mergeInner key s1 sub) k name = fileAttr s k name := by
          unfold fileAttr; rw [i3 k hk, hs1get k hk]
        rw [e1, e2]

/-- what an appender session leaves -/
structure AppendSpec (c : WCfg ρ) (s : Store ρ ν) (t0 : Int) (ops : List (Op ρ ν)) (order : List String)
    (s' : Store ρ ν) : Prop where
  rows : ∀ key, ¬ IsWritten ops key → ∃ groups, Cuts groups (framesAppended ops key) ∧
    fileRows s' key = fileRows s key ++ (groups.map fun g => c.prep g.flatten).flatten ∧
    (IsData ops key → fileField s' key "metadata" "n_bytes"
      = some (.int ((groups.map fun g => c.mem (c.prep g.flatten)).sum : Nat)))
  untouched : ∀ key, key ≠ "data" → ¬ IsData ops key → (¬ ∃ name, HasMeta ops key name) →
    (key = "mapping" → ¬ ∃ m md, Op.addMapping m md ∈ ops) → Dict.get? s' key = Dict.get? s key
  field : ∀ key name f, ¬ IsWritten ops key →
    ¬ (key = "data" ∧ name = "metadata" ∧ (f = "total_bytes" ∨ f = "version")) →
    ¬ (IsData ops key ∧ name = "metadata" ∧ f = "n_bytes") →
    fileField s' key name f = (lastField ops key name f).or (fileField s key name f)
  total : ∃ n : String → Int, (∀ key, IsData ops key → fileField s' key "metadata" "n_bytes" = some (.int (n key))) ∧
    fileField s' "data" "metadata" "total_bytes" = some (.int (t0 + (order.map n).sum))

theorem lastField_none_of_no_meta (ops : List (Op ρ ν)) (key name f : String) (h : ¬ HasMeta ops key name) :
    lastField ops key name f = none := by
  obtain ⟨-, m2, m3, -⟩ := run_metadata { mem := fun _ => 0, prep := id } ([] : Store ρ ν) ops
  rw [← m2]
  unfold metaField
  have : metaDict (run { mem := fun _ => 0, prep := id } (WState.init []) ops).metadata key name = none := by
    have := (m3 key name).not.mpr h
    simpa using this
  rw [this]; rfl

theorem appendSession_spec [DecidableEq ν] (c : WCfg ρ) (s : Store ρ ν) (hs : (Dict.keys s).Nodup) (r : HReader ρ ν)
    (hr : openReader s = .ok r) (t0 : Int) (ht : fileField s "data" "metadata" "total_bytes" = some (.int t0))
    (ops : List (Op ρ ν)) (order : List String) (hu : Unmixed ops) (hd : ¬ IsWritten ops "data")
    (ha : ∀ key, IsAppended ops key → Appendable s key) (ho : IsOrder ops order) :
    ∃ s', appendSession c s ops order = .ok s' ∧ AppendSpec c s t0 ops order s' := by
  obtain ⟨k1, k2, k3⟩ := run_keys c s ops
  obtain ⟨m1, m2, m3, m4⟩ := run_metadata c s ops
  obtain ⟨o1, o2, o3⟩ := openReader_spec s hs r hr
  have hfo : ∀ k, FlushOK (run c (WState.init s) ops) k := fun k => run_flushOK c s ops hu k (ha k)
  -- what a key looks like before closing, when it is not written
  have hpre : ∀ key, ¬ IsWritten ops key → (Appendable s key ∨ ¬ IsAppended ops key) := by
    intro key _
    by_cases h : IsAppended ops key
    · exact Or.inl (ha key h)
    · exact Or.inr h
  have hnowrite : ∀ key, ¬ IsWritten ops key → ¬ IsAppended ops key →
      Dict.get? (run c (WState.init s) ops).store key = Dict.get? s key := by
    intro key hw hna
    have hr := run_written c s key ops hna (fun hmk hmap => hw (Or.inr ⟨hmk, hmap⟩))
    have hnw : lastWrite ops key = none := by
      rw [← Option.not_isSome_iff_eq_none, lastWrite_isSome]
      exact fun h => hw (Or.inl h)
    rw [hnw] at hr
    exact hr.1
  have hattr : ∀ key name, ¬ IsWritten ops key →
      fileAttr (run c (WState.init s) ops).store key name = fileAttr s key name := by
    intro key name hw
    rcases hpre key hw with h | h
    · exact (run_inv c s key h ops hw).attrs name
    · unfold fileAttr; rw [hnowrite key hw h]
  obtain ⟨st', l1, l2⟩ := finishLoop_spec c order (run c (WState.init s) ops) t0 ho.1 (fun k _ => flush_ok c _ k (hfo k)) m1
  generalize hT : t0 + (order.map fun k => (finalBytes c (run c (WState.init s) ops) k : Int)).sum = T at l1
  -- the look-up of the old total
  have hmd : ∃ md, getMetadata
      { store := (run c (WState.init s) ops).store, dataframeKeys := [], metadataKeys := r.metadataKeys }
      "data" "metadata" = .ok md ∧ Dict.getItem md "total_bytes" = .ok (.int t0) := by
    unfold fileField at ht
    cases hfa : fileAttr s "data" "metadata" with
    | none => rw [hfa] at ht; cases ht
    | some md =>
      rw [hfa] at ht
      refine ⟨md, ?_, (Dict.getItem_eq_ok_iff _ _ _).mpr ht⟩
      have hold : getMetadata r "data" "metadata" = .ok md := by
        rw [o3 "data" "metadata", hfa]
        have : ("data" ≠ "mapping" ∧ Listable "metadata") := by decide
        simp only [this]; simp
      have hnew := hattr "data" "metadata" hd
      rw [hfa] at hnew
      unfold getMetadata at hold ⊢
      dsimp only
      cases hmk : Dict.get? r.metadataKeys "data" with
      | none => rw [hmk] at hold; cases hold
      | some names =>
        rw [hmk] at hold
        dsimp only at hold ⊢
        by_cases hin : "metadata" ∈ names
        · rw [if_pos hin]
          unfold fileAttr at hnew
          cases hgn : Dict.get? (run c (WState.init s) ops).store "data" with
          | none => rw [hgn] at hnew; cases hnew
          | some nd =>
            rw [hgn] at hnew
            have : Dict.get? nd.attrs "metadata" = some md := hnew
            simp [this]
        · rw [if_neg hin] at hold; cases hold
  obtain ⟨md, hmd1, hmd2⟩ := hmd
  have hfin : appendSession c s ops order = .ok (saveMetadataMerge st'.store
      (metaUpdate st'.metadata "data" "metadata" [("total_bytes", .int T), ("version", .str version)])) := by
    unfold appendSession finishAppender
    rw [hr]
    dsimp only
    rw [hmd1]
    simp only [bind, Except.bind]
    rw [hmd2]
    dsimp only
    rw [l1]
    simp [addMetadata, pure, Except.pure]
  obtain ⟨g1, g2, g3⟩ := saveMetadataMerge_spec
    (metaUpdate st'.metadata "data" "metadata" [("total_bytes", .int T), ("version", .str version)])
    (metaUpdate_wf _ _ _ _ l2.wf) st'.store
  have hff : ∀ key name f, ¬ IsWritten ops key → fileField (saveMetadataMerge st'.store
      (metaUpdate st'.metadata "data" "metadata" [("total_bytes", .int T), ("version", .str version)])) key name f
      = (metaField (metaUpdate st'.metadata "data" "metadata" [("total_bytes", .int T), ("version", .str version)]) key name f).or
        (fileField s key name f) := by
    intro key name f hw
    have hat : fileAttr st'.store key name = fileAttr s key name := by
      by_cases hk : key ∈ order
      · have : fileAttr st'.store key name = fileAttr (flush c (run c (WState.init s) ops) key).1.store key name := by
          unfold fileAttr; rw [(l2.inside key hk).1]
        rw [this, flush_attr c _ key name (hfo key), hattr key name hw]
      · have : fileAttr st'.store key name = fileAttr (run c (WState.init s) ops).store key name := by
          unfold fileAttr; rw [(l2.outside key hk).1]
        rw [this, hattr key name hw]
    unfold fileField metaField
    rw [g3 key name, hat]
    have hlast : ∀ d : MetaDict ν, ∀ old : MetaDict ν, (Dict.keys d).Nodup →
        Dict.get? (Dict.update old d) f = (Dict.get? d f).or (Dict.get? old f) :=
      fun d old hnd => Dict.get?_update old d f hnd
    cases hmdict : metaDict (metaUpdate st'.metadata "data" "metadata"
        [("total_bytes", .int T), ("version", .str version)]) key name with
    | none => simp
    | some d =>
      simp only [Option.bind_some]
      have hndk : (Dict.keys d).Nodup := metaDict_nodup _ (metaUpdate_wf _ _ _ _ l2.wf) _ _ _ hmdict
      rw [hlast _ _ hndk]
      cases fileAttr s key name <;> simp
  have hnb : ∀ key, IsData ops key → fileField (saveMetadataMerge st'.store
      (metaUpdate st'.metadata "data" "metadata" [("total_bytes", .int T), ("version", .str version)])) key "metadata" "n_bytes"
      = some (.int (finalBytes c (run c (WState.init s) ops) key)) := by
    intro key hk
    have hko := (ho.2 key).mpr hk
    have hmf : metaField (metaUpdate st'.metadata "data" "metadata"
        [("total_bytes", .int T), ("version", .str version)]) key "metadata" "n_bytes"
        = some (.int (finalBytes c (run c (WState.init s) ops) key)) := by
      rw [metaField_update, l2.field]
      by_cases hkd : "data" = key
      · simp [hkd, hko, Dict.get?]
      · simp [hkd, hko]
    unfold metaField at hmf
    unfold fileField
    rw [g3]
    cases hmdict : metaDict (metaUpdate st'.metadata "data" "metadata"
        [("total_bytes", .int T), ("version", .str version)]) key "metadata" with
    | none => rw [hmdict] at hmf; cases hmf
    | some d =>
      rw [hmdict] at hmf
      have hmf : Dict.get? d "n_bytes" = _ := hmf
      simp only [Option.bind_some]
      rw [Dict.get?_update _ _ _ (metaDict_nodup _ (metaUpdate_wf _ _ _ _ l2.wf) _ _ _ hmdict), hmf]
      rfl
  refine ⟨_, hfin, ?_, ?_, ?_, ?_⟩
  · intro key hw
    by_cases hap : IsAppended ops key
    · have hinv := run_inv c s key (ha key hap) ops hw
      obtain ⟨-, hinv', hnil⟩ := flush_inv c s _ _ key hinv
      obtain ⟨g, q1, q2, q3, q4, q5, q6⟩ := hinv'.data
      rw [hnil, List.append_nil] at q2
      have hk : key ∈ order := (ho.2 key).mpr (Or.inl hap)
      refine ⟨g, ⟨q2, q1⟩, ?_, ?_⟩
      · rw [g1 key]
        have : fileRows st'.store key = fileRows (flush c (run c (WState.init s) ops) key).1.store key := by
          unfold fileRows; rw [(l2.inside key hk).1]
        rw [this, q3]
      · intro hdk
        rw [hnb key hdk]
        have : finalBytes c (run c (WState.init s) ops) key = (g.map fun g => c.mem (c.prep g.flatten)).sum := q4
        rw [this]
    · have hko : key ∉ order := by
        intro h
        rcases (ho.2 key).mp h with h | h
        · exact hap h
        · exact hw (Or.inl h)
      refine ⟨[], ⟨?_, by simp⟩, ?_, ?_⟩
      · have : framesAppended ops key = [] := by
          by_contra h; exact hap ((framesAppended_ne_nil ops key).mp h)
        rw [this]; rfl
      · rw [g1 key]
        have : fileRows st'.store key = fileRows s key := by
          unfold fileRows; rw [(l2.outside key hko).1, hnowrite key hw hap]
        rw [this]; simp
      · intro hdk; exact absurd ((ho.2 key).mpr hdk) hko
  · intro key hkd hdk hm hmap
    have hko : key ∉ order := fun h => hdk ((ho.2 key).mp h)
    rw [g2 key]
    · rw [(l2.outside key hko).1]
      exact hnowrite key (by
        rintro (h | ⟨h, h'⟩)
        · exact hdk (Or.inr h)
        · exact hmap h h') (fun h => hdk (Or.inl h))
    · unfold metaUpdate
      rw [Dict.mem_keys_set, l2.keys, m4]
      rintro (h | h | ⟨n, kv, a, b, d⟩)
      · exact hkd h
      · exact hko h
      · exact hm ⟨n, a, b, kv, d⟩
  · intro key name f hw e1 e2
    rw [hff key name f hw, metaField_update, l2.field, m2]
    have n2 : ¬ (key ∈ order ∧ name = "metadata" ∧ f = "n_bytes") := fun h => e2 ⟨(ho.2 key).mp h.1, h.2⟩
    rw [if_neg n2]
    by_cases h : "data" = key ∧ "metadata" = name
    · rw [if_pos h]
      have h1 : f ≠ "total_bytes" := fun hf => e1 ⟨h.1.symm, h.2.symm, Or.inl hf⟩
      have h2 : f ≠ "version" := fun hf => e1 ⟨h.1.symm, h.2.symm, Or.inr hf⟩
      simp [Dict.get?, Ne.symm h1, Ne.symm h2]
    · rw [if_neg h]
  · refine ⟨fun k => finalBytes c (run c (WState.init s) ops) k, hnb, ?_⟩
    rw [hff "data" "metadata" "total_bytes" hd, metaField_update, hT]
    simp [Dict.get?]

end Verif.Lemmas
