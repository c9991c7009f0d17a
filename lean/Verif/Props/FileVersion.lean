import Verif.Props.Monitor
import Verif.Props.Hdf5Mixed

/-!
# C93: the warning after arbitrary sessions
-/

namespace Verif.Props

open Verif.Py Verif.Model Verif.Spec Verif.Lemmas

variable {ρ ν : Type}

theorem finishLoop_nodup (c : WCfg ρ) (order : List String) (st st' : WState ρ ν) (total t : Int) (h : finishLoop c order st total = .ok (st', t))
    (hn : (Dict.keys st.store).Nodup) : (Dict.keys st'.store).Nodup := by
  induction order generalizing st total with
  | nil => cases h; exact hn
  | cons key order ih =>
    unfold finishLoop at h
    rcases hf : flush c st key with ⟨s1, e⟩
    rw [hf] at h
    cases e with
    | some e => cases h
    | none =>
      refine ih _ _ h ?_
      have := flush_nodup c st key hn
      rw [hf] at this
      unfold addMetadata
      split <;> exact this

theorem saveMetadataMerge_nodup (m : Dict String (Dict String (MetaDict ν))) (s : Store ρ ν) (h : (Dict.keys s).Nodup) :
    (Dict.keys (saveMetadataMerge s m)).Nodup := by
  induction m generalizing s with
  | nil => exact h
  | cons x m ih =>
    obtain ⟨key, sub⟩ := x
    rw [saveMetadataMerge_cons]
    refine ih _ ?_
    have hs1 : (Dict.keys (if (Dict.get? s key).isSome then s else Store.put s key [])).Nodup := by
      split
      · exact h
      · exact Dict.nodup_keys_set _ _ _ h
    generalize (if (Dict.get? s key).isSome then s else Store.put s key []) = s1 at hs1
    unfold mergeInner
    induction sub generalizing s1 with
    | nil => exact hs1
    | cons y sub ih2 => exact ih2 _ (keys_nodup_setAttr _ _ _ _ hs1)

/-- C93, after any writing or appending session that can be closed, whatever was done in it: opening the file gives no warning, whichever versions wrote the
rows that were there before. (So an appended file breaks C93 exactly if it holds rows of another main version, `C93_false`.) -/
theorem C93_every_history_partial [DecidableEq ν] (c : WCfg ρ) (ops : List (Op ρ ν)) (order : List String) (ho : IsOrder ops order) (s' : Store ρ ν) :
    (writeSession c ops order = .ok s' → ∀ r, openReader s' = .ok r → versionWarning r = .ok .none) ∧
      ∀ s, (Dict.keys s).Nodup → appendSession c s ops order = .ok s' → ∀ r, openReader s' = .ok r → versionWarning r = .ok .none := by
  have key : ∀ (m : Dict String (Dict String (MetaDict ν))) (t : Int), MetaWF m →
      ∃ d, metaDict (metaUpdate m "data" "metadata" [("total_bytes", .int t), ("version", .str version)]) "data" "metadata" = some d ∧
        Dict.get? d "version" = some (.str version) := by
    intro m t _
    rw [metaDict_update, if_pos ⟨rfl, rfl⟩]
    refine ⟨_, rfl, ?_⟩
    rw [Dict.get?_update _ _ _ (by simp [Dict.keys])]
    rfl
  have warn : ∀ s'' : Store ρ ν, (Dict.keys s'').Nodup → fileField s'' "data" "metadata" "version" = some (.str version) →
      ∀ r, openReader s'' = .ok r → versionWarning r = .ok .none := by
    intro s'' hn hv r hr
    have := (C93_decision s'' hn r hr).1 3 [1, 0] [] .none (by rw [hv]; exact congrArg _ (congrArg _ (by decide +kernel)))
    simpa [warningFor] using this
  constructor
  · intro h
    obtain ⟨m1, -⟩ := run_metadata c ([] : Store ρ ν) ops
    unfold writeSession finish at h
    rcases finishLoop_any c order (run c (WState.init []) ops) 0 ho.1 m1 with ⟨-, st', t, g2, g3, -⟩ | ⟨-, g2⟩
    · have hnd := finishLoop_nodup c order _ st' 0 t g2 ((run_keys c [] ops).2.2 (by simp [Dict.keys]))
      rw [g2] at h
      simp only [bind, Except.bind, pure, Except.pure, addMetadata] at h
      obtain ⟨d, d1, d2⟩ := key st'.metadata t g3
      obtain ⟨-, -, -, q4, q5⟩ := saveMetadata_spec _ (metaUpdate_wf st'.metadata "data" "metadata"
          [("total_bytes", .int t), ("version", .str version)] g3) st'.store
      have hs' : s' = saveMetadata st'.store (metaUpdate st'.metadata "data" "metadata" [("total_bytes", .int t), ("version", .str version)]) := by
        cases h; rfl
      rw [hs']
      refine warn _ (q4 hnd) ?_
      unfold fileField
      rw [q5, d1]
      exact d2
    · rw [g2] at h
      cases h
  · intro s hs h
    obtain ⟨m1, -⟩ := run_metadata c s ops
    unfold appendSession at h
    cases hr : openReader s with
    | error e => rw [hr] at h; cases h
    | ok r =>
      rw [hr] at h
      simp only [finishAppender, bind, Except.bind] at h
      split at h
      · cases h
      split at h
      · cases h
      rename_i tb _
      cases tb with
      | str x => cases h
      | obj x => cases h
      | int t0 =>
        simp only at h
        rcases finishLoop_any c order (run c (WState.init s) ops) t0 ho.1 m1 with ⟨-, st', t, g2, g3, -⟩ | ⟨-, g2⟩
        · have hnd := finishLoop_nodup c order _ st' t0 t g2 ((run_keys c s ops).2.2 hs)
          rw [g2] at h
          simp only [pure, Except.pure, addMetadata] at h
          obtain ⟨d, d1, d2⟩ := key st'.metadata t g3
          have hwf := metaUpdate_wf st'.metadata "data" "metadata" [("total_bytes", .int t), ("version", .str version)] g3
          obtain ⟨-, -, q3⟩ := saveMetadataMerge_spec _ hwf st'.store
          have hs' : s' = saveMetadataMerge st'.store (metaUpdate st'.metadata "data" "metadata" [("total_bytes", .int t), ("version", .str version)]) := by
            cases h; rfl
          rw [hs']
          refine warn _ (saveMetadataMerge_nodup _ _ hnd) ?_
          unfold fileField
          have := metaDict_nodup _ hwf _ _ _ d1
          rw [q3, d1]
          simp only [Option.bind_some]
          rw [Dict.get?_update _ _ _ this, d2]
          rfl
        · rw [g2] at h
          cases h

/-- a file of version 1 is appended to, and one of its tables replaced, in one session -/
example : ∃ s', appendSession { mem := fun df => 8 * df.length, prep := id } firstVersionFile [.write "extra" [4], .append [3] "data", .write "extra" [5]]
    ["extra", "data"] = .ok s' ∧ (openReader s').toOption.map versionWarning = some (.ok .none) :=
  ⟨_, rfl, by decide +kernel⟩

end Verif.Props
