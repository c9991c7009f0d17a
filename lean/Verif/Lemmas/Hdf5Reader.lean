import Verif.Lemmas.Hdf5Session

namespace Verif.Lemmas

open Verif.Py Verif.Model Verif.Spec

variable {ρ ν : Type} [DecidableEq ν]

theorem contentsLoop_ok (l : List (String × Node ρ ν)) (dks : List String) (mks : Dict String (List String)) :
    (∃ r, contentsLoop l dks mks = .ok r) ↔ ∀ kv ∈ l, (Dict.get? kv.2.attrs "metadata").isSome := by
  induction l generalizing dks mks with
  | nil => simp [contentsLoop]
  | cons x l ih =>
    obtain ⟨key, nd⟩ := x
    unfold contentsLoop nodeNBytes
    cases h : Dict.get? nd.attrs "metadata" with
    | none => simp [h]
    | some d =>
      cases hn : Dict.get? d "n_bytes" with
      | none =>
        simp only [List.mem_cons, forall_eq_or_imp, h, hn, Option.isSome_some, true_and]
        split <;> exact ih _ _
      | some v =>
        simp only [List.mem_cons, forall_eq_or_imp, h, hn, Option.isSome_some, true_and]
        split <;> exact ih _ _

theorem contentsLoop_spec (l : List (String × Node ρ ν)) (hl : (Dict.keys l).Nodup) (dks : List String)
    (mks : Dict String (List String)) (dks' : List String) (mks' : Dict String (List String))
    (h : contentsLoop l dks mks = .ok (dks', mks')) :
    (∀ k, k ∈ dks' ↔ k ∈ dks ∨ (k ≠ "mapping" ∧ ∃ v, fileField l k "metadata" "n_bytes" = some v ∧ v ≠ .int 0)) ∧
    (∀ k, Dict.get? mks' k = if k = "mapping" then Dict.get? mks k else
      match Dict.get? l k with
      | none => Dict.get? mks k
      | some nd => if (listedNames nd).isEmpty then Dict.get? mks k else some (listedNames nd)) := by
  induction l generalizing dks mks with
  | nil => simp only [contentsLoop, Except.ok.injEq, Prod.mk.injEq] at h; obtain ⟨rfl, rfl⟩ := h; simp [fileField, fileAttr]
  | cons x l ih =>
    obtain ⟨key, nd⟩ := x
    have hl' := List.nodup_cons.mp hl
    have hnl : Dict.get? l key = none := (Dict.get?_eq_none_iff l key).mpr hl'.1
    have hcons : ∀ k, Dict.get? ((key, nd) :: l) k = if key = k then some nd else Dict.get? l k := fun k => by
      rw [Dict.get?_cons]
    have hff : ∀ k, k ≠ key → fileField ((key, nd) :: l) k "metadata" "n_bytes" = fileField l k "metadata" "n_bytes" := by
      intro k hk; unfold fileField fileAttr; rw [hcons, if_neg (Ne.symm hk)]
    have hffk : fileField ((key, nd) :: l) key "metadata" "n_bytes"
        = (Dict.get? nd.attrs "metadata").bind fun d => Dict.get? d "n_bytes" := by
      unfold fileField fileAttr; rw [hcons, if_pos rfl]; rfl
    have hffl : fileField l key "metadata" "n_bytes" = none := by
      unfold fileField fileAttr; rw [hnl]; rfl
    unfold contentsLoop at h
    cases hb : nodeNBytes nd with
    | error e => rw [hb] at h; cases h
    | ok nb =>
      rw [hb] at h
      dsimp only at h
      by_cases hm : key = "mapping"
      · rw [if_pos hm] at h
        obtain ⟨i1, i2⟩ := ih hl'.2 _ _ h
        refine ⟨?_, ?_⟩
        · intro k
          rw [i1]
          by_cases hk : k = key
          · subst hk; simp [hm]
          · rw [hff k hk]
        · intro k
          rw [i2, hcons]
          by_cases hk : k = key
          · subst hk; simp [hm]
          · rw [if_neg (Ne.symm hk)]
      · rw [if_neg hm] at h
        obtain ⟨i1, i2⟩ := ih hl'.2 _ _ h
        refine ⟨?_, ?_⟩
        · intro k
          rw [i1]
          by_cases hk : k = key
          · subst hk
            rw [hffl, hffk]
            unfold nodeNBytes at hb
            cases hd : Dict.get? nd.attrs "metadata" with
            | none => rw [hd] at hb; cases hb
            | some d =>
              rw [hd] at hb
              dsimp only at hb
              cases hn : Dict.get? d "n_bytes" with
              | none => rw [hn] at hb; cases hb; simp [hn]
              | some v =>
                rw [hn] at hb; cases hb
                by_cases hv : nb = .int 0
                · simp [hn, hv]
                · simp [hn, hv, hm]
          · rw [hff k hk]
            split
            · rfl
            · simp [hk]
        · intro k
          rw [i2, hcons]
          by_cases hk : k = key
          · subst hk
            rw [if_neg hm, if_neg hm, hnl, if_pos rfl]
            dsimp only
            split
            · rfl
            · simp
          · rw [if_neg (Ne.symm hk)]
            have : Dict.get? (if (listedNames nd).isEmpty then mks else Dict.set mks key (listedNames nd)) k
                = Dict.get? mks k := by
              split
              · rfl
              · exact Dict.get?_set_ne _ _ (Ne.symm hk)
            rw [this]

theorem openReader_ok_iff (s : Store ρ ν) :
    (∃ r, openReader s = .ok r) ↔ ∀ kv ∈ s, (Dict.get? kv.2.attrs "metadata").isSome := by
  rw [← contentsLoop_ok s [] []]
  unfold openReader
  constructor
  · rintro ⟨r, h⟩
    cases hc : contentsLoop s [] [] with
    | error e => rw [hc] at h; cases h
    | ok r => exact ⟨r, rfl⟩
  · rintro ⟨r, h⟩
    rw [h]; exact ⟨_, rfl⟩

/-- opening in terms of keys -/
theorem openReader_ok_iff' (s : Store ρ ν) (hs : (Dict.keys s).Nodup) :
    (∃ r, openReader s = .ok r) ↔ ∀ k, (Dict.get? s k).isSome → (fileAttr s k "metadata").isSome := by
  rw [openReader_ok_iff]
  constructor
  · intro h k hk
    obtain ⟨nd, hnd⟩ := Option.isSome_iff_exists.mp hk
    unfold fileAttr; rw [hnd]
    exact h (k, nd) (Dict.mem_of_get? hnd)
  · intro h kv hkv
    obtain ⟨k, nd⟩ := kv
    have hg := Dict.get?_of_mem_nodup hs hkv
    have := h k (by rw [hg]; rfl)
    unfold fileAttr at this; rw [hg] at this
    exact this

theorem openReader_error (s : Store ρ ν) (e : Err) (h : openReader s = .error e) : e = .attributeError := by
  have : ∀ (l : List (String × Node ρ ν)) dks mks, contentsLoop l dks mks = .error e → e = .attributeError := by
    intro l
    induction l with
    | nil => intro d m h; cases h
    | cons x l ih =>
      obtain ⟨key, nd⟩ := x
      intro d m h
      unfold contentsLoop at h
      cases hb : nodeNBytes nd with
      | error e' =>
        rw [hb] at h; cases h
        unfold nodeNBytes at hb
        cases hd : Dict.get? nd.attrs "metadata" with
        | none => rw [hd] at hb; cases hb; rfl
        | some dd =>
          rw [hd] at hb; dsimp only at hb
          split at hb <;> cases hb
      | ok nb =>
        rw [hb] at h; dsimp only at h
        split at h
        · exact ih _ _ h
        · exact ih _ _ h
  unfold openReader at h
  cases hc : contentsLoop s [] [] with
  | error e' => rw [hc] at h; cases h; exact this s [] [] hc
  | ok r => rw [hc] at h; cases h

theorem openReader_spec (s : Store ρ ν) (hs : (Dict.keys s).Nodup) (r : HReader ρ ν) (h : openReader s = .ok r) :
    r.store = s ∧
    (∀ k, k ∈ r.dataframeKeys ↔ (k ≠ "mapping" ∧ ∃ v, fileField s k "metadata" "n_bytes" = some v ∧ v ≠ .int 0)) ∧
    (∀ k name, getMetadata r k name =
      match fileAttr s k name with
      | none => .error .keyError
      | some d => if k ≠ "mapping" ∧ Listable name then .ok d else .error .keyError) := by
  unfold openReader at h
  cases hc : contentsLoop s [] [] with
  | error e => rw [hc] at h; cases h
  | ok dm =>
    obtain ⟨dks, mks⟩ := dm
    rw [hc] at h
    cases h
    obtain ⟨i1, i2⟩ := contentsLoop_spec s hs [] [] dks mks hc
    refine ⟨rfl, ?_, ?_⟩
    · intro k; rw [i1]; simp
    · intro k name
      unfold getMetadata
      dsimp only
      rw [i2 k]
      by_cases hk : k = "mapping"
      · rw [if_pos hk]
        simp only [Dict.get?]
        split <;> simp [hk]
      · rw [if_neg hk]
        cases hg : Dict.get? s k with
        | none => simp [fileAttr, hg, Dict.get?]
        | some nd =>
          have hfa : fileAttr s k name = Dict.get? nd.attrs name := by simp [fileAttr, hg]
          rw [hfa]
          dsimp only
          have hmem : name ∈ listedNames nd ↔ (Dict.get? nd.attrs name).isSome ∧ Listable name := by
            unfold listedNames Listable
            rw [List.mem_filter, Dict.mem_keys_iff]
            simp [Option.isSome_iff_exists]
          by_cases he : (listedNames nd).isEmpty
          · rw [if_pos he]
            have he' : listedNames nd = [] := by simpa using he
            rw [he'] at hmem
            simp only [Dict.get?]
            cases hd : Dict.get? nd.attrs name with
            | none => rfl
            | some d =>
              simp only [hd, Option.isSome_some, true_and] at hmem
              have : ¬ Listable name := fun hl => by simpa using hmem.mpr hl
              simp [this]
          · rw [if_neg he]
            dsimp only
            cases hd : Dict.get? nd.attrs name with
            | none =>
              have : name ∉ listedNames nd := by rw [hmem]; simp [hd]
              simp [this]
            | some d =>
              by_cases hl : Listable name
              · have : name ∈ listedNames nd := by rw [hmem]; simp [hd, hl]
                simp [this, hl, hk]
              · have : name ∉ listedNames nd := by rw [hmem]; simp [hl]
                simp [this, hl]

end Verif.Lemmas
