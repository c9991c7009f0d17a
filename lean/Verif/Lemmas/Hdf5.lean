import Verif.Model.Hdf5
import Verif.Spec.Hdf5
import Verif.Py.DictLemmas
import Mathlib.Data.List.Nodup
import Mathlib.Data.List.Induction

namespace Verif.Lemmas

open Verif.Py Verif.Model Verif.Spec

variable {ρ ν : Type}

/-! ### store operations -/

/-- the node under `key` (if any) can be appended to -/
def Appendable (s : Store ρ ν) (key : String) : Prop := ∀ nd, Dict.get? s key = some nd → nd.fmt = .table

theorem put_get (s : Store ρ ν) (key k : String) (df : List ρ) :
    Dict.get? (Store.put s key df) k
      = if key = k then some { fmt := .fixed, rows := df, attrs := [] } else Dict.get? s k := by
  simp [Store.put, Dict.get?_set]

theorem setAttr_get (s : Store ρ ν) (key name : String) (d : MetaDict ν) (k : String) :
    Dict.get? (Store.setAttr s key name d) k
      = if key = k then (Dict.get? s k).map (fun nd => { nd with attrs := Dict.set nd.attrs name d })
        else Dict.get? s k := by
  unfold Store.setAttr
  cases h : Dict.get? s key with
  | none =>
    by_cases hk : key = k
    · subst hk; simp [h]
    · simp [hk]
  | some nd =>
    simp only [Dict.get?_set]
    by_cases hk : key = k
    · subst hk; simp [h]
    · simp [hk]

theorem append_spec (s : Store ρ ν) (key : String) (df : List ρ) (h : Appendable s key) :
    ∃ s', Store.append s key df = .ok s' ∧ Appendable s' key ∧
      fileRows s' key = fileRows s key ++ df ∧ (∀ n, fileAttr s' key n = fileAttr s key n) ∧
      (∀ k, k ≠ key → Dict.get? s' k = Dict.get? s k) ∧
      ((Dict.keys s).Nodup → (Dict.keys s').Nodup) ∧
      (df ≠ [] → (Dict.get? s' key).isSome) ∧ ((Dict.get? s key).isSome → (Dict.get? s' key).isSome) := by
  unfold Store.append
  by_cases he : df.isEmpty
  · simp only [he, if_true]
    have : df = [] := by simpa using he
    subst this
    exact ⟨s, rfl, h, by simp, by simp, by simp, id, by simp, id⟩
  · simp only [he]
    cases hg : Dict.get? s key with
    | none =>
      refine ⟨_, rfl, ?_, ?_, ?_, ?_, fun hn => Dict.nodup_keys_set _ _ _ hn, by simp, by simp⟩
      · intro nd hnd; simp at hnd; subst hnd; rfl
      · simp [fileRows, hg]
      · intro n; simp [fileAttr, hg]
      · intro k hk; exact Dict.get?_set_ne _ _ (Ne.symm hk)
    | some nd =>
      have hf := h nd hg
      simp only [hf]
      refine ⟨_, rfl, ?_, ?_, ?_, ?_, fun hn => Dict.nodup_keys_set _ _ _ hn, by simp, by simp⟩
      · intro nd' hnd; simp at hnd; subst hnd; simp
      · simp [fileRows, hg]
      · intro n; simp [fileAttr, hg]
      · intro k hk; exact Dict.get?_set_ne _ _ (Ne.symm hk)

/-! ### nested metadata dictionary -/

/-- lookup of a whole dictionary in the writer's metadata -/
def metaDict (m : Dict String (Dict String (MetaDict ν))) (key name : String) : Option (MetaDict ν) :=
  (Dict.get? m key).bind fun sub => Dict.get? sub name

/-- lookup of one field -/
def metaField (m : Dict String (Dict String (MetaDict ν))) (key name field : String) : Option (MetaVal ν) :=
  (metaDict m key name).bind fun d => Dict.get? d field

/-- keys of outer and inner dictionaries are distinct -/
def MetaWF (m : Dict String (Dict String (MetaDict ν))) : Prop :=
  (Dict.keys m).Nodup ∧ ∀ kv ∈ m, (Dict.keys kv.2).Nodup ∧ ∀ nd ∈ kv.2, (Dict.keys nd.2).Nodup

theorem mem_dict_set {κ β : Type} [DecidableEq κ] (d : Dict κ β) (k : κ) (v : β) (x : κ × β)
    (h : x ∈ Dict.set d k v) : x = (k, v) ∨ x ∈ d := by
  induction d with
  | nil => simp [Dict.set] at h; exact Or.inl h
  | cons a d ih =>
    obtain ⟨ka, va⟩ := a
    unfold Dict.set at h
    split at h
    · rcases List.mem_cons.mp h with h | h
      · exact Or.inl h
      · exact Or.inr (by simp [h])
    · rcases List.mem_cons.mp h with h | h
      · exact Or.inr (by simp [h])
      · rcases ih h with h | h
        · exact Or.inl h
        · exact Or.inr (by simp [h])

theorem metaUpdate_wf (m : Dict String (Dict String (MetaDict ν))) (key name : String) (kv : MetaDict ν)
    (h : MetaWF m) : MetaWF (metaUpdate m key name kv) := by
  refine ⟨Dict.nodup_keys_set _ _ _ h.1, ?_⟩
  intro x hx
  rcases mem_dict_set _ _ _ _ hx with rfl | hx
  · cases hg : Dict.get? m key with
    | none =>
      refine ⟨Dict.nodup_keys_set _ _ _ (by simp [Dict.keys]), ?_⟩
      intro nd hnd
      rcases mem_dict_set _ _ _ _ hnd with rfl | hnd
      · exact Dict.nodup_keys_update _ _ (by simp [Dict.keys])
      · simp at hnd
    | some sub =>
      have hsub := h.2 _ (Dict.mem_of_get? hg)
      refine ⟨Dict.nodup_keys_set _ _ _ hsub.1, ?_⟩
      intro nd hnd
      rcases mem_dict_set _ _ _ _ hnd with rfl | hnd
      · apply Dict.nodup_keys_update
        simp only [Option.getD_some]
        cases hd : Dict.get? sub name with
        | none => simp [Dict.keys]
        | some d => exact hsub.2 _ (Dict.mem_of_get? hd)
      · exact hsub.2 nd hnd
  · exact h.2 x hx

theorem metaDict_nodup (m : Dict String (Dict String (MetaDict ν))) (h : MetaWF m) (key name : String) (d : MetaDict ν)
    (hd : metaDict m key name = some d) : (Dict.keys d).Nodup := by
  unfold metaDict at hd
  cases hg : Dict.get? m key with
  | none => rw [hg] at hd; cases hd
  | some sub =>
    rw [hg] at hd
    exact (h.2 _ (Dict.mem_of_get? hg)).2 _ (Dict.mem_of_get? hd)

theorem metaDict_update (m : Dict String (Dict String (MetaDict ν))) (key name key' name' : String) (kv : MetaDict ν) :
    metaDict (metaUpdate m key name kv) key' name'
      = if key = key' ∧ name = name' then some (Dict.update ((metaDict m key name).getD []) kv)
        else metaDict m key' name' := by
  unfold metaUpdate metaDict
  simp only [Dict.get?_set]
  by_cases hk : key = key'
  · subst hk
    simp only [if_true, Option.bind_some, Dict.get?_set, true_and]
    by_cases hn : name = name'
    · subst hn
      simp only [if_true]
      cases Dict.get? m key <;> simp
    · simp only [hn, if_false]
      cases Dict.get? m key <;> simp
  · simp [hk]

theorem metaField_update (m : Dict String (Dict String (MetaDict ν))) (key name key' name' f : String)
    (kv : MetaDict ν) :
    metaField (metaUpdate m key name kv) key' name' f
      = if key = key' ∧ name = name' then (Dict.get? kv.reverse f).or (metaField m key' name' f)
        else metaField m key' name' f := by
  unfold metaField
  rw [metaDict_update]
  by_cases h : key = key' ∧ name = name'
  · obtain ⟨rfl, rfl⟩ := h
    simp only [and_self, if_true, Option.bind_some, Dict.get?_update_reverse]
    cases metaDict m key name <;> simp
  · simp [h]

/-! ### saving metadata -/

theorem fileAttr_setAttr (s : Store ρ ν) (key name key' name' : String) (d : MetaDict ν)
    (hs : (Dict.get? s key).isSome) :
    fileAttr (Store.setAttr s key name d) key' name'
      = if key = key' ∧ name = name' then some d else fileAttr s key' name' := by
  unfold fileAttr
  rw [setAttr_get]
  by_cases hk : key = key'
  · subst hk
    obtain ⟨nd, hnd⟩ := Option.isSome_iff_exists.mp hs
    simp only [hnd, if_true, Option.map_some, Option.bind_some, Dict.get?_set, true_and]
  · simp [hk]

theorem isSome_setAttr (s : Store ρ ν) (key name k : String) (d : MetaDict ν) :
    (Dict.get? (Store.setAttr s key name d) k).isSome = (Dict.get? s k).isSome := by
  rw [setAttr_get]; split <;> simp

theorem fileRows_setAttr (s : Store ρ ν) (key name k : String) (d : MetaDict ν) :
    fileRows (Store.setAttr s key name d) k = fileRows s k := by
  unfold fileRows
  rw [setAttr_get]
  by_cases h : key = k
  · rw [if_pos h]; cases Dict.get? s k <;> rfl
  · rw [if_neg h]

theorem fmt_setAttr (s : Store ρ ν) (key name k : String) (d : MetaDict ν) :
    (Dict.get? (Store.setAttr s key name d) k).map Node.fmt = (Dict.get? s k).map Node.fmt := by
  rw [setAttr_get]
  split
  · cases Dict.get? s k <;> rfl
  · rfl

theorem keys_nodup_setAttr (s : Store ρ ν) (key name : String) (d : MetaDict ν) (h : (Dict.keys s).Nodup) :
    (Dict.keys (Store.setAttr s key name d)).Nodup := by
  unfold Store.setAttr
  split
  · exact h
  · exact Dict.nodup_keys_set _ _ _ h

/-- the inner loop of `_save_metadata` -/
def saveInner (key : String) (s : Store ρ ν) (sub : Dict String (MetaDict ν)) : Store ρ ν :=
  sub.foldl (fun s (nd : String × MetaDict ν) => Store.setAttr s key nd.1 nd.2) s

theorem saveInner_spec (key : String) (sub : Dict String (MetaDict ν)) (s : Store ρ ν)
    (hs : (Dict.get? s key).isSome) (hn : (Dict.keys sub).Nodup) :
    (∀ k, (Dict.get? (saveInner key s sub) k).isSome = (Dict.get? s k).isSome) ∧
    (∀ k, fileRows (saveInner key s sub) k = fileRows s k) ∧
    (∀ k, (Dict.get? (saveInner key s sub) k).map Node.fmt = (Dict.get? s k).map Node.fmt) ∧
    ((Dict.keys s).Nodup → (Dict.keys (saveInner key s sub)).Nodup) ∧
    (∀ k name, fileAttr (saveInner key s sub) k name
      = if k = key then (Dict.get? sub name).or (fileAttr s k name) else fileAttr s k name) := by
  induction sub generalizing s with
  | nil => simp [saveInner]
  | cons x sub ih =>
    obtain ⟨nm, d⟩ := x
    have hn' := List.nodup_cons.mp hn
    have hx : nm ∉ Dict.keys sub := hn'.1
    have ih' := ih (Store.setAttr s key nm d) (by rw [isSome_setAttr]; exact hs) hn'.2
    have hcons : saveInner key s ((nm, d) :: sub) = saveInner key (Store.setAttr s key nm d) sub := rfl
    rw [hcons]
    refine ⟨?_, ?_, ?_, ?_, ?_⟩
    · intro k; rw [ih'.1 k, isSome_setAttr]
    · intro k; rw [ih'.2.1 k, fileRows_setAttr]
    · intro k; rw [ih'.2.2.1 k, fmt_setAttr]
    · intro h; exact ih'.2.2.2.1 (keys_nodup_setAttr _ _ _ _ h)
    · intro k name
      rw [ih'.2.2.2.2 k name, fileAttr_setAttr _ _ _ _ _ _ hs, Dict.get?_cons]
      by_cases hk : k = key
      · subst hk
        by_cases hnm : nm = name
        · subst hnm
          simp [(Dict.get?_eq_none_iff sub nm).mpr hx]
        · simp [hnm]
      · simp [hk, Ne.symm hk]

theorem saveMetadata_cons (s : Store ρ ν) (k : String) (sub : Dict String (MetaDict ν))
    (m : Dict String (Dict String (MetaDict ν))) :
    saveMetadata s ((k, sub) :: m)
      = saveMetadata (saveInner k (if (Dict.get? s k).isSome then s else Store.put s k []) sub) m := rfl

theorem saveMetadata_spec (m : Dict String (Dict String (MetaDict ν))) (hm : MetaWF m) (s : Store ρ ν) :
    (∀ k, (Dict.get? (saveMetadata s m) k).isSome = ((Dict.get? s k).isSome || decide (k ∈ Dict.keys m))) ∧
    (∀ k, fileRows (saveMetadata s m) k = fileRows s k) ∧
    (∀ k, (Dict.get? (saveMetadata s m) k).map Node.fmt
      = ((Dict.get? s k).map Node.fmt).or (if k ∈ Dict.keys m then some .fixed else none)) ∧
    ((Dict.keys s).Nodup → (Dict.keys (saveMetadata s m)).Nodup) ∧
    (∀ k name, fileAttr (saveMetadata s m) k name = (metaDict m k name).or (fileAttr s k name)) := by
  induction m generalizing s with
  | nil => simp [saveMetadata, metaDict, Dict.keys]
  | cons x m ih =>
    obtain ⟨key, sub⟩ := x
    have hn := List.nodup_cons.mp hm.1
    have hx : key ∉ Dict.keys m := hn.1
    have hwf : MetaWF m := ⟨hn.2, fun kv hkv => hm.2 kv (by simp [hkv])⟩
    have hsub : (Dict.keys sub).Nodup := (hm.2 (key, sub) (by simp)).1
    rw [saveMetadata_cons]
    generalize hs1 : (if (Dict.get? s key).isSome then s else Store.put s key []) = s1
    have hsome : (Dict.get? s1 key).isSome := by
      subst hs1; split
      · assumption
      · simp [put_get]
    have hs1some : ∀ k, (Dict.get? s1 k).isSome = ((Dict.get? s k).isSome || decide (k = key)) := by
      intro k
      subst hs1; split
      · rename_i h
        by_cases hk : k = key
        · subst hk; simp [h]
        · simp [hk]
      · rw [put_get]
        by_cases hk : k = key
        · subst hk; simp
        · simp [hk, Ne.symm hk]
    have hs1rows : ∀ k, fileRows s1 k = fileRows s k := by
      intro k
      subst hs1; split
      · rfl
      · rename_i h
        unfold fileRows; rw [put_get]
        by_cases hk : k = key
        · subst hk
          have : Dict.get? s k = none := by simpa using h
          simp [this]
        · simp [Ne.symm hk]
    have hs1fmt : ∀ k, (Dict.get? s1 k).map Node.fmt
        = ((Dict.get? s k).map Node.fmt).or (if k = key then some .fixed else none) := by
      intro k
      subst hs1; split
      · rename_i h
        by_cases hkk : k = key
        · subst hkk
          obtain ⟨nd, hnd⟩ := Option.isSome_iff_exists.mp h
          simp [hnd]
        · simp [hkk]
      · rename_i h
        rw [put_get]
        by_cases hkk : key = k
        · subst hkk
          have : Dict.get? s key = none := by simpa using h
          simp [this]
        · simp [hkk, Ne.symm hkk]
    have hs1nd : (Dict.keys s).Nodup → (Dict.keys s1).Nodup := by
      intro h
      subst hs1; split
      · exact h
      · exact Dict.nodup_keys_set _ _ _ h
    have hs1attr : ∀ k n, fileAttr s1 k n = fileAttr s k n := by
      intro k n
      subst hs1; split
      · rfl
      · rename_i h
        unfold fileAttr; rw [put_get]
        by_cases hk : k = key
        · subst hk
          have : Dict.get? s k = none := by simpa using h
          simp [this]
        · simp [Ne.symm hk]
    have hi := saveInner_spec key sub s1 hsome hsub
    have ih' := ih hwf (saveInner key s1 sub)
    refine ⟨?_, ?_, ?_, ?_, ?_⟩
    · intro k
      rw [ih'.1 k, hi.1 k, hs1some k]
      have : (k ∈ Dict.keys ((key, sub) :: m)) ↔ (k = key ∨ k ∈ Dict.keys m) := by
        simp [Dict.keys]
      simp only [this, Bool.decide_or, Bool.or_assoc]
    · intro k; rw [ih'.2.1 k, hi.2.1 k, hs1rows k]
    · intro k
      rw [ih'.2.2.1 k, hi.2.2.1 k, hs1fmt k, Option.or_assoc]
      congr 1
      have : (k ∈ Dict.keys ((key, sub) :: m)) ↔ (k = key ∨ k ∈ Dict.keys m) := by
        simp [Dict.keys]
      simp only [this]
      by_cases h1 : k = key <;> simp [h1]
    · intro h; exact ih'.2.2.2.1 (hi.2.2.2.1 (hs1nd h))
    · intro k name
      rw [ih'.2.2.2.2 k name, hi.2.2.2.2 k name, hs1attr k name]
      unfold metaDict
      rw [Dict.get?_cons]
      by_cases hk : k = key
      · subst hk
        simp [(Dict.get?_eq_none_iff m k).mpr hx]
      · simp [hk, Ne.symm hk]

/-! ### the writer: what one call does to one key -/

/-- The relation between the log of frames appended to `key` since the state was opened on `s0`, and the state. -/
structure KeyInv (c : WCfg ρ) (s0 : Store ρ ν) (frames : List (List ρ)) (st : WState ρ ν) (key : String) : Prop where
  app : Appendable st.store key
  attrs : ∀ n, fileAttr st.store key n = fileAttr s0 key n
  data : ∃ groups : List (List (List ρ)), (∀ g ∈ groups, g ≠ []) ∧ groups.flatten ++ st.dfList key = frames ∧
    fileRows st.store key = fileRows s0 key ++ (groups.map fun g => c.prep g.flatten).flatten ∧
    st.nBytes key = (groups.map fun g => c.mem (c.prep g.flatten)).sum ∧
    ((Dict.get? s0 key).isSome → (Dict.get? st.store key).isSome) ∧
    ((∃ g ∈ groups, c.prep g.flatten ≠ []) → (Dict.get? st.store key).isSome)

/-- the parts of the state that belong to one key -/
def SameKey (st st' : WState ρ ν) (key : String) : Prop :=
  Dict.get? st'.store key = Dict.get? st.store key ∧ st'.dfList key = st.dfList key ∧ st'.nBytes key = st.nBytes key

theorem KeyInv.congr {c : WCfg ρ} {s0 : Store ρ ν} {frames : List (List ρ)} {st st' : WState ρ ν} {key : String}
    (h : KeyInv c s0 frames st key) (hs : SameKey st st' key) : KeyInv c s0 frames st' key := by
  obtain ⟨h1, h2, h3⟩ := hs
  obtain ⟨ha, hat, hd⟩ := h
  refine ⟨?_, ?_, ?_⟩
  · unfold Appendable; rw [h1]; exact ha
  · intro n; unfold fileAttr; rw [h1]; exact hat n
  · obtain ⟨g, a, b, cc, d, e, f⟩ := hd
    refine ⟨g, a, by rw [h2]; exact b, ?_, by rw [h3]; exact d, by rw [h1]; exact e, by rw [h1]; exact f⟩
    unfold fileRows; rw [h1]; exact cc

theorem KeyInv.init (c : WCfg ρ) (s0 : Store ρ ν) (key : String) (h : Appendable s0 key) :
    KeyInv c s0 [] (WState.init s0) key :=
  ⟨h, fun _ => rfl, [], by simp, rfl, by simp [WState.init], rfl, id, by simp⟩

/-- flushing a key: succeeds, empties the buffer and keeps the relation -/
theorem flush_inv (c : WCfg ρ) (s0 : Store ρ ν) (frames : List (List ρ)) (st : WState ρ ν) (key : String)
    (h : KeyInv c s0 frames st key) :
    (flush c st key).2 = none ∧ KeyInv c s0 frames (flush c st key).1 key ∧ (flush c st key).1.dfList key = [] := by
  unfold flush
  by_cases he : (st.dfList key).isEmpty
  · simp only [he, if_true]
    exact ⟨trivial, h, by simpa using he⟩
  · simp only [he]
    obtain ⟨s', hs', ha', hr', hat', ho', -, hne, hso⟩ := append_spec st.store key (c.prep (st.dfList key).flatten) h.app
    simp only [hs', Bool.false_eq_true, if_false, true_and]
    obtain ⟨g, hg, hf, hrows, hb, hex, hexg⟩ := h.data
    refine ⟨⟨ha', fun n => (hat' n).trans (h.attrs n), g ++ [st.dfList key], ?_, ?_, ?_, ?_, ?_, ?_⟩, by simp [fset]⟩
    · intro x hx
      rcases List.mem_append.mp hx with hx | hx
      · exact hg x hx
      · simp at hx; subst hx; simpa using he
    · simp [fset, hf]
    · rw [hr', hrows]; simp
    · simp [fset, hb]
    · exact fun h0 => hso (hex h0)
    · rintro ⟨x, hx, hxne⟩
      rcases List.mem_append.mp hx with hx | hx
      · exact hso (hexg ⟨x, hx, hxne⟩)
      · simp at hx; subst hx; exact hne hxne

theorem flush_other (c : WCfg ρ) (st : WState ρ ν) (key k : String) (hk : k ≠ key) :
    SameKey st (flush c st key).1 k := by
  unfold flush
  split
  · exact ⟨rfl, rfl, rfl⟩
  · dsimp only
    split
    · exact ⟨rfl, rfl, rfl⟩
    · rename_i s' hs'
      refine ⟨?_, by simp [fset, hk], by simp [fset, hk]⟩
      unfold Store.append at hs'
      split at hs'
      · cases hs'; rfl
      · split at hs'
        · cases hs'; exact Dict.get?_set_ne _ _ (Ne.symm hk)
        · split at hs'
          · cases hs'; exact Dict.get?_set_ne _ _ (Ne.symm hk)
          · cases hs'

theorem flush_keep (c : WCfg ρ) (st : WState ρ ν) (key : String) :
    (flush c st key).1.keys = st.keys ∧ (flush c st key).1.metadata = st.metadata := by
  unfold flush
  split
  · exact ⟨rfl, rfl⟩
  · dsimp only; split <;> exact ⟨rfl, rfl⟩

theorem flush_nodup (c : WCfg ρ) (st : WState ρ ν) (key : String) (h : (Dict.keys st.store).Nodup) :
    (Dict.keys (flush c st key).1.store).Nodup := by
  unfold flush
  split
  · exact h
  · dsimp only
    split
    · exact h
    · rename_i s' hs'
      unfold Store.append at hs'
      split at hs'
      · cases hs'; exact h
      · split at hs'
        · cases hs'; exact Dict.nodup_keys_set _ _ _ h
        · split at hs'
          · cases hs'; exact Dict.nodup_keys_set _ _ _ h
          · cases hs'

theorem append_inv (c : WCfg ρ) (s0 : Store ρ ν) (frames : List (List ρ)) (st : WState ρ ν) (key : String)
    (df : List ρ) (h : KeyInv c s0 frames st key) :
    (append c st df key).2 = none ∧ KeyInv c s0 (frames ++ [df]) (append c st df key).1 key := by
  unfold append
  have h1 : KeyInv c s0 (frames ++ [df]) { st with
    keys := addKey st.keys key
    dfList := fset st.dfList key (st.dfList key ++ [df])
    dfListNBytes := fset st.dfListNBytes key (st.dfListNBytes key + c.mem df) } key := by
    obtain ⟨g, hg, hf, hrows, hb, hex, hexg⟩ := h.data
    refine ⟨h.app, h.attrs, g, hg, ?_, hrows, hb, hex, hexg⟩
    simp [fset, ← hf]
  dsimp only
  split
  · have := flush_inv c s0 _ _ key h1
    exact ⟨this.1, this.2.1⟩
  · exact ⟨rfl, h1⟩

theorem append_other (c : WCfg ρ) (st : WState ρ ν) (key k : String) (df : List ρ) (hk : k ≠ key) :
    SameKey st (append c st df key).1 k := by
  unfold append
  dsimp only
  split
  · have := flush_other c { st with
      keys := addKey st.keys key
      dfList := fset st.dfList key (st.dfList key ++ [df])
      dfListNBytes := fset st.dfListNBytes key (st.dfListNBytes key + c.mem df) } key k hk
    refine ⟨this.1, this.2.1.trans ?_, this.2.2⟩
    simp [fset, hk]
  · exact ⟨rfl, by simp [fset, hk], rfl⟩

theorem append_keep (c : WCfg ρ) (st : WState ρ ν) (key : String) (df : List ρ) :
    (append c st df key).1.keys = addKey st.keys key ∧ (append c st df key).1.metadata = st.metadata := by
  unfold append
  dsimp only
  split
  · exact flush_keep _ _ _
  · exact ⟨rfl, rfl⟩

/-- whether a call touches `key` by replacing it -/
def OpWrites (op : Op ρ ν) (key : String) : Prop :=
  match op with
  | .write k _ => k = key
  | .addMapping _ _ => key = "mapping"
  | _ => False

def OpAppends (op : Op ρ ν) (key : String) : Prop :=
  match op with
  | .append _ k => k = key
  | _ => False

theorem step_untouched (c : WCfg ρ) (st : WState ρ ν) (op : Op ρ ν) (k : String) (hw : ¬ OpWrites op k)
    (ha : ¬ OpAppends op k) : SameKey st (step c st op).1 k := by
  cases op with
  | append df key => exact append_other c st key k df (fun h => ha (by simp [OpAppends, h]))
  | write key df =>
    have : key ≠ k := fun h => hw (by simp [OpWrites, h])
    refine ⟨?_, rfl, ?_⟩
    · simp [step, write, put_get, this]
    · simp [step, write, fset, Ne.symm this]
  | addMapping m md =>
    have : "mapping" ≠ k := fun h => hw (by simp [OpWrites, h])
    refine ⟨?_, rfl, rfl⟩
    simp [step, addMapping, put_get, setAttr_get, this]
  | addMetadata key name kv =>
    unfold step addMetadata
    dsimp only
    split <;> exact ⟨rfl, rfl, rfl⟩

theorem framesAppended_snoc (ops : List (Op ρ ν)) (op : Op ρ ν) (key : String) :
    framesAppended (ops ++ [op]) key
      = framesAppended ops key ++ (match op with
        | .append df k => if k = key then [df] else []
        | _ => []) := by
  unfold framesAppended
  rw [List.filterMap_append]
  congr 1
  cases op with
  | append df k => by_cases h : k = key <;> simp [h]
  | _ => rfl

theorem run_snoc (c : WCfg ρ) (st : WState ρ ν) (ops : List (Op ρ ν)) (op : Op ρ ν) :
    run c st (ops ++ [op]) = (step c (run c st ops) op).1 := by
  simp [run, List.foldl_append]

theorem isWritten_snoc (ops : List (Op ρ ν)) (op : Op ρ ν) (key : String) :
    IsWritten (ops ++ [op]) key ↔ IsWritten ops key ∨ OpWrites op key := by
  unfold IsWritten OpWrites
  cases op <;> simp
  all_goals grind

theorem isAppended_snoc (ops : List (Op ρ ν)) (op : Op ρ ν) (key : String) :
    IsAppended (ops ++ [op]) key ↔ IsAppended ops key ∨ OpAppends op key := by
  unfold IsAppended OpAppends
  cases op <;> simp
  all_goals grind

/-- **main invariant** for keys that are only appended to -/
theorem run_inv (c : WCfg ρ) (s0 : Store ρ ν) (key : String) (h0 : Appendable s0 key) (ops : List (Op ρ ν))
    (hw : ¬ IsWritten ops key) : KeyInv c s0 (framesAppended ops key) (run c (WState.init s0) ops) key := by
  induction ops using List.reverseRecOn with
  | nil => exact KeyInv.init c s0 key h0
  | append_singleton ops op ih =>
    rw [isWritten_snoc] at hw
    push Not at hw
    have ih := ih hw.1
    rw [run_snoc, framesAppended_snoc]
    by_cases ha : OpAppends op key
    · cases op with
      | append df k =>
        have : k = key := ha
        subst this
        simp only [if_true]
        exact (append_inv c s0 _ _ k df ih).2
      | _ => exact absurd ha (by simp [OpAppends])
    · have : (match op with
        | .append df k => if k = key then [df] else []
        | _ => ([] : List (List ρ))) = [] := by
        cases op with
        | append df k =>
          have : ¬ k = key := fun h => ha h
          simp [this]
        | _ => rfl
      rw [this, List.append_nil]
      exact ih.congr (step_untouched c _ op key hw.2 ha)

/-- in such a history every call on such a key succeeds -/
theorem append_call_ok (c : WCfg ρ) (s0 : Store ρ ν) (key : String) (h0 : Appendable s0 key) (ops : List (Op ρ ν))
    (hw : ¬ IsWritten ops key) (df : List ρ) :
    (step c (run c (WState.init s0) ops) (.append df key)).2 = none :=
  (append_inv c s0 _ _ key df (run_inv c s0 key h0 ops hw)).1

/-- keys that are never appended to have an empty buffer -/
theorem run_dfList_nil (c : WCfg ρ) (s0 : Store ρ ν) (key : String) (ops : List (Op ρ ν))
    (ha : ¬ IsAppended ops key) : (run c (WState.init s0) ops).dfList key = [] := by
  induction ops using List.reverseRecOn with
  | nil => rfl
  | append_singleton ops op ih =>
    rw [isAppended_snoc] at ha
    push Not at ha
    rw [run_snoc]
    cases op with
    | append df k => exact ((append_other c _ k key df (fun h => ha.2 (by simp [OpAppends, h]))).2.1).trans (ih ha.1)
    | write k df => exact ih ha.1
    | addMapping m md => exact ih ha.1
    | addMetadata k n kv =>
      unfold step addMetadata; dsimp only; split <;> exact ih ha.1

def opWrite (op : Op ρ ν) (key : String) (acc : Option (List ρ)) : Option (List ρ) :=
  match op with
  | .write k df => if k = key then some df else acc
  | _ => acc

theorem lastWrite_snoc (ops : List (Op ρ ν)) (op : Op ρ ν) (key : String) :
    lastWrite (ops ++ [op]) key = opWrite op key (lastWrite ops key) := by
  unfold lastWrite; rw [List.foldl_append]; rfl

theorem opWrite_none (op : Op ρ ν) (key : String) (acc : Option (List ρ)) (h : ¬ OpWrites op key) :
    opWrite op key acc = acc := by
  cases op with
  | write k df =>
    have : ¬ k = key := h
    simp [opWrite, this]
  | _ => rfl

/-- the node and byte count left by `write` for a key never appended to -/
theorem run_written (c : WCfg ρ) (s0 : Store ρ ν) (key : String) (ops : List (Op ρ ν))
    (ha : ¬ IsAppended ops key) (hm : key = "mapping" → ¬ ∃ m md, Op.addMapping m md ∈ ops) :
    (match lastWrite ops key with
      | none => Dict.get? (run c (WState.init s0) ops).store key = Dict.get? s0 key
          ∧ (run c (WState.init s0) ops).nBytes key = 0
      | some df => Dict.get? (run c (WState.init s0) ops).store key = some { fmt := .fixed, rows := df, attrs := [] }
          ∧ (run c (WState.init s0) ops).nBytes key = c.mem df) := by
  induction ops using List.reverseRecOn with
  | nil => exact ⟨rfl, rfl⟩
  | append_singleton ops op ih =>
    rw [isAppended_snoc] at ha
    push Not at ha
    have ih := ih ha.1 (fun h ⟨m, md, hmd⟩ => hm h ⟨m, md, by simp [hmd]⟩)
    rw [run_snoc]
    rw [lastWrite_snoc]
    by_cases hw : OpWrites op key
    · cases op with
      | write k df =>
        have : k = key := hw
        subst this
        simp [step, write, put_get, fset, opWrite]
      | addMapping m md =>
        have : key = "mapping" := hw
        exact absurd ⟨m, md, by simp⟩ (hm this)
      | append df k => exact absurd hw (by simp [OpWrites])
      | addMetadata k n kv => exact absurd hw (by simp [OpWrites])
    · have hs := step_untouched c (run c (WState.init s0) ops) op key hw ha.2
      rw [opWrite_none op key _ hw]
      revert ih
      cases lastWrite ops key with
      | none => intro ih; exact ⟨hs.1.trans ih.1, hs.2.2.trans ih.2⟩
      | some df => intro ih; exact ⟨hs.1.trans ih.1, hs.2.2.trans ih.2⟩

theorem mem_addKey (ks : List String) (k x : String) : x ∈ addKey ks k ↔ x ∈ ks ∨ x = k := by
  unfold addKey; split <;> grind

theorem nodup_addKey (ks : List String) (k : String) (h : ks.Nodup) : (addKey ks k).Nodup := by
  unfold addKey; split
  · exact h
  · rw [List.nodup_append]; exact ⟨h, by simp, by grind⟩

theorem run_keys (c : WCfg ρ) (s0 : Store ρ ν) (ops : List (Op ρ ν)) :
    (run c (WState.init s0) ops).keys.Nodup ∧
    (∀ k, k ∈ (run c (WState.init s0) ops).keys ↔ IsData ops k) ∧
    ((Dict.keys s0).Nodup → (Dict.keys (run c (WState.init s0) ops).store).Nodup) := by
  induction ops using List.reverseRecOn with
  | nil => simp [run, WState.init, IsData, IsAppended]
  | append_singleton ops op ih =>
    obtain ⟨i1, i2, i3⟩ := ih
    rw [run_snoc]
    have hd : ∀ k, IsData (ops ++ [op]) k ↔ (IsData ops k ∨ (match op with
        | .append _ k' => k = k'
        | .write k' _ => k = k'
        | _ => False)) := by
      intro k
      unfold IsData IsAppended
      cases op <;> simp <;> grind
    cases op with
    | append df k =>
      refine ⟨?_, ?_, ?_⟩
      · rw [show (step c (run c (WState.init s0) ops) (.append df k)).1.keys = _ from (append_keep c _ k df).1]
        exact nodup_addKey _ _ i1
      · intro x
        rw [show (step c (run c (WState.init s0) ops) (.append df k)).1.keys = _ from (append_keep c _ k df).1,
          mem_addKey, i2, hd]
      · intro h
        have := i3 h
        unfold step append; dsimp only; split
        · exact flush_nodup _ _ _ this
        · exact this
    | write k df =>
      refine ⟨nodup_addKey _ _ i1, ?_, fun h => Dict.nodup_keys_set _ _ _ (i3 h)⟩
      intro x
      rw [show (step c (run c (WState.init s0) ops) (.write k df)).1.keys = addKey (run c (WState.init s0) ops).keys k from rfl,
        mem_addKey, i2, hd]
    | addMapping m md =>
      refine ⟨i1, ?_, fun h => keys_nodup_setAttr _ _ _ _ (Dict.nodup_keys_set _ _ _ (i3 h))⟩
      intro x; rw [hd]; simp only [or_false]; exact i2 x
    | addMetadata k n kv =>
      have : (step c (run c (WState.init s0) ops) (.addMetadata k n kv)).1.keys = (run c (WState.init s0) ops).keys ∧
        (step c (run c (WState.init s0) ops) (.addMetadata k n kv)).1.store = (run c (WState.init s0) ops).store := by
        unfold step addMetadata; dsimp only; split <;> exact ⟨rfl, rfl⟩
      rw [this.1, this.2]
      refine ⟨i1, ?_, i3⟩
      intro x; rw [hd]; simp only [or_false]; exact i2 x

theorem run_metadata (c : WCfg ρ) (s0 : Store ρ ν) (ops : List (Op ρ ν)) :
    MetaWF (run c (WState.init s0) ops).metadata ∧
    (∀ key name field, metaField (run c (WState.init s0) ops).metadata key name field = lastField ops key name field) ∧
    (∀ key name, (metaDict (run c (WState.init s0) ops).metadata key name).isSome ↔
      (name ≠ "info" ∧ name ≠ "mapping" ∧ ∃ kv, Op.addMetadata key name kv ∈ ops)) ∧
    (∀ key, key ∈ Dict.keys (run c (WState.init s0) ops).metadata ↔
      ∃ name kv, name ≠ "info" ∧ name ≠ "mapping" ∧ Op.addMetadata key name kv ∈ ops) := by
  induction ops using List.reverseRecOn with
  | nil => simp [run, WState.init, MetaWF, metaField, metaDict, lastField, Dict.keys]
  | append_singleton ops op ih =>
    rw [run_snoc]
    have hlf : ∀ key name field, lastField (ops ++ [op]) key name field = (match op with
        | .addMetadata k n kv =>
          if k = key ∧ n = name ∧ n ≠ "info" ∧ n ≠ "mapping" then (Dict.get? kv.reverse field).or (lastField ops key name field)
          else lastField ops key name field
        | _ => lastField ops key name field) := by
      intro key name field; unfold lastField; rw [List.foldl_append]; rfl
    by_cases hop : ∃ k n kv, op = .addMetadata k n kv
    · obtain ⟨k, n, kv, rfl⟩ := hop
      obtain ⟨i1, i2, i3, i4⟩ := ih
      by_cases hr : n = "info" ∨ n = "mapping"
      · have : (step c (run c (WState.init s0) ops) (.addMetadata k n kv)).1 = run c (WState.init s0) ops := by
          unfold step addMetadata; dsimp only; rw [if_pos hr]
        rw [this]
        refine ⟨i1, ?_, ?_, ?_⟩
        · intro key name field
          rw [i2, hlf]
          dsimp only
          rw [if_neg (by grind)]
        · intro key name; rw [i3]; simp; grind
        · intro key; rw [i4]
          constructor
          · rintro ⟨nm, kv', h1, h2, h3⟩; exact ⟨nm, kv', h1, h2, by simp [h3]⟩
          · rintro ⟨nm, kv', h1, h2, h3⟩
            refine ⟨nm, kv', h1, h2, ?_⟩
            rcases List.mem_append.mp h3 with h3 | h3
            · exact h3
            · simp only [List.mem_singleton, Op.addMetadata.injEq] at h3; grind
      · have : (step c (run c (WState.init s0) ops) (.addMetadata k n kv)).1.metadata
            = metaUpdate (run c (WState.init s0) ops).metadata k n kv := by
          unfold step addMetadata; dsimp only; rw [if_neg hr]
        rw [this]
        refine ⟨metaUpdate_wf _ _ _ _ i1, ?_, ?_, ?_⟩
        · intro key name field
          rw [metaField_update, i2, hlf]
          dsimp only
          by_cases h : k = key ∧ n = name
          · rw [if_pos h, if_pos ⟨h.1, h.2, by grind, by grind⟩]
          · rw [if_neg h, if_neg (by grind)]
        · intro key name
          rw [metaDict_update]
          by_cases h : k = key ∧ n = name
          · rw [if_pos h]
            obtain ⟨rfl, rfl⟩ := h
            simp
            grind
          · rw [if_neg h, i3]; simp; grind
        · intro key
          unfold metaUpdate
          rw [Dict.mem_keys_set, i4, or_comm]
          constructor
          · rintro (⟨nm, kv', h1, h2, h3⟩ | rfl)
            · exact ⟨nm, kv', h1, h2, by simp [h3]⟩
            · exact ⟨n, kv, by grind, by grind, by simp⟩
          · rintro ⟨nm, kv', h1, h2, h3⟩
            rcases List.mem_append.mp h3 with h3 | h3
            · exact Or.inl ⟨nm, kv', h1, h2, h3⟩
            · simp only [List.mem_singleton, Op.addMetadata.injEq] at h3; grind
    · have hm : (step c (run c (WState.init s0) ops) op).1.metadata = (run c (WState.init s0) ops).metadata := by
        cases op with
        | append df k => exact (append_keep c _ k df).2
        | write k df => rfl
        | addMapping m md => rfl
        | addMetadata k n kv => exact absurd ⟨k, n, kv, rfl⟩ hop
      rw [hm]
      have hmem : ∀ k n kv, Op.addMetadata k n kv ∈ ops ++ [op] ↔ Op.addMetadata k n kv ∈ ops := by
        intro k n kv
        simp only [List.mem_append, List.mem_singleton, or_iff_left_iff_imp]
        intro h; exact absurd ⟨k, n, kv, h.symm⟩ hop
      simp only [hmem]
      refine ⟨ih.1, ?_, ih.2.2⟩
      intro key name field
      rw [ih.2.1, hlf]
      cases op with
      | addMetadata k n kv => exact absurd ⟨k, n, kv, rfl⟩ hop
      | _ => rfl

/-! ### closing -/

/-- the buffer of `key` can be flushed -/
def FlushOK (st : WState ρ ν) (key : String) : Prop := st.dfList key = [] ∨ Appendable st.store key

theorem flush_ok (c : WCfg ρ) (st : WState ρ ν) (key : String) (h : FlushOK st key) : (flush c st key).2 = none := by
  unfold flush
  rcases h with h | h
  · simp [h]
  · split
    · rfl
    · obtain ⟨s', hs', -⟩ := append_spec st.store key (c.prep (st.dfList key).flatten) h
      simp [hs']

theorem storeAppend_congr (s s2 : Store ρ ν) (key : String) (df : List ρ) (h : Dict.get? s2 key = Dict.get? s key) :
    (Store.append s2 key df).map (fun x => Dict.get? x key) = (Store.append s key df).map (fun x => Dict.get? x key) := by
  unfold Store.append
  rw [h]
  split
  · simp [Except.map, h]
  · split
    · simp [Except.map]
    · split <;> simp [Except.map]

theorem flush_congr (c : WCfg ρ) (st st2 : WState ρ ν) (key : String) (h : SameKey st st2 key) :
    SameKey (flush c st key).1 (flush c st2 key).1 key := by
  obtain ⟨h1, h2, h3⟩ := h
  have hc := storeAppend_congr st.store st2.store key (c.prep (st.dfList key).flatten) h1
  unfold flush
  rw [h2]
  split
  · exact ⟨h1, h2, h3⟩
  · dsimp only
    cases ha : Store.append st.store key (c.prep (st.dfList key).flatten) with
    | error e =>
      cases hb : Store.append st2.store key (c.prep (st.dfList key).flatten) with
      | error e' => exact ⟨h1, h2, h3⟩
      | ok s2 => rw [ha, hb] at hc; simp [Except.map] at hc
    | ok s1 =>
      cases hb : Store.append st2.store key (c.prep (st.dfList key).flatten) with
      | error e' => rw [ha, hb] at hc; simp [Except.map] at hc
      | ok s2 =>
        rw [ha, hb] at hc; simp [Except.map] at hc
        exact ⟨hc, by simp [fset], by simp [fset, h3]⟩

/-- bytes recorded for `key` once its buffer is flushed -/
def finalBytes (c : WCfg ρ) (st : WState ρ ν) (key : String) : Nat := (flush c st key).1.nBytes key

theorem finalBytes_congr (c : WCfg ρ) (st st2 : WState ρ ν) (key : String) (h : SameKey st st2 key) :
    finalBytes c st2 key = finalBytes c st key := (flush_congr c st st2 key h).2.2

theorem flush_error_congr (c : WCfg ρ) (st st2 : WState ρ ν) (key : String) (h : SameKey st st2 key) :
    (flush c st2 key).2 = (flush c st key).2 := by
  obtain ⟨h1, h2, -⟩ := h
  unfold flush Store.append
  rw [h1, h2]
  split
  · rfl
  · dsimp only
    cases hdf : (c.prep (st.dfList key).flatten).isEmpty with
    | true => simp
    | false =>
      cases Dict.get? st.store key with
      | none => simp
      | some nd => cases hf : nd.fmt <;> simp [hf]

theorem SameKey.trans {a b d : WState ρ ν} {k : String} (h : SameKey a b k) (h' : SameKey b d k) : SameKey a d k :=
  ⟨h'.1.trans h.1, h'.2.1.trans h.2.1, h'.2.2.trans h.2.2⟩

/-- the state after flushing `key` and recording its size -/
def flushRecord (c : WCfg ρ) (st : WState ρ ν) (key : String) : WState ρ ν :=
  (addMetadata (flush c st key).1 key "metadata" [("n_bytes", .int ((flush c st key).1.nBytes key))]).1

theorem flushRecord_meta (c : WCfg ρ) (st : WState ρ ν) (key : String) :
    (flushRecord c st key).metadata
      = metaUpdate st.metadata key "metadata" [("n_bytes", .int (finalBytes c st key))] := by
  unfold flushRecord addMetadata finalBytes
  simp [(flush_keep c st key).2]

theorem flushRecord_same (c : WCfg ρ) (st : WState ρ ν) (key k : String) :
    SameKey (flush c st key).1 (flushRecord c st key) k := ⟨rfl, rfl, rfl⟩

structure FinishSpec (c : WCfg ρ) (order : List String) (st st' : WState ρ ν) : Prop where
  inside : ∀ k ∈ order, SameKey (flush c st k).1 st' k
  outside : ∀ k, k ∉ order → SameKey st st' k
  wf : MetaWF st'.metadata
  field : ∀ key name f, metaField st'.metadata key name f
    = if key ∈ order ∧ name = "metadata" ∧ f = "n_bytes" then some (.int (finalBytes c st key))
      else metaField st.metadata key name f
  dict : ∀ key name, (metaDict st'.metadata key name).isSome
    = ((metaDict st.metadata key name).isSome || decide (key ∈ order ∧ name = "metadata"))
  keys : ∀ key, key ∈ Dict.keys st'.metadata ↔ key ∈ order ∨ key ∈ Dict.keys st.metadata
  nodup : (Dict.keys st.store).Nodup → (Dict.keys st'.store).Nodup

theorem finishLoop_spec (c : WCfg ρ) (order : List String) (st : WState ρ ν) (total : Int)
    (hn : order.Nodup) (hf : ∀ k ∈ order, (flush c st k).2 = none) (hm : MetaWF st.metadata) :
    ∃ st', finishLoop c order st total = .ok (st', total + (order.map fun k => (finalBytes c st k : Int)).sum) ∧
      FinishSpec c order st st' := by
  induction order generalizing st total with
  | nil =>
    refine ⟨st, by simp [finishLoop], ?_⟩
    exact ⟨by simp, fun k _ => ⟨rfl, rfl, rfl⟩, hm, by simp, by simp, by simp, id⟩
  | cons key order ih =>
    have hn' := List.nodup_cons.mp hn
    have hok := hf key (by simp)
    have hother : ∀ k, k ≠ key → SameKey st (flushRecord c st key) k := fun k hk =>
      (flush_other c st key k hk).trans (flushRecord_same c st key k)
    have hne : ∀ k ∈ order, k ≠ key := fun k hk h => hn'.1 (h ▸ hk)
    obtain ⟨st', h1, h2⟩ := ih (flushRecord c st key) (total + (finalBytes c st key : Int)) hn'.2
      (fun k hk => (flush_error_congr c st _ k (hother k (hne k hk))).trans (hf k (by simp [hk])))
      (by rw [flushRecord_meta]; exact metaUpdate_wf _ _ _ _ hm)
    have hsum : (order.map fun k => (finalBytes c (flushRecord c st key) k : Int))
        = order.map fun k => (finalBytes c st k : Int) := by
      apply List.map_congr_left
      intro k hk
      rw [finalBytes_congr c st _ k (hother k (hne k hk))]
    refine ⟨st', ?_, ?_⟩
    · unfold finishLoop
      have : flush c st key = ((flush c st key).1, none) := by rw [← hok]
      rw [this]
      dsimp only
      change finishLoop c order (flushRecord c st key) (total + (finalBytes c st key : Int)) = _
      rw [h1, hsum]
      simp [Int.add_assoc]
    · refine ⟨?_, ?_, h2.wf, ?_, ?_, ?_, ?_⟩
      · intro k hk
        rcases List.mem_cons.mp hk with rfl | hk
        · exact (flushRecord_same c st k k).trans (h2.outside k hn'.1)
        · exact (flush_congr c st _ k (hother k (hne k hk))).trans (h2.inside k hk)
      · intro k hk
        simp only [List.mem_cons, not_or] at hk
        exact (hother k hk.1).trans (h2.outside k hk.2)
      · intro k name f
        rw [h2.field, flushRecord_meta, metaField_update]
        by_cases hk : k ∈ order
        · have := hne k hk
          simp only [hk, true_and, List.mem_cons, or_true, Ne.symm this, false_and, if_false]
          rw [finalBytes_congr c st _ k (hother k this)]
        · by_cases hkk : k = key
          · subst hkk
            simp only [hk, false_and, if_false, List.mem_cons, true_or, true_and]
            by_cases hnm : name = "metadata"
            · subst hnm
              by_cases hff : f = "n_bytes"
              · subst hff; simp [Dict.get?]
              · simp [Dict.get?, hff, Ne.symm hff]
            · simp [hnm, Ne.symm hnm]
          · simp [hk, hkk, Ne.symm hkk]
      · intro k name
        rw [h2.dict, flushRecord_meta, metaDict_update]
        by_cases hkk : key = k
        · subst hkk
          by_cases hnm : "metadata" = name
          · subst hnm; simp
          · simp [hnm, Ne.symm hnm]
        · simp [hkk, Ne.symm hkk]
      · intro k
        rw [h2.keys, flushRecord_meta]
        unfold metaUpdate
        rw [Dict.mem_keys_set]
        simp only [List.mem_cons]
        grind
      · intro h; exact h2.nodup (flush_nodup c st key h)

/-- if the loop over the tables succeeds, every buffer was flushed -/
theorem finishLoop_flushes (c : WCfg ρ) (order : List String) (st st' : WState ρ ν) (total t : Int) (hn : order.Nodup)
    (h : finishLoop c order st total = .ok (st', t)) : ∀ k ∈ order, (flush c st k).2 = none := by
  induction order generalizing st total with
  | nil => simp
  | cons key order ih =>
    have hn' := List.nodup_cons.mp hn
    unfold finishLoop at h
    cases hf : flush c st key with
    | mk s1 e =>
      rw [hf] at h
      cases e with
      | some e => cases h
      | none =>
        have hs : (addMetadata s1 key "metadata" [("n_bytes", .int (s1.nBytes key))]).1 = flushRecord c st key := by
          unfold flushRecord; rw [hf]
        simp only [hs] at h
        intro k hk
        rcases List.mem_cons.mp hk with rfl | hk
        · rw [hf]
        · have hne : k ≠ key := fun e => hn'.1 (e ▸ hk)
          rw [← ih (flushRecord c st key) _ hn'.2 h k hk]
          exact (flush_error_congr c st _ k ((flush_other c st key k hne).trans (flushRecord_same c st key k))).symm

/-- `finish` of the writer succeeds and what it leaves, when all buffers can be flushed -/
theorem finish_spec (c : WCfg ρ) (order : List String) (st : WState ρ ν)
    (hn : order.Nodup) (hf : ∀ k ∈ order, (flush c st k).2 = none) (hm : MetaWF st.metadata) (hs : (Dict.keys st.store).Nodup) :
    ∃ s, finish c st order = .ok s ∧ (Dict.keys s).Nodup ∧
      (∀ k, fileRows s k = fileRows (if k ∈ order then (flush c st k).1.store else st.store) k) ∧
      (∀ k, (Dict.get? s k).isSome = ((Dict.get? (if k ∈ order then (flush c st k).1.store else st.store) k).isSome
        || decide (k ∈ order ∨ k = "data" ∨ k ∈ Dict.keys st.metadata))) ∧
      (∀ k, (Dict.get? s k).map Node.fmt
        = ((Dict.get? (if k ∈ order then (flush c st k).1.store else st.store) k).map Node.fmt).or
          (if k ∈ order ∨ k = "data" ∨ k ∈ Dict.keys st.metadata then some .fixed else none)) ∧
      (∀ k name, (fileAttr s k name).isSome =
        ((metaDict st.metadata k name).isSome || decide (name = "metadata" ∧ (k ∈ order ∨ k = "data"))
          || (fileAttr (if k ∈ order then (flush c st k).1.store else st.store) k name).isSome)) ∧
      (∀ k name f, ((metaDict st.metadata k name).isSome = true ∨ (name = "metadata" ∧ (k ∈ order ∨ k = "data"))) →
        fileField s k name f =
          if k = "data" ∧ name = "metadata" ∧ f = "total_bytes" then
            some (.int ((order.map fun k => (finalBytes c st k : Int)).sum))
          else if k = "data" ∧ name = "metadata" ∧ f = "version" then some (.str "3.1.0")
          else if k ∈ order ∧ name = "metadata" ∧ f = "n_bytes" then some (.int (finalBytes c st k))
          else metaField st.metadata k name f) := by
  obtain ⟨st', h1, h2⟩ := finishLoop_spec c order st 0 hn hf hm
  simp only [Int.zero_add] at h1
  have hget : ∀ k, Dict.get? st'.store k = Dict.get? (if k ∈ order then (flush c st k).1.store else st.store) k := by
    intro k
    by_cases hk : k ∈ order
    · rw [if_pos hk]; exact (h2.inside k hk).1
    · rw [if_neg hk]; exact (h2.outside k hk).1
  generalize hT : (order.map fun k => (finalBytes c st k : Int)).sum = T at *
  have hfin : finish c st order = .ok (saveMetadata st'.store
      (metaUpdate st'.metadata "data" "metadata" [("total_bytes", .int T), ("version", .str version)])) := by
    unfold finish
    rw [h1]
    simp [addMetadata, bind, Except.bind, pure, Except.pure]
  obtain ⟨g1, g2, g3, g4, g5⟩ := saveMetadata_spec
    (metaUpdate st'.metadata "data" "metadata" [("total_bytes", .int T), ("version", .str version)])
    (metaUpdate_wf _ _ _ _ h2.wf) st'.store
  refine ⟨_, hfin, g4 (h2.nodup hs), ?_, ?_, ?_, ?_, ?_⟩
  · intro k; rw [g2 k]; unfold fileRows; rw [hget]
  · intro k
    rw [g1 k, hget]
    congr 1
    unfold metaUpdate
    rw [Bool.eq_iff_iff]
    simp only [decide_eq_true_eq, Dict.mem_keys_set, h2.keys]
    grind
  · intro k
    rw [g3 k, hget]
    congr 1
    have : (k ∈ Dict.keys (metaUpdate st'.metadata "data" "metadata"
        [("total_bytes", .int T), ("version", .str version)])) ↔ (k ∈ order ∨ k = "data" ∨ k ∈ Dict.keys st.metadata) := by
      unfold metaUpdate
      simp only [Dict.mem_keys_set, h2.keys]
      grind
    simp only [this]
  · intro k name
    rw [g5 k name, Option.isSome_or, metaDict_update]
    have : (fileAttr st'.store k name) = fileAttr (if k ∈ order then (flush c st k).1.store else st.store) k name := by
      unfold fileAttr; rw [hget]
    rw [this]
    congr 1
    by_cases h : "data" = k ∧ "metadata" = name
    · rw [if_pos h]; obtain ⟨rfl, rfl⟩ := h; simp
    · rw [if_neg h, h2.dict]
      congr 1
      rw [Bool.eq_iff_iff]
      simp only [decide_eq_true_eq]
      grind
  · intro k name f hdict
    have hmd : (metaDict (metaUpdate st'.metadata "data" "metadata"
        [("total_bytes", .int T), ("version", .str version)]) k name).isSome := by
      rw [metaDict_update]
      split
      · rfl
      · rename_i h
        rw [h2.dict]
        rcases hdict with hd | hd
        · rw [hd]; rfl
        · have : k ∈ order := by grind
          simp [this, hd.1]
    have : fileField (saveMetadata st'.store (metaUpdate st'.metadata "data" "metadata"
        [("total_bytes", .int T), ("version", .str version)])) k name f
        = metaField (metaUpdate st'.metadata "data" "metadata"
        [("total_bytes", .int T), ("version", .str version)]) k name f := by
      unfold fileField metaField
      rw [g5 k name]
      obtain ⟨d, hd⟩ := Option.isSome_iff_exists.mp hmd
      rw [hd]; rfl
    rw [this, metaField_update, h2.field]
    by_cases h : "data" = k ∧ "metadata" = name
    · obtain ⟨rfl, rfl⟩ := h
      by_cases hf1 : f = "total_bytes"
      · subst hf1; simp [Dict.get?]
      · by_cases hf2 : f = "version"
        · subst hf2; simp [Dict.get?, version]
        · simp [Dict.get?, hf1, hf2, Ne.symm hf1, Ne.symm hf2]
    · rw [if_neg h]
      have e1 : ¬ (k = "data" ∧ name = "metadata" ∧ f = "total_bytes") := fun hh => h ⟨hh.1.symm, hh.2.1.symm⟩
      have e2 : ¬ (k = "data" ∧ name = "metadata" ∧ f = "version") := fun hh => h ⟨hh.1.symm, hh.2.1.symm⟩
      simp only [e1, e2, if_false]

end Verif.Lemmas
