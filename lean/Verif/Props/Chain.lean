import Verif.Lemmas.Chain

/-!
# Properties of the reducer chain: C11 to C14
-/

namespace Verif.Props

open Verif.Py Verif.Model Verif.Spec Verif.Lemmas

variable {V σ ω β : Type}

/-! ## C11 -/

/-- With a configuration file: keyword arguments, then the file; the built-in column defaults do not count. -/
theorem C11_with_file (dc file kwargs : Config V) (load : String → Yaml V) (p : String) (hp : p ≠ "")
    (hl : load p = .map file) (hf : (Dict.keys file).Nodup) (hk : (Dict.keys kwargs).Nodup) :
    ∃ config, chainConfig dc load (some p) kwargs = .ok config ∧
      ∀ key, Dict.get? config key = match Dict.get? kwargs key with
        | some v => some v
        | none => Dict.get? file key := by
  refine ⟨Dict.update (Dict.update (Dict.update [] []) file) kwargs, by simp [chainConfig, hp, hl], fun key => ?_⟩
  rw [Dict.get?_update _ _ _ hk, Dict.get?_update _ _ _ hf]
  cases Dict.get? kwargs key <;> simp

/-- An empty configuration file is a configuration file: the built-in defaults are not applied, only the keywords count. -/
theorem C11_empty_file (dc kwargs : Config V) (load : String → Yaml V) (p : String) (hp : p ≠ "")
    (hl : load p = .null) (hk : (Dict.keys kwargs).Nodup) :
    ∃ config, chainConfig dc load (some p) kwargs = .ok config ∧
      ∀ key, Dict.get? config key = Dict.get? kwargs key := by
  refine ⟨Dict.update (Dict.update (Dict.update [] []) []) kwargs, by simp [chainConfig, hp, hl], fun key => ?_⟩
  rw [Dict.get?_update _ _ _ hk]
  simp

/-- A file that is not a mapping is rejected. -/
theorem C11_not_a_mapping (dc kwargs : Config V) (load : String → Yaml V) (p : String) (hp : p ≠ "")
    (hl : load p = .other) : chainConfig dc load (some p) kwargs = .error .typeError := by
  simp [chainConfig, hp, hl]

/-- Without a file (no path, or an empty one): keyword arguments, then the built-in column defaults. -/
theorem C11_without_file (dc kwargs : Config V) (load : String → Yaml V) (path : Option String)
    (hp : path = none ∨ path = some "") (hd : (Dict.keys dc).Nodup) (hk : (Dict.keys kwargs).Nodup) :
    ∃ config, chainConfig dc load path kwargs = .ok config ∧
      ∀ key, Dict.get? config key = match Dict.get? kwargs key with
        | some v => some v
        | none => Dict.get? dc key := by
  refine ⟨Dict.update (Dict.update (Dict.update [] []) dc) kwargs, ?_, fun key => ?_⟩
  · rcases hp with rfl | rfl <;> simp [chainConfig]
  · rw [Dict.get?_update _ _ _ hk, Dict.get?_update _ _ _ hd]
    cases Dict.get? kwargs key <;> simp

/-! ## C12 -/

/-- The dictionary produced for every event has as keys exactly the columns of discovered reducers whose effective
configuration value is truthy.  (`_disable_by_default` is the chain's own switch and cannot be a column.) -/
theorem C12_keys (truthy : V → Bool) (reducers : List (ReducerClass V σ ω β)) (config : Config V)
    (hcfg : (Dict.keys config).Nodup) (chain fin : List (Reducer V σ ω β)) (ws : List ω) (outs : List (Dict String β))
    (hb : buildChain truthy reducers config = .ok chain) (hrun : chainEvents chain ws = .ok (fin, outs)) :
    outs.length = ws.length ∧ ∀ d ∈ outs, ∀ c, c ∈ Dict.keys d ↔
      (∃ r ∈ reducers, c ∈ r.columns) ∧ Enabled truthy config c ∧ c ≠ "_disable_by_default" := by
  unfold buildChain at hb
  split at hb
  · simp at hb
  · obtain ⟨b1, b2⟩ := buildLoop_ok _ _ _ _ hb
    have hs : ∀ r ∈ chain, Sub r := by
      intro r hr c hc
      rw [(b2 r hr).2.1] at hc
      exact ((mem_active _ _ _ _).1 hc).1
    obtain ⟨k1, k2⟩ := chainEvents_keys _ _ _ _ hrun hs
    refine ⟨k1, fun d hd c => ?_⟩
    rw [k2 d hd c]
    have hen : Enabled truthy (Dict.erase config "_disable_by_default") c ↔
        Enabled truthy config c ∧ c ≠ "_disable_by_default" := by
      by_cases hcn : c = "_disable_by_default"
      · subst hcn
        simp [Enabled, keys_mem_erase _ _ hcfg]
      · simp [Enabled, get?_erase_ne _ _ _ (Ne.symm hcn), hcn]
    constructor
    · rintro ⟨r, hr, hc⟩
      rw [(b2 r hr).2.1, mem_active, hen] at hc
      have hm : r.cls ∈ chain.map Reducer.cls := List.mem_map_of_mem hr
      rw [b1] at hm
      exact ⟨⟨r.cls, (List.mem_filter.1 hm).1, hc.1⟩, hc.2⟩
    · rintro ⟨⟨cl, hcl, hc⟩, he⟩
      have hact := (mem_active truthy cl.columns _ c).2 ⟨hc, hen.2 he⟩
      have hm : cl ∈ chain.map Reducer.cls := by
        rw [b1]
        exact List.mem_filter.2 ⟨hcl, by simpa using List.length_pos_of_mem hact⟩
      obtain ⟨r, hr, rfl⟩ := List.mem_map.1 hm
      exact ⟨r, hr, by rw [(b2 r hr).2.1]; exact hact⟩

/-- C11 at the level of the output: with a configuration file, a column is in the output of every event exactly when it
is a column of a discovered reducer and its keyword argument is truthy, or there is no keyword and the file entry is
truthy; the built-in column table does not matter. -/
theorem C11_columns_with_file (truthy : V → Bool) (reducers : List (ReducerClass V σ ω β)) (dc file kwargs : Config V)
    (load : String → Yaml V) (p : String) (hp : p ≠ "") (hl : load p = .map file) (hf : (Dict.keys file).Nodup)
    (hk : (Dict.keys kwargs).Nodup) (chain fin : List (Reducer V σ ω β)) (ws : List ω) (outs : List (Dict String β))
    (hb : newChain truthy reducers dc load (some p) kwargs = .ok chain) (hrun : chainEvents chain ws = .ok (fin, outs))
    (d : Dict String β) (hd : d ∈ outs) (c : String) (hcn : c ≠ "_disable_by_default") :
    c ∈ Dict.keys d ↔ (∃ r ∈ reducers, c ∈ r.columns) ∧
      (Enabled truthy kwargs c ∨ (c ∉ Dict.keys kwargs ∧ Enabled truthy file c)) := by
  obtain ⟨config, h1, h2⟩ := C11_with_file dc file kwargs load p hp hl hf hk
  have hn : (Dict.keys config).Nodup := by
    simp [chainConfig, hp, hl] at h1
    rw [← h1]
    exact Dict.nodup_keys_update _ _ (Dict.nodup_keys_update _ _ (by simp [Dict.keys]))
  unfold newChain at hb
  rw [h1] at hb
  rw [(C12_keys truthy reducers config hn chain fin ws outs hb hrun).2 d hd c]
  have : Enabled truthy config c ↔ (Enabled truthy kwargs c ∨ (c ∉ Dict.keys kwargs ∧ Enabled truthy file c)) := by
    unfold Enabled
    rw [h2, ← Dict.get?_eq_none_iff]
    cases Dict.get? kwargs c <;> simp
  simp [this, hcn]

/-- Without a file the built-in column table takes the place of the file. -/
theorem C11_columns_without_file (truthy : V → Bool) (reducers : List (ReducerClass V σ ω β)) (dc kwargs : Config V)
    (load : String → Yaml V) (path : Option String) (hp : path = none ∨ path = some "") (hdc : (Dict.keys dc).Nodup)
    (hk : (Dict.keys kwargs).Nodup) (chain fin : List (Reducer V σ ω β)) (ws : List ω) (outs : List (Dict String β))
    (hb : newChain truthy reducers dc load path kwargs = .ok chain) (hrun : chainEvents chain ws = .ok (fin, outs))
    (d : Dict String β) (hd : d ∈ outs) (c : String) (hcn : c ≠ "_disable_by_default") :
    c ∈ Dict.keys d ↔ (∃ r ∈ reducers, c ∈ r.columns) ∧
      (Enabled truthy kwargs c ∨ (c ∉ Dict.keys kwargs ∧ Enabled truthy dc c)) := by
  obtain ⟨config, h1, h2⟩ := C11_without_file dc kwargs load path hp hdc hk
  have hn : (Dict.keys config).Nodup := by
    rcases hp with rfl | rfl <;> simp [chainConfig] at h1 <;> rw [← h1] <;>
      exact Dict.nodup_keys_update _ _ (Dict.nodup_keys_update _ _ (by simp [Dict.keys]))
  unfold newChain at hb
  rw [h1] at hb
  rw [(C12_keys truthy reducers config hn chain fin ws outs hb hrun).2 d hd c]
  have : Enabled truthy config c ↔ (Enabled truthy kwargs c ∨ (c ∉ Dict.keys kwargs ∧ Enabled truthy dc c)) := by
    unfold Enabled
    rw [h2, ← Dict.get?_eq_none_iff]
    cases Dict.get? kwargs c <;> simp
  simp [this, hcn]

/-- Reducers without an enabled column are never constructed or run: they could be absent, or replaced by anything. -/
theorem C12_disabled_reducers_unused (truthy : V → Bool) (reducers : List (ReducerClass V σ ω β)) (config : Config V) :
    buildChain truthy reducers config = buildChain truthy
      (reducers.filter fun r => r.columns.any fun c =>
        match Dict.get? (Dict.erase config "_disable_by_default") c with
        | some v => truthy v
        | none => false) config := by
  unfold buildChain
  split
  · rfl
  · exact buildLoop_filter _ _ _

/-- Every produced value is the one the defining reducer computes on its own, whatever the other reducers do: for each
enabled column, the sequence of values over the events is the sequence obtained by running that reducer alone with the
same configuration and reading only that column. -/
theorem C12_values (truthy : V → Bool) (reducers : List (ReducerClass V σ ω β)) (config : Config V)
    (hdist : DistinctColumns reducers) (chain fin : List (Reducer V σ ω β)) (ws : List ω) (outs : List (Dict String β))
    (hb : buildChain truthy reducers config = .ok chain) (hrun : chainEvents chain ws = .ok (fin, outs))
    (r : ReducerClass V σ ω β) (hr : r ∈ reducers) (c : String) (hc : c ∈ r.columns)
    (hen : Enabled truthy config c) (hcn : c ≠ "_disable_by_default") :
    ∃ (s : σ) (values : List β), r.init (Dict.erase config "_disable_by_default") = .ok s ∧
      soloColumn r (Dict.erase config "_disable_by_default") c s ws = values.map .ok ∧
      outs.map (Dict.get? · c) = values.map some := by
  unfold buildChain at hb
  split at hb
  · simp at hb
  · obtain ⟨b1, b2⟩ := buildLoop_ok _ _ _ _ hb
    have hen' : Enabled truthy (Dict.erase config "_disable_by_default") c := by
      simpa [Enabled, get?_erase_ne _ _ _ (Ne.symm hcn)] using hen
    have hact := (mem_active truthy r.columns _ c).2 ⟨hc, hen'⟩
    have hm : r ∈ chain.map Reducer.cls := by
      rw [b1]
      exact List.mem_filter.2 ⟨hr, by simpa using List.length_pos_of_mem hact⟩
    obtain ⟨q, hq, rfl⟩ := List.mem_map.1 hm
    obtain ⟨pre, post, rfl⟩ := List.append_of_mem hq
    have hs : ∀ x ∈ pre ++ q :: post, Sub x := by
      intro x hx y hy
      rw [(b2 x hx).2.1] at hy
      exact ((mem_active _ _ _ _).1 hy).1
    -- the other members of the chain do not define `c`
    have hnd : ((pre ++ q :: post).flatMap fun x => x.cls.columns).Nodup := by
      have : ((pre ++ q :: post).map Reducer.cls).flatMap ReducerClass.columns
          = (pre ++ q :: post).flatMap fun x => x.cls.columns := by simp [List.flatMap_map]
      rw [← this, b1]
      refine List.Nodup.sublist ?_ hdist
      exact flatMap_sublist _ List.filter_sublist
    have hqa : c ∈ q.active := by rw [(b2 q hq).2.1]; exact hact
    rw [List.flatMap_append, List.flatMap_cons] at hnd
    have hpre : ∀ x ∈ pre, Sub x ∧ c ∉ x.active := by
      intro x hx
      refine ⟨hs x (by simp [hx]), fun hcx => ?_⟩
      have h1 := hs x (by simp [hx]) c hcx
      exact (List.nodup_append.1 hnd).2.2 c (List.mem_flatMap.2 ⟨x, hx, h1⟩) c (by simp [hc]) rfl
    have hpost : ∀ x ∈ post, Sub x ∧ c ∉ x.active := by
      intro x hx
      refine ⟨hs x (by simp [hx]), fun hcx => ?_⟩
      have h1 := hs x (by simp [hx]) c hcx
      have h2 := (List.nodup_append.1 hnd).2.1
      exact (List.nodup_append.1 h2).2.2 c hc c (List.mem_flatMap.2 ⟨x, hx, h1⟩) rfl
    obtain ⟨vs, e1, e2⟩ := chainEvents_value pre post q c hqa (hs q hq) hpre hpost ws fin outs hrun
    refine ⟨q.state, vs, (b2 q hq).2.2, ?_, e2⟩
    rw [← (b2 q hq).1]; exact e1

/-- A column's values do not change when other columns are switched on or off, provided the defining reducer itself
behaves the same under both configurations.  (A reducer may read any configuration entry, including another column's
switch; `C52` shows that one shipped reducer does, so the proviso is needed.) -/
theorem C12_independent_of_other_switches (truthy : V → Bool) (reducers : List (ReducerClass V σ ω β))
    (cfg₁ cfg₂ : Config V) (hdist : DistinctColumns reducers)
    (ch₁ ch₂ fin₁ fin₂ : List (Reducer V σ ω β)) (ws : List ω) (outs₁ outs₂ : List (Dict String β))
    (hb₁ : buildChain truthy reducers cfg₁ = .ok ch₁) (hrun₁ : chainEvents ch₁ ws = .ok (fin₁, outs₁))
    (hb₂ : buildChain truthy reducers cfg₂ = .ok ch₂) (hrun₂ : chainEvents ch₂ ws = .ok (fin₂, outs₂))
    (r : ReducerClass V σ ω β) (hr : r ∈ reducers) (c : String) (hc : c ∈ r.columns) (hcn : c ≠ "_disable_by_default")
    (hen₁ : Enabled truthy cfg₁ c) (hen₂ : Enabled truthy cfg₂ c)
    (hsame : let a := Dict.erase cfg₁ "_disable_by_default"; let b := Dict.erase cfg₂ "_disable_by_default"
      r.init a = r.init b ∧ r.prepare a = r.prepare b ∧ r.value a = r.value b ∧ r.post a = r.post b) :
    outs₁.map (Dict.get? · c) = outs₂.map (Dict.get? · c) := by
  obtain ⟨s₁, v₁, i₁, e₁, o₁⟩ := C12_values truthy reducers cfg₁ hdist ch₁ fin₁ ws outs₁ hb₁ hrun₁ r hr c hc hen₁ hcn
  obtain ⟨s₂, v₂, i₂, e₂, o₂⟩ := C12_values truthy reducers cfg₂ hdist ch₂ fin₂ ws outs₂ hb₂ hrun₂ r hr c hc hen₂ hcn
  obtain ⟨h1, h2, h3, h4⟩ := hsame
  rw [h1, i₂] at i₁
  simp at i₁
  subst i₁
  have hsolo : ∀ (s : σ) (l : List ω), soloColumn r (Dict.erase cfg₁ "_disable_by_default") c s l
      = soloColumn r (Dict.erase cfg₂ "_disable_by_default") c s l := by
    intro s l
    induction l generalizing s with
    | nil => rfl
    | cons w l ih =>
      simp only [soloColumn, h2, h3, h4]
      split
      · rfl
      · simp [ih]
  rw [hsolo, e₂] at e₁
  have hv : v₂ = v₁ := List.map_injective_iff.2 (fun a b h => by simpa using h) e₁
  rw [o₁, o₂, hv]

/-- An event fails exactly when a reducer of the chain fails on it, with that reducer's exception. -/
theorem C12_errors (chain : List (Reducer V σ ω β)) (w : ω) :
    (∀ e, chainLoop chain w [] = .error e → ∃ r ∈ chain, r.process w = .error e) ∧
    ((∀ r ∈ chain, ∃ x, r.process w = .ok x) → ∃ x, chainLoop chain w [] = .ok x) :=
  chainLoop_total chain w []

/-! ## C13 -/

/-- the columns enabled by a chain built with the generated file, and without a file -/
theorem get?_generated (dc : Config Bool) (cols : List (List String)) (c : String) :
    Dict.get? (generatedConfig dc cols) c
      = if c ∈ cols.flatten then some ((Dict.get? dc c).getD true) else none := by
  unfold generatedConfig
  generalize cols.flatten = l
  rw [Dict.get?_update_reverse]
  simp only [Dict.get?_nil, Option.or_none]
  rw [← List.map_reverse]
  have : ∀ m : List String, Dict.get? (m.map fun c => (c, (Dict.get? dc c).getD true)) c
      = if c ∈ m then some ((Dict.get? dc c).getD true) else none := by
    intro m
    induction m with
    | nil => rfl
    | cons x m ih =>
      simp only [List.map_cons, Dict.get?_cons, List.mem_cons]
      by_cases h : x = c
      · subst h; simp
      · rw [if_neg h, ih]
        simp [Ne.symm h]
  rw [this]; simp

/-- C13 as claimed: the generated file enables the same columns of the discovered reducers as having no file. -/
def GeneratedFileReproducesDefault (dc : Config Bool) (cols : List (List String)) : Prop :=
  ∀ (load : String → Yaml Bool), load "f" = .map (generatedConfig dc cols) →
    ∀ withFile without, chainConfig dc load (some "f") [] = .ok withFile → chainConfig dc load none [] = .ok without →
      ∀ c ∈ cols.flatten, (Enabled id withFile c ↔ Enabled id without c)

/-- The claim holds for a default table and reducer set exactly when every discovered column is listed in the default
table. -/
theorem C13_partial (dc : Config Bool) (hd : (Dict.keys dc).Nodup) (cols : List (List String)) :
    GeneratedFileReproducesDefault dc cols ↔ ∀ c ∈ cols.flatten, c ∈ Dict.keys dc := by
  have gen : (Dict.keys (generatedConfig dc cols)).Nodup := Dict.nodup_keys_update _ _ (by simp [Dict.keys])
  have key : ∀ (load : String → Yaml Bool), load "f" = .map (generatedConfig dc cols) →
      ∀ a b, chainConfig dc load (some "f") [] = .ok a → chainConfig dc load none [] = .ok b → ∀ c ∈ cols.flatten,
      (Enabled id a c ↔ (Dict.get? dc c).getD true = true) ∧ (Enabled id b c ↔ (Dict.get? dc c) = some true) := by
    intro load hl a b ha hb c hc
    obtain ⟨a', h1, h2⟩ := C11_with_file dc (generatedConfig dc cols) [] load "f" (by decide) hl gen (by simp [Dict.keys])
    obtain ⟨b', h3, h4⟩ := C11_without_file dc [] load none (Or.inl rfl) hd (by simp [Dict.keys])
    rw [h1] at ha; rw [h3] at hb
    simp at ha hb
    subst ha; subst hb
    simp [Enabled, h2, h4, get?_generated, hc]
  constructor
  · intro h c hc
    obtain ⟨a', h1, h2⟩ := C11_with_file dc (generatedConfig dc cols) []
      (fun _ => .map (generatedConfig dc cols)) "f" (by decide) rfl gen (by simp [Dict.keys])
    obtain ⟨b', h3, h4⟩ := C11_without_file dc [] (fun _ => .map (generatedConfig dc cols)) none (Or.inl rfl) hd
      (by simp [Dict.keys])
    have hh := h (fun _ => .map (generatedConfig dc cols)) rfl _ _ h1 h3 c hc
    obtain ⟨k1, k2⟩ := key (fun _ => .map (generatedConfig dc cols)) rfl _ _ h1 h3 c hc
    rw [k1, k2] at hh
    by_contra hn
    rw [← Dict.get?_eq_none_iff] at hn
    rw [hn] at hh
    simp at hh
  · intro h load hl a b ha hb c hc
    obtain ⟨k1, k2⟩ := key load hl a b ha hb c hc
    rw [k1, k2]
    obtain ⟨v, hv⟩ := (Dict.mem_keys_iff _ _).1 (h c hc)
    rw [hv]; simp

/-- C13 is false for the shipped reducers and default table: `waveform_max` and `flasher_unit` are discovered columns
not listed in the table; the generated file enables them, the default leaves them off. -/
theorem C13_false : ¬ GeneratedFileReproducesDefault defaultColumns shippedColumns := by
  rw [C13_partial _ (by decide)]
  intro h
  exact absurd (h "waveform_max" (by decide)) (by decide)

/-- These two are the only shipped columns whose switch differs between the generated file and the defaults. -/
theorem C13_shipped_difference (c : String) (hc : c ∈ shippedColumns.flatten) :
    c ∉ Dict.keys defaultColumns ↔ c = "waveform_max" ∨ c = "flasher_unit" := by
  revert c
  decide

/-! ## C14 -/

/-- A definition is refused exactly when the name is already owned by a different qualified name; a refused definition
leaves the registry as it was. -/
theorem C14_refused_iff (registry : Dict String String) (name qualname : String) :
    ((registerColumn registry name qualname).2 = some .attributeError ↔
      ∃ owner, Dict.get? registry name = some owner ∧ owner ≠ qualname) ∧
    ((registerColumn registry name qualname).2 ≠ none → (registerColumn registry name qualname).1 = registry) := by
  unfold registerColumn
  split
  · rename_i old h
    split <;> simp_all
  · rename_i h; simp [h]

theorem registerColumn_get? (registry : Dict String String) (name qualname k : String) :
    Dict.get? (registerColumn registry name qualname).1 k =
      match Dict.get? registry k with
      | some o => some o
      | none => if k = name then some qualname else none := by
  unfold registerColumn
  by_cases hk : k = name
  · subst hk
    cases h : Dict.get? registry k with
    | none => simp
    | some old => by_cases ho : old = qualname <;> simp [ho, h]
  · have : ∀ v, Dict.get? (Dict.set registry name v) k = Dict.get? registry k := fun v =>
      Dict.get?_set_ne _ _ (Ne.symm hk)
    have e : ∀ o : Option String, (match o with | some o => some o | none => if k = name then some qualname else none)
        = o := by intro o; cases o <;> simp [hk]
    rw [e]
    cases h : Dict.get? registry name with
    | none => simp [this]
    | some old => by_cases ho : old = qualname <;> simp [ho, this]

/-- After any history of definitions (refused ones included) the owner of a column name is the qualified name which
defined it first, for ever. -/
theorem C14_owner_is_first (defs : List (String × String)) (name : String) :
    Dict.get? (registerAll defs) name = (defs.find? (·.1 = name)).map Prod.snd := by
  have : ∀ (reg : Dict String String), Dict.get?
      (defs.foldl (fun reg d => (registerColumn reg d.1 d.2).1) reg) name
      = match Dict.get? reg name with
        | some o => some o
        | none => (defs.find? (·.1 = name)).map Prod.snd := by
    induction defs with
    | nil => intro reg; simp; cases Dict.get? reg name <;> rfl
    | cons d defs ih =>
      intro reg
      rw [List.foldl_cons, ih, registerColumn_get?]
      cases h : Dict.get? reg name with
      | some o => simp
      | none =>
        by_cases hd : d.1 = name
        · simp [hd]
        · simp [hd, Ne.symm hd]
  have h := this []
  simpa [registerAll] using h

/-- Hence, in any history, a definition is accepted exactly when no earlier definition of the name has been made under
another qualified name by the first definer: accepted definitions of one name all have the same qualified name. -/
theorem C14_single_owner (before between : List (String × String)) (name q₁ q₂ : String)
    (h1 : (registerColumn (registerAll before) name q₁).2 = none)
    (h2 : (registerColumn (registerAll (before ++ (name, q₁) :: between)) name q₂).2 = none) : q₁ = q₂ := by
  have hreg : Dict.get? (registerAll (before ++ (name, q₁) :: between)) name = some q₁ := by
    rw [C14_owner_is_first, List.find?_append]
    have hb := C14_owner_is_first before name
    have hr := registerColumn_get? (registerAll before) name q₁ name
    cases hf : before.find? (·.1 = name) with
    | none => simp
    | some d =>
      rw [hf] at hb
      simp at hb
      have := (C14_refused_iff (registerAll before) name q₁).1
      rw [h1, hb] at this
      simp at this
      simp [this]
  have := (C14_refused_iff (registerAll (before ++ (name, q₁) :: between)) name q₂).1
  rw [h2, hreg] at this
  simpa using this

/-- Re-definition under the same qualified name is accepted. -/
theorem C14_redefinition (registry : Dict String String) (name qualname : String)
    (h : Dict.get? registry name = some qualname) : (registerColumn registry name qualname).2 = none := by
  simp [registerColumn, h]

/-- The column list of a class: its own columns, in definition order, except those which are columns of a base. -/
theorem C14_class_columns (members : List (String × Bool)) (parents : List (String → Bool)) :
    (∀ c, c ∈ metaColumns members parents ↔ (c, true) ∈ members ∧ ∀ p ∈ parents, p c = false) ∧
    (metaColumns members parents).Sublist (members.map Prod.fst) := by
  refine ⟨fun c => ?_, List.filter_sublist.map _⟩
  simp [metaColumns]

/-! ## Concrete cases -/

section Examples

/-- a counter: the value is how many events were seen plus the event -/
def exCounter (name : String) (cols : List String) : ReducerClass Bool Nat Nat Nat where
  name := name
  columns := cols
  init := fun _ => .ok 0
  prepare := fun _ s w => .ok (s + w)
  value := fun _ s c => if c = "bad" then .error .valueError else .ok (s + c.length)
  post := fun _ s => s + 100

def exReducers : List (ReducerClass Bool Nat Nat Nat) := [exCounter "A" ["a", "bb"], exCounter "B" ["bad"], exCounter "C" ["ccc"]]

def exConfig : Config Bool := [("bb", true), ("a", false), ("ccc", true), ("unknown", true)]

example : DistinctColumns exReducers := by unfold DistinctColumns; decide

example : ∃ chain fin outs, buildChain id exReducers exConfig = .ok chain ∧ chainEvents chain [5, 7] = .ok (fin, outs) ∧
    outs = [[("bb", 7), ("ccc", 8)], [("bb", 114), ("ccc", 115)]] := ⟨_, _, _, rfl, rfl, rfl⟩

example : Enabled id exConfig "bb" := ⟨true, rfl, rfl⟩

example : ∃ chain, buildChain id exReducers [("bad", true), ("a", true)] = .ok chain ∧
    ∃ r ∈ chain, r.process 3 = .error .valueError := ⟨_, rfl, _, List.mem_cons_of_mem _ (List.mem_singleton.2 rfl), rfl⟩

example : chainConfig [("a", true)] (fun _ => .map [("a", false), ("b", true)]) (some "x.yml") [("b", false)]
    = .ok [("a", false), ("b", false)] := by decide +kernel

example : (registerColumn (registerAll [("t", "A.t")]) "t" "B.t").2 = some .attributeError := by decide

example : metaColumns [("x", true), ("helper", false), ("t", true)] [fun n => n = "t"] = ["x"] := by decide

end Examples

end Verif.Props
