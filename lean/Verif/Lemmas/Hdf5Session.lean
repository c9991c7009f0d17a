import Verif.Lemmas.Hdf5

namespace Verif.Lemmas

open Verif.Py Verif.Model Verif.Spec

variable {ρ ν : Type}

theorem run_flushOK (c : WCfg ρ) (s0 : Store ρ ν) (ops : List (Op ρ ν)) (hu : Unmixed ops) (key : String)
    (ha : IsAppended ops key → Appendable s0 key) : FlushOK (run c (WState.init s0) ops) key := by
  by_cases h : IsAppended ops key
  · right
    exact (run_inv c s0 key (ha h) ops (fun hw => hu key ⟨h, hw⟩)).app
  · left; exact run_dfList_nil c s0 key ops h

theorem appendable_nil (key : String) : Appendable ([] : Store ρ ν) key := by
  intro nd h; simp [Dict.get?] at h

/-- attributes of nodes other than `mapping` before closing a fresh file -/
theorem run_attr_none (c : WCfg ρ) (ops : List (Op ρ ν)) (hu : Unmixed ops) (key name : String)
    (hk : key ≠ "mapping") : fileAttr (run c (WState.init []) ops).store key name = none := by
  by_cases h : IsAppended ops key
  · rw [(run_inv c [] key (appendable_nil key) ops (fun hw => hu key ⟨h, hw⟩)).attrs]
    rfl
  · have := run_written c [] key ops h (fun h => absurd h hk)
    unfold fileAttr
    revert this
    cases lastWrite ops key with
    | none => intro this; rw [this.1]; rfl
    | some df => intro this; rw [this.1]; rfl

theorem flush_attr (c : WCfg ρ) (st : WState ρ ν) (key name : String) (h : FlushOK st key) :
    fileAttr (flush c st key).1.store key name = fileAttr st.store key name := by
  unfold flush
  rcases h with h | h
  · simp [h]
  · split
    · rfl
    · obtain ⟨s', hs', _, _, ha, _⟩ := append_spec st.store key (c.prep (st.dfList key).flatten) h
      simp [hs', ha]

/-- if closing succeeds, every buffer was flushed -/
theorem session_flushes (c : WCfg ρ) (ops : List (Op ρ ν)) (order : List String) (ho : IsOrder ops order) (s : Store ρ ν)
    (h : writeSession c ops order = .ok s) : ∀ k ∈ order, (flush c (run c (WState.init []) ops) k).2 = none := by
  unfold writeSession finish at h
  cases hl : finishLoop c order (run c (WState.init []) ops) 0 with
  | error e => rw [hl] at h; cases h
  | ok x => exact finishLoop_flushes c order _ x.1 0 x.2 ho.1 hl

/-- everything a closed fresh file contains -/
structure SessionSpec (c : WCfg ρ) (ops : List (Op ρ ν)) (order : List String) (s : Store ρ ν) : Prop where
  nodup : (Dict.keys s).Nodup
  appended : ∀ key, ¬ IsWritten ops key → ∃ groups, Cuts groups (framesAppended ops key) ∧
    fileRows s key = (groups.map fun g => c.prep g.flatten).flatten ∧
    (IsData ops key → fileField s key "metadata" "n_bytes"
      = some (.int ((groups.map fun g => c.mem (c.prep g.flatten)).sum : Nat)))
  written : ∀ key df, ¬ IsAppended ops key → (key = "mapping" → ¬ ∃ m md, Op.addMapping m md ∈ ops) →
    lastWrite ops key = some df → fileRows s key = df ∧
      fileField s key "metadata" "n_bytes" = some (.int (c.mem df))
  total : ∃ n : String → Int, (∀ key, IsData ops key → fileField s key "metadata" "n_bytes" = some (.int (n key))) ∧
    fileField s "data" "metadata" "total_bytes" = some (.int (order.map n).sum)
  version : fileField s "data" "metadata" "version" = some (.str "3.1.0")
  attr : ∀ key name, key ≠ "mapping" → ((fileAttr s key name).isSome ↔
    HasMeta ops key name ∨ (name = "metadata" ∧ (IsData ops key ∨ key = "data")))
  fieldAll : ∀ key name f, (HasMeta ops key name ∨ (name = "metadata" ∧ (IsData ops key ∨ key = "data"))) →
    ¬ (key = "data" ∧ name = "metadata" ∧ (f = "total_bytes" ∨ f = "version")) →
    ¬ (IsData ops key ∧ name = "metadata" ∧ f = "n_bytes") → fileField s key name f = lastField ops key name f
  present : ∀ key, (Dict.get? s key).isSome ↔ (IsData ops key ∨ key = "data" ∨ (∃ name, HasMeta ops key name) ∨
    (key = "mapping" ∧ ∃ m md, Op.addMapping m md ∈ ops))
  mapAttr : (fileAttr s "mapping" "metadata").isSome ↔
    (HasMeta ops "mapping" "metadata" ∨ IsData ops "mapping" ∨ ∃ m md, Op.addMapping m md ∈ ops)
  fmtAppended : ∀ key, ¬ IsWritten ops key → fileRows s key ≠ [] → (Dict.get? s key).map Node.fmt = some .table
  fmtEmpty : ∀ key, key ≠ "mapping" → ¬ IsData ops key → (Dict.get? s key).isSome →
    (Dict.get? s key).map Node.fmt = some .fixed
  fmtWritten : ∀ key df, ¬ IsAppended ops key → (key = "mapping" → ¬ ∃ m md, Op.addMapping m md ∈ ops) →
    lastWrite ops key = some df → (Dict.get? s key).map Node.fmt = some .fixed

theorem SessionSpec.field {c : WCfg ρ} {ops : List (Op ρ ν)} {order : List String} {s : Store ρ ν}
    (h : SessionSpec c ops order s) (key name f : String) (hm : HasMeta ops key name)
    (h1 : ¬ (key = "data" ∧ name = "metadata" ∧ (f = "total_bytes" ∨ f = "version")))
    (h2 : ¬ (IsData ops key ∧ name = "metadata" ∧ f = "n_bytes")) :
    fileField s key name f = lastField ops key name f := h.fieldAll key name f (Or.inl hm) h1 h2

theorem written_bytes (c : WCfg ρ) (s0 : Store ρ ν) (ops : List (Op ρ ν)) (key : String) (ha : ¬ IsAppended ops key)
    (hm : key = "mapping" → ¬ ∃ m md, Op.addMapping m md ∈ ops) (df : List ρ) (h : lastWrite ops key = some df) :
    Dict.get? (flush c (run c (WState.init s0) ops) key).1.store key = some { fmt := .fixed, rows := df, attrs := [] } ∧
    finalBytes c (run c (WState.init s0) ops) key = c.mem df := by
  have h1 := run_dfList_nil c s0 key ops ha
  have h2 := run_written c s0 key ops ha hm
  rw [h] at h2
  have : flush c (run c (WState.init s0) ops) key = (run c (WState.init s0) ops, none) := by
    unfold flush; simp [h1]
  unfold finalBytes
  rw [this]
  exact h2

/-- the `mapping` node while nothing is appended to it -/
theorem run_mapping (c : WCfg ρ) (s0 : Store ρ ν) (ops : List (Op ρ ν)) (ha : ¬ IsAppended ops "mapping") :
    ((Dict.get? (run c (WState.init s0) ops).store "mapping").isSome ↔
      ((Dict.get? s0 "mapping").isSome ∨ (∃ df, Op.write "mapping" df ∈ ops) ∨ ∃ m md, Op.addMapping m md ∈ ops)) ∧
    ((∃ df, Op.write "mapping" df ∈ ops) ∨
      ((fileAttr (run c (WState.init s0) ops).store "mapping" "metadata").isSome ↔
      ((fileAttr s0 "mapping" "metadata").isSome ∨ ∃ m md, Op.addMapping m md ∈ ops))) := by
  induction ops using List.reverseRecOn with
  | nil => simp [run, WState.init]
  | append_singleton ops op ih =>
    rw [isAppended_snoc] at ha
    push Not at ha
    have ih := ih ha.1
    rw [run_snoc]
    by_cases hw : OpWrites op "mapping"
    · cases op with
      | write k df =>
        have : k = "mapping" := hw
        subst this
        simp [step, write, put_get]
      | addMapping m md =>
        refine ⟨?_, Or.inr ?_⟩
        · simp [step, addMapping, put_get, setAttr_get]
          exact Or.inr (Or.inr ⟨m, md, Or.inr ⟨rfl, rfl⟩⟩)
        · simp [step, addMapping, put_get, setAttr_get, fileAttr]
          exact Or.inr ⟨m, md, Or.inr ⟨rfl, rfl⟩⟩
      | append df k => exact absurd hw (by simp [OpWrites])
      | addMetadata k n kv => exact absurd hw (by simp [OpWrites])
    · have hs := step_untouched c (run c (WState.init s0) ops) op "mapping" hw ha.2
      have e : fileAttr (step c (run c (WState.init s0) ops) op).1.store "mapping" "metadata"
          = fileAttr (run c (WState.init s0) ops).store "mapping" "metadata" := by unfold fileAttr; rw [hs.1]
      rw [hs.1, e]
      have m1 : (∃ df, Op.write "mapping" df ∈ ops ++ [op]) ↔ ∃ df, Op.write "mapping" df ∈ ops := by
        constructor
        · rintro ⟨df, h⟩
          rcases List.mem_append.mp h with h | h
          · exact ⟨df, h⟩
          · simp at h; subst h; exact absurd rfl hw
        · rintro ⟨df, h⟩; exact ⟨df, by simp [h]⟩
      have m2 : (∃ m md, Op.addMapping m md ∈ ops ++ [op]) ↔ ∃ m md, Op.addMapping m md ∈ ops := by
        constructor
        · rintro ⟨df, md, h⟩
          rcases List.mem_append.mp h with h | h
          · exact ⟨df, md, h⟩
          · simp at h; subst h; exact absurd rfl hw
        · rintro ⟨df, md, h⟩; exact ⟨df, md, by simp [h]⟩
      rw [m1, m2]
      exact ih

theorem framesAppended_ne_nil (ops : List (Op ρ ν)) (key : String) :
    framesAppended ops key ≠ [] ↔ IsAppended ops key := by
  unfold framesAppended IsAppended
  rw [Ne, List.filterMap_eq_nil_iff]
  constructor
  · intro h
    push Not at h
    obtain ⟨op, hop, h⟩ := h
    cases op with
    | append df k =>
      by_cases hk : k = key
      · subst hk; exact ⟨df, hop⟩
      · simp [hk] at h
    | _ => simp at h
  · rintro ⟨df, h⟩ hh
    have := hh _ h
    simp at this

theorem lastWrite_isSome (ops : List (Op ρ ν)) (key : String) :
    (lastWrite ops key).isSome ↔ ∃ df, Op.write key df ∈ ops := by
  induction ops using List.reverseRecOn with
  | nil => simp [lastWrite]
  | append_singleton ops op ih =>
    rw [lastWrite_snoc]
    cases op with
    | write k df =>
      by_cases h : k = key
      · subst h; simp [opWrite]
      · simp only [opWrite, h, if_false, ih]
        simp [Ne.symm h]
    | _ => simp [opWrite, ih]

theorem writeSession_spec (c : WCfg ρ) (ops : List (Op ρ ν)) (order : List String) (hu : Unmixed ops)
    (ho : IsOrder ops order) : ∃ s, writeSession c ops order = .ok s ∧ SessionSpec c ops order s := by
  obtain ⟨k1, k2, k3⟩ := run_keys c ([] : Store ρ ν) ops
  obtain ⟨m1, m2, m3, m4⟩ := run_metadata c ([] : Store ρ ν) ops
  have hfo : ∀ k, FlushOK (run c (WState.init []) ops) k := fun k =>
    run_flushOK c [] ops hu k (fun _ => appendable_nil k)
  obtain ⟨s, hs, f1, f2, f3, f4, f5, f6⟩ := finish_spec c order (run c (WState.init []) ops) ho.1
    (fun k _ => flush_ok c _ k (hfo k)) m1 (k3 (by simp [Dict.keys]))
  refine ⟨s, hs, ?_⟩
  have hnb : ∀ key, IsData ops key → fileField s key "metadata" "n_bytes"
      = some (.int (finalBytes c (run c (WState.init []) ops) key)) := by
    intro key hd
    have hk := (ho.2 key).mpr hd
    rw [f6 key "metadata" "n_bytes" (Or.inr ⟨rfl, Or.inl hk⟩)]
    simp [hk]
  refine ⟨f1, ?_, ?_, ?_, ?_, ?_, ?_, ?_, ?_, ?_, ?_, ?_⟩
  · intro key hw
    have hinv := run_inv c [] key (appendable_nil key) ops hw
    obtain ⟨-, hinv', hnil⟩ := flush_inv c [] _ _ key hinv
    obtain ⟨g, g1, g2, g3, g4, g5, g6⟩ := hinv'.data
    rw [hnil, List.append_nil] at g2
    refine ⟨g, ⟨g2, g1⟩, ?_, ?_⟩
    · rw [f2 key]
      by_cases hk : key ∈ order
      · rw [if_pos hk, g3]; rfl
      · rw [if_neg hk]
        have hna : ¬ IsAppended ops key := fun h => hk ((ho.2 key).mpr (Or.inl h))
        have hg : g = [] := by
          have : framesAppended ops key = [] := by
            by_contra h; exact hna ((framesAppended_ne_nil ops key).mp h)
          rw [this] at g2
          cases g with
          | nil => rfl
          | cons a g =>
            have := g1 a (by simp)
            simp at g2
            exact absurd g2.1 this
        have hnw : lastWrite ops key = none := by
          rw [← Option.not_isSome_iff_eq_none, lastWrite_isSome]
          exact fun h => hw (Or.inl h)
        have hr := run_written c [] key ops hna (fun hmk hmap => hw (Or.inr ⟨hmk, hmap⟩))
        rw [hnw] at hr
        subst hg
        unfold fileRows; rw [hr.1]; rfl
    · intro hd
      rw [hnb key hd]
      have : finalBytes c (run c (WState.init []) ops) key = (g.map fun g => c.mem (c.prep g.flatten)).sum := g4
      rw [this]
  · intro key df ha hm hl
    have hb := written_bytes c [] ops key ha hm df hl
    have hd : IsData ops key := Or.inr ((lastWrite_isSome ops key).mp (by rw [hl]; rfl))
    have hk := (ho.2 key).mpr hd
    refine ⟨?_, ?_⟩
    · rw [f2 key, if_pos hk]; unfold fileRows; rw [hb.1]
    · rw [hnb key hd, hb.2]
  · refine ⟨fun k => finalBytes c (run c (WState.init []) ops) k, hnb, ?_⟩
    rw [f6 "data" "metadata" "total_bytes" (Or.inr ⟨rfl, Or.inr rfl⟩)]
    simp
  · rw [f6 "data" "metadata" "version" (Or.inr ⟨rfl, Or.inr rfl⟩)]
    simp
  · intro key name hkm
    rw [f5 key name]
    have : fileAttr (if key ∈ order then (flush c (run c (WState.init []) ops) key).1.store
        else (run c (WState.init []) ops).store) key name = none := by
      split
      · rw [flush_attr c _ key name (hfo key)]; exact run_attr_none c ops hu key name hkm
      · exact run_attr_none c ops hu key name hkm
    rw [this]
    simp only [Bool.or_eq_true, decide_eq_true_eq, Option.isSome_none, Bool.false_eq_true, or_false, m3, ho.2]
    rfl
  · intro key name f hmeta h1 h2
    rw [f6 key name f (by rw [m3, ho.2]; exact hmeta), ← m2]
    rw [if_neg (by grind), if_neg (by grind), if_neg]
    rintro ⟨a, b, d⟩; exact h2 ⟨(ho.2 key).mp a, b, d⟩
  · intro key
    rw [f3 key]
    have hmeta : key ∈ Dict.keys (run c (WState.init []) ops).metadata ↔ ∃ name, HasMeta ops key name := by
      rw [m4]
      constructor
      · rintro ⟨n, kv, a, b, d⟩; exact ⟨n, a, b, kv, d⟩
      · rintro ⟨n, a, b, kv, d⟩; exact ⟨n, kv, a, b, d⟩
    simp only [Bool.or_eq_true, decide_eq_true_eq, hmeta, ho.2]
    by_cases hd : IsData ops key
    · simp [hd]
    · have hko : key ∉ order := fun h => hd ((ho.2 key).mp h)
      have hna : ¬ IsAppended ops key := fun h => hd (Or.inl h)
      rw [if_neg hko]
      by_cases hkm : key = "mapping"
      · subst hkm
        have hr := (run_mapping c ([] : Store ρ ν) ops hna).1
        have hnw : ¬ ∃ df, Op.write "mapping" df ∈ ops := fun h => hd (Or.inr h)
        rw [hr]
        simp only [hd, hnw, Dict.get?, Option.isSome_none, Bool.false_eq_true, false_or, true_and]
        grind
      · have hr := run_written c ([] : Store ρ ν) key ops hna (fun h => absurd h hkm)
        have hnw : lastWrite ops key = none := by
          rw [← Option.not_isSome_iff_eq_none, lastWrite_isSome]
          exact fun h => hd (Or.inr h)
        rw [hnw] at hr
        rw [hr.1]
        simp [hkm, Dict.get?]
  · rw [f5 "mapping" "metadata"]
    simp only [Bool.or_eq_true, decide_eq_true_eq, m3, ho.2, true_and]
    by_cases hd : IsData ops "mapping"
    · simp [hd]
    · have hko : "mapping" ∉ order := fun h => hd ((ho.2 _).mp h)
      have hna : ¬ IsAppended ops "mapping" := fun h => hd (Or.inl h)
      rw [if_neg hko]
      have hr := (run_mapping c ([] : Store ρ ν) ops hna).2
      have hnw : ¬ ∃ df, Op.write "mapping" df ∈ ops := fun h => hd (Or.inr h)
      rcases hr with hr | hr
      · exact absurd hr hnw
      · rw [hr]
        simp [hd, fileAttr, Dict.get?, HasMeta]
  · intro key hw hne
    rw [f4 key]
    rw [f2 key] at hne
    have hinv := run_inv c [] key (appendable_nil key) ops hw
    obtain ⟨-, hinv', -⟩ := flush_inv c [] _ _ key hinv
    have happ : Appendable (if key ∈ order then (flush c (run c (WState.init []) ops) key).1.store
        else (run c (WState.init []) ops).store) key := by
      split
      · exact hinv'.app
      · exact hinv.app
    revert hne happ
    generalize (if key ∈ order then (flush c (run c (WState.init []) ops) key).1.store
        else (run c (WState.init []) ops).store) = s2
    intro hne happ
    cases hg : Dict.get? s2 key with
    | none => simp [fileRows, hg] at hne
    | some nd => simp [happ nd hg]
  · intro key hkm hd hsome
    have hko : key ∉ order := fun h => hd ((ho.2 key).mp h)
    have hna : ¬ IsAppended ops key := fun h => hd (Or.inl h)
    have hr := run_written c ([] : Store ρ ν) key ops hna (fun h => absurd h hkm)
    have hnw : lastWrite ops key = none := by
      rw [← Option.not_isSome_iff_eq_none, lastWrite_isSome]
      exact fun h => hd (Or.inr h)
    rw [hnw] at hr
    have := f3 key
    rw [if_neg hko, hr.1] at this
    rw [f4 key, if_neg hko, hr.1]
    rw [this] at hsome
    simp [Dict.get?] at hsome
    simp [Dict.get?, hsome]
  · intro key df ha hm hl
    have hb := written_bytes c [] ops key ha hm df hl
    have hd : IsData ops key := Or.inr ((lastWrite_isSome ops key).mp (by rw [hl]; rfl))
    rw [f4 key, if_pos ((ho.2 key).mpr hd), hb.1]
    rfl

end Verif.Lemmas
