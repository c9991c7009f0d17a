import Verif.Props.Hdf5
import Verif.Props.Appender

/-!
# C15, C19, C22, C24: sessions that use a table with `append` and with `write`

The theorems of `Props/Hdf5` and `Props/Appender` assume that no table is used with `append` and with `write` or `add_mapping` in one session. Here the
history is arbitrary.
-/

namespace Verif.Props

open Verif.Py Verif.Model Verif.Spec Verif.Lemmas

variable {ρ ν : Type}

/-- the frame that replaced `key` last: by `write`, or by `add_mapping` if `key` is `mapping` -/
def lastReplace (ops : List (Op ρ ν)) (key : String) : Option (List ρ) :=
  ops.foldl (fun acc op => match op with
    | .write k df => if k = key then some df else acc
    | .addMapping m _ => if key = "mapping" then some m else acc
    | _ => acc) none

/-! ### one key through one call -/

/-- the node is in fixed format and holds `df` -/
def FixedAs (df : List ρ) (st : WState ρ ν) (key : String) : Prop :=
  ∃ nd, Dict.get? st.store key = some nd ∧ nd.fmt = .fixed ∧ nd.rows = df

/-- the frames given so far are the flushed groups and the buffer -/
def Loose (c : WCfg ρ) (base : List ρ) (frames : List (List ρ)) (st : WState ρ ν) (key : String) : Prop :=
  ∃ groups : List (List (List ρ)), (∀ g ∈ groups, g ≠ []) ∧ groups.flatten ++ st.dfList key = frames ∧
    fileRows st.store key = base ++ (groups.map fun g => c.prep g.flatten).flatten ∧
    st.nBytes key = (groups.map fun g => c.mem (c.prep g.flatten)).sum

theorem flush_bytes (c : WCfg ρ) (st : WState ρ ν) (key : String) (h : (flush c st key).2 = none) :
    (flush c st key).1.nBytes key = st.nBytes key + (if st.dfList key = [] then 0 else c.mem (c.prep (st.dfList key).flatten)) := by
  unfold flush at h ⊢
  by_cases h0 : st.dfList key = []
  · simp [h0]
  · have h0' : (st.dfList key).isEmpty = false := by simpa using h0
    simp only [h0', Bool.false_eq_true, if_false, if_neg h0] at h ⊢
    cases ha : Store.append st.store key (c.prep (st.dfList key).flatten) with
    | error e => rw [ha] at h; cases h
    | ok s' => simp [fset]

theorem flush_total (c : WCfg ρ) (st : WState ρ ν) (key : String) :
    ((flush c st key).2 = some .valueError ∧ (flush c st key).1 = st ∧ st.dfList key ≠ [] ∧ c.prep (st.dfList key).flatten ≠ [] ∧
      ∃ nd, Dict.get? st.store key = some nd ∧ nd.fmt = .fixed) ∨
    ((flush c st key).2 = none ∧ (flush c st key).1.dfList key = [] ∧
      fileRows (flush c st key).1.store key =
        fileRows st.store key ++ (if st.dfList key = [] then [] else c.prep (st.dfList key).flatten) ∧
      ∀ nd, Dict.get? st.store key = some nd → nd.fmt = .fixed →
        Dict.get? (flush c st key).1.store key = some nd ∧ (st.dfList key = [] ∨ c.prep (st.dfList key).flatten = [])) := by
  unfold flush
  by_cases h0 : st.dfList key = []
  · right
    simp only [h0, List.isEmpty_nil, if_true, List.append_nil, true_or, and_true, true_and]
    exact fun nd h _ => h
  · have h0' : (st.dfList key).isEmpty = false := by simpa using h0
    simp only [h0', Bool.false_eq_true, if_false, if_neg h0]
    by_cases hp : c.prep (st.dfList key).flatten = []
    · right
      simp only [hp, Store.append, List.isEmpty_nil, if_true, List.append_nil, or_true, and_true, true_and]
      exact ⟨by simp [fset], fun nd h _ => h⟩
    · have hp' : (c.prep (st.dfList key).flatten).isEmpty = false := by simpa using hp
      unfold Store.append
      simp only [hp', Bool.false_eq_true, if_false]
      cases hn : Dict.get? st.store key with
      | none =>
        right
        simp only
        refine ⟨trivial, by simp [fset], ?_, fun nd h => by cases h⟩
        simp [fileRows, hn]
      | some nd =>
        simp only
        cases hf : nd.fmt with
        | fixed =>
          left
          exact ⟨rfl, rfl, h0, hp, nd, rfl, hf⟩
        | table =>
          right
          simp only
          refine ⟨trivial, by simp [fset], ?_, fun nd' h h' => ?_⟩
          · simp [fileRows, hn]
          · cases h; rw [hf] at h'; cases h'

theorem Loose.flush {c : WCfg ρ} {base : List ρ} {frames : List (List ρ)} {st : WState ρ ν} {key : String} (h : Loose c base frames st key) :
    Loose c base frames (flush c st key).1 key := by
  rcases flush_total c st key with ⟨-, h1, -⟩ | ⟨h0, h1, h2, -⟩
  · rw [h1]; exact h
  · have h3 := flush_bytes c st key h0
    obtain ⟨g, hg, hf, hr, hb⟩ := h
    by_cases he : st.dfList key = []
    · rw [he] at hf
      rw [if_pos he, List.append_nil] at h2
      rw [if_pos he, Nat.add_zero] at h3
      exact ⟨g, hg, by rw [h1]; exact hf, by rw [h2]; exact hr, by rw [h3]; exact hb⟩
    · rw [if_neg he] at h2 h3
      refine ⟨g ++ [st.dfList key], ?_, ?_, ?_, ?_⟩
      · intro x hx
        rcases List.mem_append.1 hx with hx | hx
        · exact hg x hx
        · rw [List.mem_singleton.1 hx]; exact he
      · rw [h1]; simp [hf]
      · rw [h2, hr]; simp
      · rw [h3, hb]; simp

theorem FixedAs.flush {c : WCfg ρ} {df : List ρ} {st : WState ρ ν} {key : String} (h : FixedAs df st key) : FixedAs df (flush c st key).1 key := by
  obtain ⟨nd, hn, hf, hr⟩ := h
  rcases flush_total c st key with ⟨-, h1, -⟩ | ⟨-, -, -, h2⟩
  · rw [h1]; exact ⟨nd, hn, hf, hr⟩
  · exact ⟨nd, (h2 nd hn hf).1, hf, hr⟩

theorem Loose.congr {c : WCfg ρ} {base : List ρ} {frames : List (List ρ)} {st st' : WState ρ ν} {key : String} (h : Loose c base frames st key)
    (hs : SameKey st st' key) : Loose c base frames st' key := by
  obtain ⟨g, hg, hf, hr, hb⟩ := h
  exact ⟨g, hg, by rw [hs.2.1]; exact hf, by unfold fileRows at hr ⊢; rw [hs.1]; exact hr, by rw [hs.2.2]; exact hb⟩

theorem FixedAs.congr {df : List ρ} {st st' : WState ρ ν} {key : String} (h : FixedAs df st key) (hs : SameKey st st' key) : FixedAs df st' key := by
  obtain ⟨nd, hn, h'⟩ := h
  exact ⟨nd, by rw [hs.1]; exact hn, h'⟩

/-- the state in which `append` may flush -/
def buffered (c : WCfg ρ) (st : WState ρ ν) (df : List ρ) (key : String) : WState ρ ν :=
  { st with
    keys := addKey st.keys key
    dfList := fset st.dfList key (st.dfList key ++ [df])
    dfListNBytes := fset st.dfListNBytes key (st.dfListNBytes key + c.mem df) }

theorem append_cases (c : WCfg ρ) (st : WState ρ ν) (df : List ρ) (key : String) :
    (append c st df key).1 = buffered c st df key ∨ (append c st df key).1 = (flush c (buffered c st df key) key).1 := by
  unfold append
  dsimp only
  split
  · exact .inr rfl
  · exact .inl rfl

theorem Loose.append {c : WCfg ρ} {base : List ρ} {frames : List (List ρ)} {st : WState ρ ν} {key : String} (h : Loose c base frames st key) (df : List ρ) :
    Loose c base (frames ++ [df]) (append c st df key).1 key := by
  have hb : Loose c base (frames ++ [df]) (buffered c st df key) key := by
    obtain ⟨g, hg, hf, hr⟩ := h
    exact ⟨g, hg, by simp [buffered, fset, ← hf], hr⟩
  rcases append_cases c st df key with h1 | h1 <;> rw [h1]
  · exact hb
  · exact hb.flush

theorem FixedAs.append {c : WCfg ρ} {df : List ρ} {st : WState ρ ν} {key : String} (h : FixedAs df st key) (x : List ρ) :
    FixedAs df (append c st x key).1 key := by
  have hb : FixedAs df (buffered c st x key) key := h
  rcases append_cases c st x key with h1 | h1 <;> rw [h1]
  · exact hb
  · exact hb.flush

theorem lastReplace_snoc (ops : List (Op ρ ν)) (op : Op ρ ν) (key : String) :
    lastReplace (ops ++ [op]) key = match op with
      | .write k df => if k = key then some df else lastReplace ops key
      | .addMapping m _ => if key = "mapping" then some m else lastReplace ops key
      | _ => lastReplace ops key := by
  unfold lastReplace
  rw [List.foldl_append]
  cases op <;> rfl

theorem lastReplace_isSome (ops : List (Op ρ ν)) (key : String) : (lastReplace ops key).isSome ↔ IsWritten ops key := by
  induction ops using List.reverseRecOn with
  | nil => simp [lastReplace, IsWritten]
  | append_singleton ops op ih =>
    rw [lastReplace_snoc, isWritten_snoc, ← ih]
    cases op with
    | write k df => by_cases hk : k = key <;> simp [OpWrites, hk]
    | addMapping m md => by_cases hk : key = "mapping" <;> simp [OpWrites, hk]
    | _ => simp [OpWrites]

theorem step_write_fixed (c : WCfg ρ) (st : WState ρ ν) (op : Op ρ ν) (key : String) (df : List ρ)
    (h : op = .write key df ∨ (key = "mapping" ∧ ∃ md, op = .addMapping df md)) :
    FixedAs df (step c st op).1 key ∧ (step c st op).1.dfList key = st.dfList key := by
  rcases h with rfl | ⟨rfl, md, rfl⟩
  · exact ⟨⟨⟨.fixed, df, []⟩, by simp [step, write, put_get], rfl, rfl⟩, rfl⟩
  · exact ⟨⟨⟨.fixed, df, Dict.set [] "metadata" md⟩, by simp [step, addMapping, put_get, setAttr_get], rfl, rfl⟩, rfl⟩

/-- what one key looks like after any history -/
theorem run_any (c : WCfg ρ) (s0 : Store ρ ν) (ops : List (Op ρ ν)) (key : String) :
    (∀ df, lastReplace ops key = some df → FixedAs df (run c (WState.init s0) ops) key) ∧
      (lastReplace ops key = none → Loose c (fileRows s0 key) (framesAppended ops key) (run c (WState.init s0) ops) key) := by
  induction ops using List.reverseRecOn with
  | nil =>
    refine ⟨fun df h => by simp [lastReplace] at h, fun _ => ⟨[], by simp, by simp [run, WState.init, framesAppended], by simp [run, WState.init], by simp [run, WState.init]⟩⟩
  | append_singleton ops op ih =>
    rw [lastReplace_snoc, run_snoc]
    obtain ⟨i1, i2⟩ := ih
    have other : ¬ OpWrites op key → (match op with
        | .write k df => if k = key then some df else lastReplace ops key
        | .addMapping m _ => if key = "mapping" then some m else lastReplace ops key
        | _ => lastReplace ops key) = lastReplace ops key := by
      intro h
      cases op with
      | write k df => exact if_neg h
      | addMapping m md => exact if_neg h
      | _ => rfl
    by_cases hw : OpWrites op key
    · cases op with
      | write k df =>
        have hk : k = key := hw
        subst hk
        simp only [if_true]
        exact ⟨fun df' h => by cases h; exact (step_write_fixed c _ _ k df (.inl rfl)).1, fun h => by cases h⟩
      | addMapping m md =>
        have hk : key = "mapping" := hw
        subst hk
        simp only [if_true]
        exact ⟨fun df' h => by cases h; exact (step_write_fixed c _ _ "mapping" m (.inr ⟨rfl, md, rfl⟩)).1, fun h => by cases h⟩
      | append df k => exact absurd hw (by simp [OpWrites])
      | addMetadata k n kv => exact absurd hw (by simp [OpWrites])
    · rw [other hw]
      by_cases ha : OpAppends op key
      · cases op with
        | append df k =>
          have hk : k = key := ha
          subst hk
          rw [framesAppended_snoc]
          simp only [if_true]
          exact ⟨fun df' h => (i1 df' h).append df, fun h => (i2 h).append df⟩
        | _ => exact absurd ha (by simp [OpAppends])
      · have hs := step_untouched c (run c (WState.init s0) ops) op key hw ha
        have hfr : framesAppended (ops ++ [op]) key = framesAppended ops key := by
          rw [framesAppended_snoc]
          cases op with
          | append df k =>
            have : ¬ k = key := fun h => ha h
            simp [this]
          | _ => simp
        rw [hfr]
        exact ⟨fun df h => (i1 df h).congr hs, fun h => (i2 h).congr hs⟩

/-! ### closing -/

/-- the loop over the tables succeeds exactly if each buffer can be flushed, and fails with `ValueError` otherwise -/
theorem finishLoop_any (c : WCfg ρ) (order : List String) (st : WState ρ ν) (total : Int) (hn : order.Nodup) (hm : MetaWF st.metadata) :
    ((∀ k ∈ order, (flush c st k).2 = none) ∧ ∃ st' t, finishLoop c order st total = .ok (st', t) ∧ MetaWF st'.metadata ∧
        (∀ k ∈ order, SameKey (flush c st k).1 st' k) ∧ (∀ k, k ∉ order → SameKey st st' k) ∧
        ∀ k, k ∈ Dict.keys st'.metadata ↔ k ∈ order ∨ k ∈ Dict.keys st.metadata) ∨
      ((∃ k ∈ order, (flush c st k).2 ≠ none) ∧ finishLoop c order st total = .error .valueError) := by
  induction order generalizing st total with
  | nil => exact .inl ⟨by simp, st, total, rfl, hm, by simp, fun k _ => ⟨rfl, rfl, rfl⟩, by simp⟩
  | cons key order ih =>
    have hn' := List.nodup_cons.1 hn
    have hother : ∀ k, k ≠ key → SameKey st (flushRecord c st key) k := fun k hk =>
      (flush_other c st key k hk).trans (flushRecord_same c st key k)
    have hne : ∀ k ∈ order, k ≠ key := fun k hk h => hn'.1 (h ▸ hk)
    rcases flush_total c st key with ⟨h1, h2, -⟩ | ⟨h1, -⟩
    · right
      refine ⟨⟨key, by simp, by rw [h1]; simp⟩, ?_⟩
      unfold finishLoop
      rw [show flush c st key = ((flush c st key).1, some .valueError) from by rw [← h1]]
    · have hstep : finishLoop c (key :: order) st total =
          finishLoop c order (flushRecord c st key) (total + (finalBytes c st key : Int)) := by
        conv_lhs => unfold finishLoop
        rw [show flush c st key = ((flush c st key).1, none) from by rw [← h1]]
        rfl
      rw [hstep]
      have hcg : ∀ k ∈ order, (flush c (flushRecord c st key) k).2 = (flush c st k).2 := fun k hk =>
        flush_error_congr c st _ k (hother k (hne k hk))
      rcases ih (flushRecord c st key) (total + (finalBytes c st key : Int)) hn'.2 (by rw [flushRecord_meta]; exact metaUpdate_wf _ _ _ _ hm) with
        ⟨g1, st', t, g2, g3, g4, g5, g6⟩ | ⟨⟨k, hk, g1⟩, g2⟩
      · left
        refine ⟨?_, st', t, g2, g3, ?_, ?_, ?_⟩
        · intro k hk
          rcases List.mem_cons.1 hk with rfl | hk
          · exact h1
          · rw [← hcg k hk]; exact g1 k hk
        · intro k hk
          rcases List.mem_cons.1 hk with rfl | hk
          · exact (flushRecord_same c st k k).trans (g5 k hn'.1)
          · exact (flush_congr c st _ k (hother k (hne k hk))).trans (g4 k hk)
        · intro k hk
          simp only [List.mem_cons, not_or] at hk
          exact (hother k hk.1).trans (g5 k hk.2)
        · intro k
          rw [g6, flushRecord_meta]
          unfold metaUpdate
          rw [Dict.mem_keys_set]
          simp only [List.mem_cons]
          grind
      · right
        exact ⟨⟨k, List.mem_cons_of_mem _ hk, by rw [← hcg k hk]; exact g1⟩, g2⟩

/-- the rows left by the loop over the tables, for a history of calls -/
theorem loop_rows (c : WCfg ρ) (s0 : Store ρ ν) (ops : List (Op ρ ν)) (order : List String) (ho : IsOrder ops order) (st' : WState ρ ν)
    (hok : ∀ k ∈ order, (flush c (run c (WState.init s0) ops) k).2 = none)
    (hin : ∀ k ∈ order, SameKey (flush c (run c (WState.init s0) ops) k).1 st' k)
    (hout : ∀ k, k ∉ order → SameKey (run c (WState.init s0) ops) st' k) (key : String) :
    (∀ df, lastReplace ops key = some df → fileRows st'.store key = df) ∧
      (lastReplace ops key = none → ∃ groups, Cuts groups (framesAppended ops key) ∧
        fileRows st'.store key = fileRows s0 key ++ (groups.map fun g => c.prep g.flatten).flatten ∧
        st'.nBytes key = (groups.map fun g => c.mem (c.prep g.flatten)).sum) := by
  obtain ⟨r1, r2⟩ := run_any c s0 ops key
  by_cases hk : key ∈ order
  · have hnil : (flush c (run c (WState.init s0) ops) key).1.dfList key = [] := by
      rcases flush_total c (run c (WState.init s0) ops) key with ⟨h1, -⟩ | ⟨-, h1, -⟩
      · rw [hok key hk] at h1; cases h1
      · exact h1
    constructor
    · intro df h
      obtain ⟨nd, h1, -, h2⟩ := ((r1 df h).flush (c := c)).congr (hin key hk)
      unfold fileRows; rw [h1]; exact h2
    · intro h
      obtain ⟨g, h1, h2, h3⟩ := ((r2 h).flush).congr (hin key hk)
      rw [(hin key hk).2.1, hnil, List.append_nil] at h2
      exact ⟨g, ⟨h2, h1⟩, h3⟩
  · constructor
    · intro df h
      obtain ⟨nd, h1, -, h2⟩ := (r1 df h).congr (hout key hk)
      unfold fileRows; rw [h1]; exact h2
    · intro h
      obtain ⟨g, h1, h2, h3⟩ := (r2 h).congr (hout key hk)
      have hna : ¬ IsAppended ops key := fun h => hk ((ho.2 key).2 (.inl h))
      rw [(hout key hk).2.1, run_dfList_nil c s0 key ops hna, List.append_nil] at h2
      exact ⟨g, ⟨h2, h1⟩, h3⟩

/-! ### the theorems -/

/-- C15, C24 for every history: whenever closing succeeds, each table that was replaced as a whole holds the frame given last, whatever was appended to it
before or after, and each other table holds the appended rows, in order, once. -/
theorem C24_every_history_partial (c : WCfg ρ) (ops : List (Op ρ ν)) (order : List String) (ho : IsOrder ops order) (s : Store ρ ν)
    (h : writeSession c ops order = .ok s) (key : String) :
    (∀ df, lastReplace ops key = some df → fileRows s key = df) ∧
      (¬ IsWritten ops key → ∃ groups, Cuts groups (framesAppended ops key) ∧ fileRows s key = (groups.map fun g => c.prep g.flatten).flatten) := by
  obtain ⟨m1, -⟩ := run_metadata c ([] : Store ρ ν) ops
  unfold writeSession finish at h
  rcases finishLoop_any c order (run c (WState.init []) ops) 0 ho.1 m1 with ⟨g1, st', t, g2, g3, g4, g5, g6⟩ | ⟨-, g2⟩
  · rw [g2] at h
    simp only [bind, Except.bind, pure, Except.pure, addMetadata] at h
    have hrow : fileRows s key = fileRows st'.store key := by
      cases h
      exact (saveMetadata_spec _ (metaUpdate_wf _ _ _ _ g3) st'.store).2.1 key
    obtain ⟨r1, r2⟩ := loop_rows c [] ops order ho st' g1 g4 g5 key
    refine ⟨fun df hd => by rw [hrow]; exact r1 df hd, fun hw => ?_⟩
    obtain ⟨g, hg, hr⟩ := r2 (by
      cases hl : lastReplace ops key with
      | none => rfl
      | some df => exact absurd ((lastReplace_isSome ops key).1 (by rw [hl]; rfl)) hw)
    exact ⟨g, hg, by rw [hrow, hr.1]; rfl⟩
  · rw [g2] at h
    cases h

/-- C15 for every history: whenever closing succeeds, a table that was never replaced as a whole holds exactly the appended rows. -/
theorem C15_every_history (mem : List ρ → Nat) (ops : List (Op ρ ν)) (order : List String) (ho : IsOrder ops order) (s : Store ρ ν)
    (h : writeSession { mem := mem, prep := id } ops order = .ok s) (key : String) (hw : ¬ IsWritten ops key) :
    fileRows s key = rowsAppended ops key := by
  obtain ⟨g, ⟨hg, -⟩, hr⟩ := (C24_every_history_partial _ ops order ho s h key).2 hw
  rw [hr, rowsAppended, ← hg]
  simp [List.flatten_flatten]

/-- rows of `key` that are neither in the file nor lost: the buffer -/
theorem pending_after (c : WCfg ρ) (hp : ∀ df, c.prep df = [] ↔ df = []) (st : WState ρ ν) (key : String) (post : List (Op ρ ν)) (df : List ρ)
    (hf : FixedAs df st key) :
    ((run c st post).dfList key).flatten = (st.dfList key).flatten ++ rowsAppended post key ∧ ∃ df', FixedAs df' (run c st post) key := by
  induction post using List.reverseRecOn with
  | nil => exact ⟨by simp [run, rowsAppended, framesAppended], df, hf⟩
  | append_singleton post op ih =>
    obtain ⟨i1, df', i2⟩ := ih
    rw [run_snoc]
    by_cases hw : OpWrites op key
    · have hna : rowsAppended (post ++ [op]) key = rowsAppended post key := by
        unfold rowsAppended
        rw [framesAppended_snoc]
        cases op with
        | append df k => exact absurd hw (by simp [OpWrites])
        | _ => simp
      rw [hna]
      cases op with
      | write k x =>
        have hk : k = key := hw
        subst hk
        obtain ⟨a, b⟩ := step_write_fixed c (run c st post) _ k x (.inl rfl)
        exact ⟨by rw [b]; exact i1, x, a⟩
      | addMapping m md =>
        have hk : key = "mapping" := hw
        subst hk
        obtain ⟨a, b⟩ := step_write_fixed c (run c st post) _ "mapping" m (.inr ⟨rfl, md, rfl⟩)
        exact ⟨by rw [b]; exact i1, m, a⟩
      | append x k => exact absurd hw (by simp [OpWrites])
      | addMetadata k n kv => exact absurd hw (by simp [OpWrites])
    · by_cases ha : OpAppends op key
      · cases op with
        | append x k =>
          have hk : k = key := ha
          subst hk
          refine ⟨?_, df', i2.append x⟩
          have hb : ((buffered c (run c st post) x k).dfList k).flatten = (st.dfList k).flatten ++ rowsAppended (post ++ [.append x k]) k := by
            unfold rowsAppended
            rw [framesAppended_snoc]
            simp only [buffered, fset, if_true, List.flatten_append, List.flatten_singleton]
            rw [i1, rowsAppended, List.append_assoc]
          rw [← hb]
          rcases append_cases c (run c st post) x k with h1 | h1
          · exact congrArg (fun s => (s.dfList k).flatten) h1
          · rw [show (step c (run c st post) (.append x k)).1 = (append c (run c st post) x k).1 from rfl, h1]
            have hfx : FixedAs df' (buffered c (run c st post) x k) k := i2
            obtain ⟨nd, n1, n2, -⟩ := hfx
            rcases flush_total c (buffered c (run c st post) x k) k with ⟨-, e, -⟩ | ⟨-, e, -, e'⟩
            · rw [e]
            · rw [e]
              rcases (e' nd n1 n2).2 with h | h
              · rw [h]
              · rw [(hp _).1 h]; rfl
        | _ => exact absurd ha (by simp [OpAppends])
      · have hs := step_untouched c (run c st post) op key hw ha
        have hna : rowsAppended (post ++ [op]) key = rowsAppended post key := by
          unfold rowsAppended
          rw [framesAppended_snoc]
          cases op with
          | append df k =>
            have : ¬ k = key := fun h => ha h
            simp [this]
          | _ => simp
        rw [hna, hs.2.1]
        exact ⟨i1, df', i2.congr hs⟩

/-- the calls that replace `key` as a whole -/
def Replaces (op : Op ρ ν) (key : String) : Prop := (∃ df, op = .write key df) ∨ (key = "mapping" ∧ ∃ m md, op = .addMapping m md)

theorem firstReplace (ops : List (Op ρ ν)) (key : String) (h : IsWritten ops key) :
    ∃ pre op post, ops = pre ++ op :: post ∧ Replaces op key ∧ ¬ IsWritten pre key := by
  induction ops using List.reverseRecOn with
  | nil => simp [IsWritten] at h
  | append_singleton ops op ih =>
    by_cases hw : IsWritten ops key
    · obtain ⟨pre, op', post, e, h1, h2⟩ := ih hw
      exact ⟨pre, op', post ++ [op], by rw [e]; simp, h1, h2⟩
    · rw [isWritten_snoc] at h
      refine ⟨ops, op, [], rfl, ?_, hw⟩
      rcases h with h | h
      · exact absurd h hw
      · cases op with
        | write k df => exact .inl ⟨df, by rw [show k = key from h]⟩
        | addMapping m md => exact .inr ⟨h, m, md, rfl⟩
        | _ => exact absurd h (by simp [OpWrites])

/-- C24, exactly when closing fails: some table was replaced as a whole while rows appended to it before were not in the file yet, or rows were appended to it
after it had been replaced. The error is `ValueError`. (`prep` is the preparation of frames, which for the writers of the library keeps the number of rows.) -/
theorem C24_exactly_partial (c : WCfg ρ) (hp : ∀ df, c.prep df = [] ↔ df = []) (ops : List (Op ρ ν)) (order : List String) (ho : IsOrder ops order) :
    (writeSession c ops order = .error .valueError ↔
      ∃ pre op post key, ops = pre ++ op :: post ∧ Replaces op key ∧ ¬ IsWritten pre key ∧
        (((run c (WState.init []) pre).dfList key).flatten ≠ [] ∨ rowsAppended post key ≠ [])) ∧
      ∀ e, writeSession c ops order = .error e → e = .valueError := by
  have main : ∀ pre op post key, ops = pre ++ op :: post → Replaces op key →
      ((run c (WState.init []) ops).dfList key).flatten = ((run c (WState.init []) pre).dfList key).flatten ++ rowsAppended post key ∧
        ∃ df, FixedAs df (run c (WState.init []) ops) key := by
    rintro pre op post key rfl hr
    obtain ⟨df, hdf⟩ : ∃ df, op = .write key df ∨ (key = "mapping" ∧ ∃ md, op = .addMapping df md) := by
      rcases hr with ⟨df, h⟩ | ⟨h, m, md, h'⟩
      · exact ⟨df, .inl h⟩
      · exact ⟨m, .inr ⟨h, md, h'⟩⟩
    obtain ⟨a, b⟩ := step_write_fixed c (run c (WState.init []) pre) op key df hdf
    have hrun : run c (WState.init []) (pre ++ op :: post) = run c (step c (run c (WState.init []) pre) op).1 post := by
      simp [run, List.foldl_append]
    rw [hrun, ← b]
    exact pending_after c hp _ key post df a
  obtain ⟨m1, -⟩ := run_metadata c ([] : Store ρ ν) ops
  have hcase := finishLoop_any c order (run c (WState.init []) ops) 0 ho.1 m1
  unfold writeSession finish
  constructor
  · constructor
    · intro h
      rcases hcase with ⟨-, st', t, g2, -⟩ | ⟨⟨key, hk, g1⟩, -⟩
      · rw [g2] at h
        simp only [bind, Except.bind, pure, Except.pure] at h
        cases h
      · rcases flush_total c (run c (WState.init []) ops) key with ⟨-, -, a3, a4, nd, a5, a6⟩ | ⟨a1, -⟩
        · have hw : IsWritten ops key := by
            by_contra hw
            have := (run_inv c [] key (appendable_nil key) ops hw).app nd a5
            rw [a6] at this
            cases this
          obtain ⟨pre, op, post, e, hr, hnw⟩ := firstReplace ops key hw
          refine ⟨pre, op, post, key, e, hr, hnw, ?_⟩
          have := (main pre op post key e hr).1
          by_contra hno
          push Not at hno
          rw [hno.1, hno.2, List.append_nil] at this
          exact a4 ((hp _).2 this)
        · exact absurd a1 g1
    · rintro ⟨pre, op, post, key, e, hr, -, hpend⟩
      obtain ⟨h1, df, nd, n1, n2, -⟩ := main pre op post key e hr
      have hne : ((run c (WState.init []) ops).dfList key).flatten ≠ [] := by
        rw [h1]
        intro h
        obtain ⟨x, y⟩ := List.append_eq_nil_iff.1 h
        rcases hpend with h | h
        · exact h x
        · exact h y
      have hk : key ∈ order := by
        refine (ho.2 key).2 (.inl ?_)
        by_contra hna
        rw [run_dfList_nil c [] key ops hna] at hne
        exact hne rfl
      rcases hcase with ⟨g1, -⟩ | ⟨-, g2⟩
      · rcases flush_total c (run c (WState.init []) ops) key with ⟨a1, -⟩ | ⟨-, -, -, a4⟩
        · rw [g1 key hk] at a1; cases a1
        · rcases (a4 nd n1 n2).2 with h | h
          · rw [h] at hne; exact absurd rfl hne
          · exact absurd ((hp _).1 h) hne
      · rw [g2]; rfl
  · intro e h
    rcases hcase with ⟨-, st', t, g2, -⟩ | ⟨-, g2⟩
    · rw [g2] at h
      simp only [bind, Except.bind, pure, Except.pure] at h
      cases h
    · rw [g2] at h
      cases h
      rfl

/-- C22 for every file and every history of an appender: whenever closing succeeds, each table that was replaced as a whole holds the frame given last, each
other table its old rows followed by the appended ones, and tables that received neither rows nor metadata are as they were. -/
theorem C22_every_history [DecidableEq ν] (mem : List ρ → Nat) (s : Store ρ ν) (ops : List (Op ρ ν)) (order : List String) (ho : IsOrder ops order)
    (s' : Store ρ ν) (h : appendSession { mem := mem, prep := id } s ops order = .ok s') (key : String) :
    (∀ df, lastReplace ops key = some df → fileRows s' key = df) ∧
      (¬ IsWritten ops key → fileRows s' key = fileRows s key ++ rowsAppended ops key) ∧
      (¬ IsWritten ops key → ¬ IsAppended ops key → key ≠ "data" → (∀ name, ¬ HasMeta ops key name) → Dict.get? s' key = Dict.get? s key) := by
  obtain ⟨m1, m2, m3, m4⟩ := run_metadata { mem := mem, prep := id } s ops
  unfold appendSession at h
  cases hr : openReader s with
  | error e => rw [hr] at h; cases h
  | ok r =>
    rw [hr] at h
    simp only [finishAppender, bind, Except.bind] at h
    split at h
    · cases h
    split at h
    · cases h
    rename_i tb _
    cases tb with
    | str x => cases h
    | obj x => cases h
    | int t0 =>
      simp only at h
      rcases finishLoop_any { mem := mem, prep := id } order (run { mem := mem, prep := id } (WState.init s) ops) t0 ho.1 m1 with
        ⟨g1, st', t, g2, g3, g4, g5, g6⟩ | ⟨-, g2⟩
      · rw [g2] at h
        simp only [pure, Except.pure, addMetadata] at h
        obtain ⟨q1, q2, -⟩ := saveMetadataMerge_spec _ (metaUpdate_wf st'.metadata "data" "metadata"
          [("total_bytes", .int t), ("version", .str version)] g3) st'.store
        have hs' : s' = saveMetadataMerge st'.store (metaUpdate st'.metadata "data" "metadata" [("total_bytes", .int t), ("version", .str version)]) := by
          cases h; rfl
        obtain ⟨r1, r2⟩ := loop_rows { mem := mem, prep := id } s ops order ho st' g1 g4 g5 key
        have hnone : ¬ IsWritten ops key → lastReplace ops key = none := by
          intro hw
          cases hl : lastReplace ops key with
          | none => rfl
          | some df => exact absurd ((lastReplace_isSome ops key).1 (by rw [hl]; rfl)) hw
        refine ⟨fun df hd => by rw [hs', q1]; exact r1 df hd, fun hw => ?_, fun hw ha hd hmeta => ?_⟩
        · obtain ⟨g, ⟨hg, -⟩, hrow, -⟩ := r2 (hnone hw)
          rw [hs', q1, hrow, rowsAppended, ← hg]
          simp [List.flatten_flatten]
        · have hk : key ∉ order := fun hk => by
            rcases (ho.2 key).1 hk with h | ⟨df, h⟩
            · exact ha h
            · exact hw (.inl ⟨df, h⟩)
          have hkm : key ∉ Dict.keys (metaUpdate st'.metadata "data" "metadata" [("total_bytes", .int t), ("version", .str version)]) := by
            unfold metaUpdate
            rw [Dict.mem_keys_set, g6, m4]
            rintro (h | h | ⟨n, kv, a, b, d⟩)
            · exact hd h
            · exact hk h
            · exact hmeta n ⟨a, b, kv, d⟩
          have hlw : lastWrite ops key = none := by
            rw [← Option.not_isSome_iff_eq_none, lastWrite_isSome]
            exact fun h => hw (.inl h)
          have hrun := run_written { mem := mem, prep := id } s key ops ha (fun hmk hmap => hw (.inr ⟨hmk, hmap⟩))
          rw [hlw] at hrun
          rw [hs', q2 key hkm, (g5 key hk).1]
          exact hrun.1
      · rw [g2] at h
        cases h

/-! ### examples -/

/-- rows are appended and flushed, then the table is overwritten: closing succeeds and the last frame is there -/
def mixedOps : List (Op Nat Unit) := [.append [1, 2] "data", .append [4] "other", .write "data" [9], .append [] "data", .write "data" [7, 8]]

theorem mixedOps_order : IsOrder mixedOps ["data", "other"] := by
  refine ⟨by decide, fun k => ?_⟩
  simp only [IsData, IsAppended, mixedOps, List.mem_cons, List.not_mem_nil, Op.append.injEq, Op.write.injEq, reduceCtorEq, or_false, false_or]
  grind

example : (writeSession { mem := fun df => 300000000 * df.length, prep := id } mixedOps ["data", "other"]).toOption.map
    (fun s => (fileRows s "data", fileRows s "other")) = some ([7, 8], [4]) ∧ lastReplace mixedOps "data" = some [7, 8] := by decide +kernel

/-- the same calls fail if frames are small, because the first rows are still in the buffer -/
example : writeSession { mem := fun df => df.length, prep := id } mixedOps ["data", "other"] = .error .valueError :=
  (C24_exactly_partial { mem := fun df : List Nat => df.length, prep := id } (fun _ => Iff.rfl) mixedOps _ mixedOps_order).1.2
    ⟨[.append [1, 2] "data", .append [4] "other"], .write "data" [9], [.append [] "data", .write "data" [7, 8]], "data", rfl, .inl ⟨[9], rfl⟩, by
      rintro (⟨df, h⟩ | ⟨h, -⟩)
      · simp at h
      · exact absurd h (by decide), .inl (by decide +kernel)⟩

/-- an appender on a file with tables of both formats -/
example : (appendSession { mem := fun df => 300000000 * df.length, prep := id }
      [("data", (⟨.table, [5], [("metadata", [("n_bytes", .int 3), ("total_bytes", .int 3)])]⟩ : Node Nat Unit)),
       ("old", ⟨.fixed, [6], [("metadata", [("n_bytes", .int 1)])]⟩)]
      [.append [1, 2] "data", .append [4] "other", .write "old" [9]] ["data", "other", "old"]).toOption.map
    (fun s => (fileRows s "data", fileRows s "other", fileRows s "old")) = some ([5, 1, 2], [4], [9]) := by decide +kernel

end Verif.Props
