import Verif.Model.Hdf5
import Verif.Py.DictLemmas

/-!
# The buffer of the HDF5 writer (C129)
-/

namespace Verif.Props

open Verif.Py Verif.Model

variable {ρ ν : Type}

/-- half a gigabyte -/
def halfGB : Nat := 500000000

/-- Specification: the frames waiting in memory for one key after a sequence of appended frames. A frame is put behind those waiting; once
half a gigabyte waits, nothing does. -/
def waiting (mem : List ρ → Nat) : List (List ρ) → List (List ρ) → List (List ρ)
  | acc, [] => acc
  | acc, df :: dfs => waiting mem (if ((acc ++ [df]).map mem).sum < halfGB then acc ++ [df] else []) dfs

/-- the frames appended to a key by a history -/
def framesOf (key : String) : List (Op ρ ν) → List (List ρ)
  | [] => []
  | .append df k :: ops => if k = key then df :: framesOf key ops else framesOf key ops
  | .write _ _ :: ops => framesOf key ops
  | .addMapping _ _ :: ops => framesOf key ops
  | .addMetadata _ _ _ :: ops => framesOf key ops

/-- no call of the history raises -/
def Quiet (c : WCfg ρ) : WState ρ ν → List (Op ρ ν) → Prop
  | _, [] => True
  | st, op :: ops => (step c st op).2 = none ∧ Quiet c (step c st op).1 ops

theorem fset_self {β : Type} (f : String → β) (k : String) (v : β) : fset f k v k = v := by simp [fset]

theorem fset_ne {β : Type} (f : String → β) (k k' : String) (v : β) (h : k' ≠ k) : fset f k v k' = f k' := by simp [fset, h]

theorem run_cons' (c : WCfg ρ) (st : WState ρ ν) (op : Op ρ ν) (ops : List (Op ρ ν)) : run c st (op :: ops) = run c (step c st op).1 ops := rfl

/-- the count of bytes belongs to the frames waiting -/
def BytesCounted (c : WCfg ρ) (st : WState ρ ν) : Prop := ∀ key, st.dfListNBytes key = ((st.dfList key).map c.mem).sum

theorem flush_counted (c : WCfg ρ) (st : WState ρ ν) (h : BytesCounted c st) (key : String) : BytesCounted c (flush c st key).1 := by
  intro k
  unfold flush
  split
  · exact h k
  · simp only
    split
    · exact h k
    · by_cases hk : k = key
      · subst hk
        simp [fset_self]
      · simp only [fset_ne _ _ _ _ hk]
        exact h k

theorem append_counted (c : WCfg ρ) (st : WState ρ ν) (h : BytesCounted c st) (df : List ρ) (key : String) : BytesCounted c (append c st df key).1 := by
  have hc : BytesCounted c { st with
      keys := addKey st.keys key
      dfList := fset st.dfList key (st.dfList key ++ [df])
      dfListNBytes := fset st.dfListNBytes key (st.dfListNBytes key + c.mem df) } := by
    intro k
    by_cases hk : k = key
    · subst hk
      simp [fset_self, h k]
    · simp only [fset_ne _ _ _ _ hk]
      exact h k
  unfold append
  simp only
  split
  · exact flush_counted c _ hc key
  · exact hc

theorem step_counted (c : WCfg ρ) (st : WState ρ ν) (h : BytesCounted c st) (op : Op ρ ν) : BytesCounted c (step c st op).1 := by
  cases op with
  | append df key => exact append_counted c st h df key
  | write key df => exact h
  | addMapping m md => exact h
  | addMetadata key name kv =>
    unfold step addMetadata
    simp only
    split <;> exact h

theorem run_counted (c : WCfg ρ) (ops : List (Op ρ ν)) : ∀ st : WState ρ ν, BytesCounted c st → BytesCounted c (run c st ops) := by
  induction ops with
  | nil => exact fun st h => h
  | cons op ops ih => exact fun st h => ih _ (step_counted c st h op)

/-- **C129**, in every history, also one with exceptions: the number of bytes the writer counts for a key is the memory of the frames waiting -/
theorem C129_count (c : WCfg ρ) (s : Store ρ ν) (ops : List (Op ρ ν)) (key : String) :
    (run c (WState.init s) ops).dfListNBytes key = (((run c (WState.init s) ops).dfList key).map c.mem).sum :=
  run_counted c ops _ (fun _ => rfl) key

/-- one appended frame, without exception -/
theorem append_waiting (c : WCfg ρ) (st : WState ρ ν) (h : BytesCounted c st) (df : List ρ) (key : String) (hq : (append c st df key).2 = none) :
    (append c st df key).1.dfList key =
      (if ((st.dfList key ++ [df]).map c.mem).sum < halfGB then st.dfList key ++ [df] else []) ∧
    ∀ k, k ≠ key → (append c st df key).1.dfList k = st.dfList k := by
  have hs : st.dfListNBytes key + c.mem df = ((st.dfList key ++ [df]).map c.mem).sum := by simp [h key]
  unfold append at hq ⊢
  simp only [fset_self] at hq ⊢
  by_cases ht : st.dfListNBytes key + c.mem df ≥ flushThreshold
  · have hn : ¬ ((st.dfList key ++ [df]).map c.mem).sum < halfGB := by
      rw [← hs]; unfold flushThreshold at ht; unfold halfGB; omega
    rw [if_pos ht] at hq ⊢
    rw [if_neg hn]
    unfold flush at hq ⊢
    simp only [fset_self] at hq ⊢
    rw [if_neg (by simp)] at hq ⊢
    split at hq
    · cases hq
    · rename_i heq
      simp only [heq]
      refine ⟨by simp [fset_self], fun k hk => by simp [fset_ne _ _ _ _ hk]⟩
  · have hn : ((st.dfList key ++ [df]).map c.mem).sum < halfGB := by
      rw [← hs]; unfold flushThreshold at ht; unfold halfGB; omega
    rw [if_neg ht, if_pos hn]
    exact ⟨by simp [fset_self], fun k hk => by simp [fset_ne _ _ _ _ hk]⟩

theorem run_waiting (c : WCfg ρ) (key : String) (ops : List (Op ρ ν)) : ∀ st : WState ρ ν, BytesCounted c st → Quiet c st ops →
    (run c st ops).dfList key = waiting c.mem (st.dfList key) (framesOf key ops) := by
  induction ops with
  | nil => exact fun st _ _ => rfl
  | cons op ops ih =>
    intro st h hq
    obtain ⟨h1, h2⟩ := hq
    rw [run_cons', ih _ (step_counted c st h op) h2]
    cases op with
    | append df k =>
      obtain ⟨ha, hb⟩ := append_waiting c st h df k h1
      by_cases hk : k = key
      · subst hk
        show waiting c.mem ((append c st df k).1.dfList k) _ = _
        rw [ha]
        simp only [framesOf, if_pos, waiting]
      · show waiting c.mem ((append c st df k).1.dfList key) _ = _
        rw [hb key (Ne.symm hk)]
        simp only [framesOf, if_neg hk]
    | write k df => rfl
    | addMapping m md => rfl
    | addMetadata k name kv =>
      have : (addMetadata st k name kv).1.dfList key = st.dfList key := by
        unfold addMetadata; split <;> rfl
      show waiting c.mem ((addMetadata st k name kv).1.dfList key) _ = _
      rw [this]
      rfl

/-- **C129**, which frames wait: those appended since half a gigabyte was last reached, separately for every key -/
theorem C129_waiting (c : WCfg ρ) (s : Store ρ ν) (ops : List (Op ρ ν)) (hq : Quiet c (WState.init s) ops) (key : String) :
    (run c (WState.init s) ops).dfList key = waiting c.mem [] (framesOf key ops) :=
  run_waiting c key ops _ (fun _ => rfl) hq

theorem waiting_bound (mem : List ρ → Nat) (dfs : List (List ρ)) : ∀ acc, (acc.map mem).sum < halfGB → ((waiting mem acc dfs).map mem).sum < halfGB := by
  induction dfs with
  | nil => exact fun acc h => h
  | cons df dfs ih =>
    intro acc h
    unfold waiting
    apply ih
    split
    · assumption
    · unfold halfGB; simp

/-- **C129**, memory: after every call of a history without exceptions less than half a gigabyte waits for each key -/
theorem C129_bound (c : WCfg ρ) (s : Store ρ ν) (ops : List (Op ρ ν)) (hq : Quiet c (WState.init s) ops) (key : String) :
    (((run c (WState.init s) ops).dfList key).map c.mem).sum < halfGB := by
  rw [C129_waiting c s ops hq key]
  exact waiting_bound c.mem _ [] (by unfold halfGB; simp)

/-- **C129**, a frame that stays under half a gigabyte is not yet written: the file is as before -/
theorem C129_under (c : WCfg ρ) (s : Store ρ ν) (ops : List (Op ρ ν)) (df : List ρ) (key : String)
    (h : (((run c (WState.init s) ops).dfList key).map c.mem).sum + c.mem df < halfGB) :
    ∃ st', append c (run c (WState.init s) ops) df key = (st', none) ∧ st'.store = (run c (WState.init s) ops).store := by
  rw [← C129_count] at h
  unfold append
  simp only [fset_self]
  rw [if_neg (by unfold flushThreshold; unfold halfGB at h; omega)]
  exact ⟨_, rfl, rfl⟩

/-- **C129**, when writing to the file fails, it is with `ValueError`, the file is as before and the frames are still waiting, the new one behind the others -/
theorem C129_failed (c : WCfg ρ) (st st' : WState ρ ν) (df : List ρ) (key : String) (e : Err) (h : append c st df key = (st', some e)) :
    e = .valueError ∧ st'.store = st.store ∧ st'.dfList key = st.dfList key ++ [df] := by
  unfold append at h
  simp only [fset_self] at h
  split at h
  · unfold flush at h
    simp only [fset_self] at h
    rw [if_neg (by simp)] at h
    split at h
    · rename_i e' heq
      obtain ⟨rfl, he⟩ := Prod.mk.inj h
      obtain rfl := Option.some.inj he
      refine ⟨?_, rfl, by simp [fset_self]⟩
      unfold Store.append at heq
      split at heq
      · cases heq
      · split at heq
        · cases heq
        · split at heq
          · cases heq
          · exact (Except.error.inj heq).symm
    · cases h
  · cases h

/-! ### What is on the disk -/

/-- the rows of a key in the file -/
def onDisk (s : Store ρ ν) (key : String) : List ρ := ((Dict.get? s key).map (·.rows)).getD []

/-- the history touches the key only by appending -/
def OnlyAppends (key : String) (op : Op ρ ν) : Prop :=
  match op with
  | .append _ _ => True
  | .write k _ => k ≠ key
  | .addMapping _ _ => key ≠ "mapping"
  | .addMetadata _ _ _ => True

theorem store_append_rows (s s' : Store ρ ν) (key : String) (df : List ρ) (h : Store.append s key df = .ok s') :
    onDisk s' key = onDisk s key ++ df ∧ ∀ k, k ≠ key → onDisk s' k = onDisk s k := by
  unfold Store.append at h
  split at h
  · rename_i he
    obtain rfl := Except.ok.inj h
    have : df = [] := by simpa using he
    subst this
    simp
  · split at h
    · rename_i hn
      obtain rfl := Except.ok.inj h
      unfold onDisk
      refine ⟨by rw [Dict.get?_set_self, hn]; rfl, fun k hk => by rw [Dict.get?_set_ne _ _ (Ne.symm hk)]⟩
    · rename_i nd hn
      split at h
      · obtain rfl := Except.ok.inj h
        unfold onDisk
        refine ⟨by rw [Dict.get?_set_self, hn]; rfl, fun k hk => by rw [Dict.get?_set_ne _ _ (Ne.symm hk)]⟩
      · cases h

theorem append_disk (c : WCfg ρ) (hp : ∀ df, c.prep df = df) (st : WState ρ ν) (df : List ρ) (k key : String) :
    onDisk (append c st df k).1.store key ++ ((append c st df k).1.dfList key).flatten =
      onDisk st.store key ++ (st.dfList key).flatten ++ (if k = key then df else []) := by
  unfold append
  simp only [fset_self]
  split
  · unfold flush
    simp only [fset_self]
    rw [if_neg (by simp)]
    split
    · by_cases hk : key = k
      · subst hk; simp [fset_self]
      · simp [fset_ne _ _ _ _ hk, Ne.symm hk]
    · rename_i s' heq
      obtain ⟨h1, h2⟩ := store_append_rows _ _ _ _ heq
      by_cases hk : key = k
      · subst hk
        simp only [fset_self, h1, hp]
        simp
      · simp only [fset_ne _ _ _ _ hk, h2 key hk, if_neg (Ne.symm hk)]
        simp
  · by_cases hk : key = k
    · subst hk; simp [fset_self]
    · simp [fset_ne _ _ _ _ hk, Ne.symm hk]

/-- **C129**, nothing is lost or doubled on the way: at every moment of every history, also one with exceptions, the rows of a key in the file followed by those waiting are
the rows that were in the file at the start followed by all that were appended, in order (for a writer that does not prepare its frames) -/
theorem C129_nothing_lost (c : WCfg ρ) (hp : ∀ df, c.prep df = df) (s : Store ρ ν) (ops : List (Op ρ ν)) (key : String)
    (ho : ∀ op ∈ ops, OnlyAppends key op) :
    onDisk (run c (WState.init s) ops).store key ++ ((run c (WState.init s) ops).dfList key).flatten = onDisk s key ++ (framesOf key ops).flatten := by
  have : ∀ (ops : List (Op ρ ν)) (st : WState ρ ν), (∀ op ∈ ops, OnlyAppends key op) →
      onDisk (run c st ops).store key ++ ((run c st ops).dfList key).flatten =
        onDisk st.store key ++ (st.dfList key).flatten ++ (framesOf key ops).flatten := by
    intro ops
    induction ops with
    | nil => intro st _; simp [run, framesOf]
    | cons op ops ih =>
      intro st ho
      rw [run_cons', ih _ (fun op hop => ho op (by simp [hop]))]
      have ho1 := ho op (by simp)
      cases op with
      | append df k =>
        show onDisk (append c st df k).1.store key ++ ((append c st df k).1.dfList key).flatten ++ _ = _
        rw [append_disk c hp]
        by_cases hk : k = key
        · simp [framesOf, hk]
        · simp [framesOf, hk]
      | write k df =>
        have hk : k ≠ key := ho1
        show onDisk (Store.put st.store k df) key ++ (st.dfList key).flatten ++ _ = _
        unfold Store.put onDisk
        rw [Dict.get?_set_ne _ _ hk]
        rfl
      | addMapping m md =>
        have hk : key ≠ "mapping" := ho1
        show onDisk (Store.setAttr (Store.put st.store "mapping" m) "mapping" "metadata" md) key ++ (st.dfList key).flatten ++ _ = _
        unfold Store.put Store.setAttr onDisk
        rw [Dict.get?_set_self]
        simp only
        rw [Dict.get?_set_ne _ _ (Ne.symm hk), Dict.get?_set_ne _ _ (Ne.symm hk)]
        rfl
      | addMetadata k name kv =>
        have h1 : (addMetadata st k name kv).1.dfList key = st.dfList key := by
          unfold addMetadata; split <;> rfl
        have h2 : (addMetadata st k name kv).1.store = st.store := by
          unfold addMetadata; split <;> rfl
        show onDisk (addMetadata st k name kv).1.store key ++ ((addMetadata st k name kv).1.dfList key).flatten ++ _ = _
        rw [h1, h2]
        rfl
  rw [this ops _ ho]
  simp [WState.init]

/-- a writer whose rows take 200 MB each: two rows wait, the third sends all to the file, a fourth waits again -/
example :
    let c : WCfg Nat := { mem := fun df => 200000000 * df.length, prep := id }
    let st : WState Nat Unit := run c (WState.init []) [.append [1, 2] "data", .append [7] "pointing", .append [3] "data", .append [4] "data"]
    Quiet c (WState.init [] : WState Nat Unit) [.append [1, 2] "data", .append [7] "pointing", .append [3] "data", .append [4] "data"] ∧
    st.dfList "data" = [[4]] ∧ st.dfList "pointing" = [[7]] ∧ st.dfListNBytes "data" = 200000000 ∧
    onDisk st.store "data" = [1, 2, 3] ∧ onDisk st.store "pointing" = [] := by
  refine ⟨⟨rfl, rfl, rfl, rfl, trivial⟩, ?_⟩
  decide +kernel

/-- appending to a table that was written as a whole: the frames stay and go on growing over half a gigabyte -/
example :
    let c : WCfg Nat := { mem := fun df => 600000000 * df.length, prep := id }
    let st : WState Nat Unit := run c (WState.init []) [.write "data" [9], .append [1] "data", .append [2] "data"]
    (append c st [3] "data").2 = some .valueError ∧ (append c st [3] "data").1.dfList "data" = [[1], [2], [3]] ∧
    onDisk (append c st [3] "data").1.store "data" = [9] ∧ halfGB ≤ st.dfListNBytes "data" := by
  decide +kernel

end Verif.Props
