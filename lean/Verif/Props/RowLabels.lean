import Verif.Model.RowLabels
import Verif.Props.WriterBuffer
import Verif.Props.Hdf5Mixed
import Verif.Lemmas.Dl1

/-!
# C179: row labels

What the labels of the rows of a table are, when a label names one row, and what access by label gives.
-/

namespace Verif.Props

open Verif.Py Verif.Model Verif.Spec Verif.Lemmas

variable {ρ ν α β : Type}

/-- Specification: the frames written together so far, and those that wait: once half a gigabyte waits, it is written -/
def schedule (mem : List ρ → Nat) (frames : List (List ρ)) : List (List (List ρ)) × List (List ρ) :=
  frames.foldl (fun p df => if ((p.2 ++ [df]).map mem).sum < halfGB then (p.1, p.2 ++ [df]) else (p.1 ++ [p.2 ++ [df]], [])) ([], [])

/-- Specification: the frames written together; those that wait at the end are written when the file is closed -/
def batches (mem : List ρ → Nat) (frames : List (List ρ)) : List (List (List ρ)) :=
  (schedule mem frames).1 ++ (if (schedule mem frames).2 = [] then [] else [(schedule mem frames).2])

theorem schedule_snoc (mem : List ρ → Nat) (frames : List (List ρ)) (df : List ρ) :
    schedule mem (frames ++ [df]) = (if (((schedule mem frames).2 ++ [df]).map mem).sum < halfGB then ((schedule mem frames).1, (schedule mem frames).2 ++ [df])
      else ((schedule mem frames).1 ++ [(schedule mem frames).2 ++ [df]], [])) := by
  simp [schedule, List.foldl_append]

/-- one table so far -/
def OnSchedule (c : WCfg ρ) (frames : List (List ρ)) (st : WState ρ ν) (key : String) : Prop :=
  st.dfList key = (schedule c.mem frames).2 ∧ fileRows st.store key = ((schedule c.mem frames).1.map fun b => c.prep b.flatten).flatten ∧
    ∀ nd, Dict.get? st.store key = some nd → nd.fmt = .table

theorem flush_table (c : WCfg ρ) (st : WState ρ ν) (key : String) (h : ∀ nd, Dict.get? st.store key = some nd → nd.fmt = .table) :
    ∀ nd, Dict.get? (flush c st key).1.store key = some nd → nd.fmt = .table := by
  unfold flush
  split
  · exact h
  · simp only
    cases ha : Store.append st.store key (c.prep (st.dfList key).flatten) with
    | error e => exact h
    | ok s' =>
      simp only
      unfold Store.append at ha
      split at ha
      · cases ha; exact h
      · split at ha
        · cases ha
          intro nd hn
          rw [Dict.get?_set_self] at hn
          cases hn; rfl
        · rename_i nd hnd
          split at ha
          · rename_i hf
            cases ha
            intro nd' hn
            rw [Dict.get?_set_self] at hn
            cases hn; exact hf
          · cases ha

theorem step_onSchedule (c : WCfg ρ) (frames : List (List ρ)) (st : WState ρ ν) (key : String) (df : List ρ) (hb : BytesCounted c st)
    (h : OnSchedule c frames st key) : OnSchedule c (frames ++ [df]) (append c st df key).1 key := by
  obtain ⟨h1, h2, h3⟩ := h
  have hs : st.dfListNBytes key + c.mem df = ((st.dfList key ++ [df]).map c.mem).sum := by simp [hb key]
  unfold OnSchedule
  rw [schedule_snoc, ← h1, ← hs]
  have hn : (buffered c st df key).dfListNBytes key = st.dfListNBytes key + c.mem df := fset_self _ _ _
  have hl : (buffered c st df key).dfList key = st.dfList key ++ [df] := fset_self _ _ _
  have happ : append c st df key = if st.dfListNBytes key + c.mem df ≥ flushThreshold then flush c (buffered c st df key) key else (buffered c st df key, none) := by
    rw [← hn]; rfl
  rw [happ]
  by_cases ht : st.dfListNBytes key + c.mem df ≥ flushThreshold
  · rw [if_pos ht, if_neg (by unfold flushThreshold at ht; unfold halfGB; omega)]
    rcases flush_total c (buffered c st df key) key with ⟨-, -, -, -, nd, g1, g2⟩ | ⟨-, g1, g2, -⟩
    · exact absurd (h3 nd g1) (by rw [g2]; simp)
    · refine ⟨g1, ?_, flush_table c _ key h3⟩
      rw [g2, hl, if_neg (by simp)]
      have : fileRows (buffered c st df key).store key = fileRows st.store key := rfl
      rw [this, h2]
      simp
  · rw [if_neg ht, if_pos (by unfold flushThreshold at ht; unfold halfGB; omega)]
    exact ⟨hl, h2, h3⟩

theorem run_onSchedule (c : WCfg ρ) (ops : List (Op ρ ν)) (key : String) (hw : ¬ IsWritten ops key) :
    OnSchedule c (framesAppended ops key) (run c (WState.init []) ops) key := by
  induction ops using List.reverseRecOn with
  | nil => exact ⟨rfl, rfl, fun nd h => by simp [run, WState.init, Dict.get?] at h⟩
  | append_singleton ops op ih =>
    rw [isWritten_snoc] at hw
    push Not at hw
    have i := ih hw.1
    rw [run_snoc, framesAppended_snoc]
    by_cases ha : OpAppends op key
    · cases op with
      | append df k =>
        have hk : k = key := ha
        subst hk
        simp only [if_true]
        exact step_onSchedule c _ _ k df (run_counted c ops _ (fun _ => rfl)) i
      | _ => exact absurd ha (by simp [OpAppends])
    · have hs := step_untouched c (run c (WState.init []) ops) op key hw.2 ha
      have hfr : (match op with
        | .append df k => if k = key then [df] else []
        | _ => []) = ([] : List (List ρ)) := by
        cases op with
        | append df k =>
          have : ¬ k = key := fun h => ha h
          simp [this]
        | _ => rfl
      obtain ⟨i1, i2, i3⟩ := i
      refine ⟨?_, ?_, ?_⟩
      · rw [hs.2.1, i1]; cases op <;> simp_all
      · unfold fileRows at i2 ⊢; rw [hs.1, i2]; cases op <;> simp_all
      · rw [hs.1]; exact i3

/-- **C179**, the content of a table of a closed file, for every history: the frames are joined, prepared and written in batches; a batch ends with the frame
with which half a gigabyte is reached, or with the file -/
theorem C179_schedule (c : WCfg ρ) (ops : List (Op ρ ν)) (order : List String) (ho : IsOrder ops order) (s : Store ρ ν)
    (h : writeSession c ops order = .ok s) (key : String) (hw : ¬ IsWritten ops key) :
    fileRows s key = ((batches c.mem (framesAppended ops key)).map fun b => c.prep b.flatten).flatten := by
  obtain ⟨i1, i2, i3⟩ := run_onSchedule c ops key hw
  obtain ⟨m1, -⟩ := run_metadata c ([] : Store ρ ν) ops
  unfold writeSession finish at h
  rcases finishLoop_any c order (run c (WState.init []) ops) 0 ho.1 m1 with ⟨g1, st', t, g2, g3, g4, g5, g6⟩ | ⟨-, g2⟩
  · rw [g2] at h
    simp only [bind, Except.bind, pure, Except.pure, addMetadata] at h
    have hrow : fileRows s key = fileRows st'.store key := by
      cases h
      exact (saveMetadata_spec _ (metaUpdate_wf _ _ _ _ g3) st'.store).2.1 key
    rw [hrow]
    unfold batches
    by_cases hk : key ∈ order
    · have e : fileRows st'.store key = fileRows (flush c (run c (WState.init []) ops) key).1.store key := by
        unfold fileRows; rw [(g4 key hk).1]
      rw [e]
      rcases flush_total c (run c (WState.init []) ops) key with ⟨f1, -⟩ | ⟨-, -, f2, -⟩
      · rw [g1 key hk] at f1; cases f1
      · rw [f2, i2, i1]
        split <;> simp
    · have hna : ¬ IsAppended ops key := fun h => hk ((ho.2 key).2 (.inl h))
      have hnil := run_dfList_nil c [] key ops hna
      have e : fileRows st'.store key = fileRows (run c (WState.init []) ops).store key := by
        unfold fileRows; rw [(g5 key hk).1]
      rw [e, i2, ← i1, hnil]
      simp
  · rw [g2] at h
    cases h

theorem schedule_flatten (mem : List ρ → Nat) (frames : List (List ρ)) :
    (schedule mem frames).1.flatten ++ (schedule mem frames).2 = frames ∧ ∀ b ∈ (schedule mem frames).1, b ≠ [] := by
  induction frames using List.reverseRecOn with
  | nil => exact ⟨rfl, by simp [schedule]⟩
  | append_singleton frames df ih =>
    rw [schedule_snoc]
    split
    · exact ⟨by simp only; rw [← List.append_assoc, ih.1], ih.2⟩
    · refine ⟨by simp only [List.flatten_append, List.flatten_cons, List.flatten_nil, List.append_nil]; rw [← List.append_assoc, ih.1], ?_⟩
      intro b hb
      rcases List.mem_append.1 hb with hb | hb
      · exact ih.2 b hb
      · rw [List.mem_singleton.1 hb]; simp

/-- the batches cut the frames into consecutive groups -/
theorem batches_cut (mem : List ρ → Nat) (frames : List (List ρ)) : Cuts (batches mem frames) frames := by
  obtain ⟨h1, h2⟩ := schedule_flatten mem frames
  unfold batches
  split
  · rename_i h
    rw [h, List.append_nil] at h1
    exact ⟨by simpa using h1, by simpa using h2⟩
  · rename_i h
    refine ⟨by simpa using h1, ?_⟩
    intro b hb
    rcases List.mem_append.1 hb with hb | hb
    · exact h2 b hb
    · rw [List.mem_singleton.1 hb]; exact h

/-- less than half a gigabyte is written at once -/
theorem batches_small (mem : List ρ → Nat) (frames : List (List ρ)) (h : (frames.map mem).sum < halfGB) :
    batches mem frames = if frames = [] then [] else [frames] := by
  have : schedule mem frames = ([], frames) := by
    induction frames using List.reverseRecOn with
    | nil => rfl
    | append_singleton frames df ih =>
      rw [schedule_snoc, ih (by simp only [List.map_append, List.sum_append] at h; omega)]
      rw [if_pos h]
  unfold batches
  rw [this]
  simp

/-! ### rows of a label -/

theorem filter_label (i : Nat) (l : List (LRow ρ)) : ∀ s, l.map LRow.label = List.range' s l.length →
    l.filter (fun r => r.label = i) = (if s ≤ i then l[i - s]? else none).toList := by
  induction l with
  | nil => intro s _; simp
  | cons a l ih =>
    intro s h
    simp only [List.map_cons, List.length_cons, List.range'_succ, List.cons.injEq] at h
    rw [List.filter_cons, ih (s + 1) h.2]
    by_cases h1 : s = i
    · subst h1
      rw [if_pos (by simp [h.1]), if_neg (by omega)]
      simp
    · rw [if_neg (by rw [h.1]; simpa using h1)]
      by_cases h2 : s ≤ i
      · rw [if_pos h2, if_pos (by omega), show i - s = (i - (s + 1)) + 1 by omega, List.getElem?_cons_succ]
      · rw [if_neg h2, if_neg (by omega)]

theorem relabel_labels (df : List (LRow ρ)) : (relabel df).map LRow.label = List.range' 0 df.length := by
  unfold relabel
  rw [List.map_map]
  have : (LRow.label ∘ fun p : LRow ρ × Nat => (⟨p.2, p.1.row⟩ : LRow ρ)) = Prod.snd := rfl
  rw [this, List.zipIdx_map_snd]

theorem relabel_length (df : List (LRow ρ)) : (relabel df).length = df.length := by simp [relabel]

theorem relabel_filter (df : List (LRow ρ)) (i : Nat) :
    (relabel df).filter (fun r => r.label = i) = (df[i]?.map fun r => (⟨i, r.row⟩ : LRow ρ)).toList := by
  rw [filter_label i _ 0 (by rw [relabel_labels, relabel_length])]
  simp only [Nat.zero_le, if_true, Nat.sub_zero, relabel, List.getElem?_map, List.getElem?_zipIdx, Nat.zero_add]
  cases df[i]? <;> rfl

theorem dl1Label_perm (castVals : β → β) (mem : List (LRow (DRow β)) → Nat) (df : List (LRow (DRow β))) :
    ((labelDl1Writer castVals mem).prep df).Perm ((relabel df).map fun r => ⟨r.label, castRow castVals r.row⟩) := by
  unfold labelDl1Writer
  simp only
  split
  · exact List.mergeSort_perm _ _
  · exact List.Perm.refl _

theorem dl1Label_filter (castVals : β → β) (mem : List (LRow (DRow β)) → Nat) (df : List (LRow (DRow β))) (i : Nat) :
    ((labelDl1Writer castVals mem).prep df).filter (fun r => r.label = i) =
      (df[i]?.map fun r => (⟨i, castRow castVals r.row⟩ : LRow (DRow β))).toList := by
  have h := (dl1Label_perm castVals mem df).filter (fun r => decide (r.label = i))
  rw [List.filter_map] at h
  have : ((fun r : LRow (DRow β) => decide (r.label = i)) ∘ fun r : LRow (DRow β) => (⟨r.label, castRow castVals r.row⟩ : LRow (DRow β))) = fun r : LRow (DRow β) => decide (r.label = i) := rfl
  rw [this, relabel_filter] at h
  cases hd : df[i]? with
  | none => rw [hd] at h; exact List.perm_nil.1 h
  | some x => rw [hd] at h; exact List.perm_singleton.1 h

/-- rows by label in a table of several parts -/
theorem locRows_parts (parts : List (List (LRow ρ))) (pick : List (LRow ρ) → Option (LRow ρ)) (i : Nat)
    (h : ∀ p ∈ parts, p.filter (fun r => r.label = i) = (pick p).toList) :
    locRows parts.flatten [i] = if parts.all fun p => (pick p).isNone then .error .keyError else .ok (parts.filterMap pick) := by
  have e : parts.flatten.filter (fun r => r.label = i) = parts.filterMap pick := by
    induction parts with
    | nil => rfl
    | cons p parts ih =>
      rw [List.flatten_cons, List.filter_append, h p (by simp), ih (fun q hq => h q (List.mem_cons_of_mem _ hq)), List.filterMap_cons]
      cases pick p <;> rfl
  unfold locRows
  have e2 : (parts.flatten.any fun r => decide (r.label = i)) = !(parts.all fun p => (pick p).isNone) := by
    rw [Bool.eq_iff_iff]
    have : (parts.flatten.any fun r => decide (r.label = i)) = true ↔ parts.flatten.filter (fun r => r.label = i) ≠ [] := by
      simp [List.filter_eq_nil_iff]
    rw [this, e]
    simp [List.filterMap_eq_nil_iff]
  simp only [List.all_cons, List.all_nil, Bool.and_true, e2, List.flatMap_cons, List.flatMap_nil, List.append_nil, e]
  cases (parts.all fun p => (pick p).isNone) <;> rfl

/-- **C179**, what is true: `df.loc[[i]]` of a table of `HDF5Writer` gives row `i` of every batch that has one, not row `i` of the table -/
theorem C179_loc_partial (mem : List (LRow ρ) → Nat) (ops : List (Op (LRow ρ) ν)) (order : List String) (ho : IsOrder ops order) (s : Store (LRow ρ) ν)
    (h : writeSession (labelWriter mem) ops order = .ok s) (key : String) (hw : ¬ IsWritten ops key) (i : Nat) :
    locRows (fileRows s key) [i] =
      if (batches mem (framesAppended ops key)).all fun b => b.flatten.length ≤ i then .error .keyError
      else .ok ((batches mem (framesAppended ops key)).filterMap fun b => b.flatten[i]?.map fun r => ⟨i, r.row⟩) := by
  rw [C179_schedule _ ops order ho s h key hw]
  rw [locRows_parts _ (fun p => p[i]?) i (by
    intro p hp
    obtain ⟨b, -, rfl⟩ := List.mem_map.1 hp
    show (relabel _).filter _ = _
    rw [filter_label i _ 0 (by rw [relabel_labels, relabel_length])]
    rfl)]
  rw [List.all_map, List.filterMap_map]
  have e1 : ((fun p : List (LRow ρ) => p[i]?.isNone) ∘ fun b : List (List (LRow ρ)) => (labelWriter mem).prep b.flatten) = fun b => decide (b.flatten.length ≤ i) := by
    funext b
    show (relabel b.flatten)[i]?.isNone = _
    rw [Bool.eq_iff_iff]
    simp [relabel]
  have e2 : ((fun p : List (LRow ρ) => p[i]?) ∘ fun b : List (List (LRow ρ)) => (labelWriter mem).prep b.flatten) = fun b => b.flatten[i]?.map fun r => ⟨i, r.row⟩ := by
    funext b
    show (relabel b.flatten)[i]? = _
    simp only [relabel, List.getElem?_map, List.getElem?_zipIdx, Nat.zero_add]
    cases b.flatten[i]? <;> rfl
  rw [e1, e2]
  rfl

/-- **C179**, the same for `DL1Writer`: row `i` in the order of the appended frames, wherever sorting put it -/
theorem C179_loc_dl1_partial (castVals : β → β) (mem : List (LRow (DRow β)) → Nat) (ops : List (Op (LRow (DRow β)) ν)) (order : List String)
    (ho : IsOrder ops order) (s : Store (LRow (DRow β)) ν) (h : writeSession (labelDl1Writer castVals mem) ops order = .ok s) (key : String)
    (hw : ¬ IsWritten ops key) (i : Nat) :
    locRows (fileRows s key) [i] =
      if (batches mem (framesAppended ops key)).all fun b => b.flatten.length ≤ i then .error .keyError
      else .ok ((batches mem (framesAppended ops key)).filterMap fun b => b.flatten[i]?.map fun r => ⟨i, castRow castVals r.row⟩) := by
  rw [C179_schedule _ ops order ho s h key hw]
  have hf : ∀ b : List (List (LRow (DRow β))), ((labelDl1Writer castVals mem).prep b.flatten).find? (fun r => r.label = i) =
      b.flatten[i]?.map fun r => ⟨i, castRow castVals r.row⟩ := by
    intro b
    rw [← List.head?_filter, dl1Label_filter]
    cases b.flatten[i]? <;> rfl
  rw [locRows_parts _ (fun p => p.find? fun r => r.label = i) i (by
    intro p hp
    obtain ⟨b, -, rfl⟩ := List.mem_map.1 hp
    rw [dl1Label_filter, hf])]
  rw [List.all_map, List.filterMap_map]
  have e1 : ((fun p : List (LRow (DRow β)) => (p.find? fun r => r.label = i).isNone) ∘ fun b : List (List (LRow (DRow β))) => (labelDl1Writer castVals mem).prep b.flatten) =
      fun b => decide (b.flatten.length ≤ i) := by
    funext b
    simp only [Function.comp, hf]
    rw [Bool.eq_iff_iff]
    simp
  have e2 : ((fun p : List (LRow (DRow β)) => p.find? fun r => r.label = i) ∘ fun b : List (List (LRow (DRow β))) => (labelDl1Writer castVals mem).prep b.flatten) =
      fun b => b.flatten[i]?.map fun r => ⟨i, castRow castVals r.row⟩ := by
    funext b
    simp only [Function.comp, hf]
  rw [e1, e2]
  rfl

/-! ### one row for each label -/

theorem labels_count (i : Nat) (parts : List (List (LRow ρ))) (h : ∀ p ∈ parts, (p.map LRow.label).Perm (List.range p.length)) :
    (parts.flatten.map LRow.label).count i = parts.countP fun p => i < p.length := by
  induction parts with
  | nil => rfl
  | cons p parts ih =>
    rw [List.flatten_cons, List.map_append, List.count_append, ih (fun q hq => h q (List.mem_cons_of_mem _ hq)), (h p (by simp)).count_eq, List.countP_cons]
    by_cases hi : i < p.length
    · rw [List.count_eq_one_of_mem List.nodup_range (List.mem_range.2 hi)]
      simp [hi]; omega
    · rw [List.count_eq_zero_of_not_mem (by simpa using hi)]
      simp [hi]

theorem labels_unique (parts : List (List (LRow ρ))) (h : ∀ p ∈ parts, (p.map LRow.label).Perm (List.range p.length)) :
    (parts.flatten.map LRow.label).Nodup ↔ (parts.countP fun p => p ≠ []) ≤ 1 := by
  rw [List.nodup_iff_count_le_one]
  have e : (parts.countP fun p => decide (p ≠ [])) = parts.countP fun p => decide (0 < p.length) := by
    congr 1; funext p; rw [Bool.eq_iff_iff]; simp [List.length_pos_iff]
  rw [e]
  constructor
  · intro hn
    rw [← labels_count 0 parts h]
    exact hn 0
  · intro hn i
    rw [labels_count i parts h]
    refine le_trans (List.countP_mono_left fun p _ hp => ?_) hn
    simp only [decide_eq_true_eq] at hp ⊢
    omega

theorem relabel_range (df : List (LRow ρ)) : ((relabel df).map LRow.label).Perm (List.range (relabel df).length) := by
  rw [relabel_labels, relabel_length, List.range_eq_range']

theorem dl1Label_range (castVals : β → β) (mem : List (LRow (DRow β)) → Nat) (df : List (LRow (DRow β))) :
    (((labelDl1Writer castVals mem).prep df).map LRow.label).Perm (List.range ((labelDl1Writer castVals mem).prep df).length) := by
  have h := dl1Label_perm castVals mem df
  rw [h.length_eq, List.length_map]
  refine (h.map _).trans ?_
  rw [List.map_map]
  exact relabel_range df

theorem countP_parts (parts : List (List (List (LRow ρ)))) (prep : List (LRow ρ) → List (LRow ρ)) (h : ∀ df, prep df = [] ↔ df = []) :
    ((parts.map fun b => prep b.flatten).countP fun p => p ≠ []) = parts.countP fun b => b.flatten ≠ [] := by
  rw [List.countP_map]
  congr 1
  funext b
  rw [Bool.eq_iff_iff]
  simp only [Function.comp, decide_eq_true_eq, ne_eq, h]

/-- **C179**, exactly when every label names one row: at most one batch has rows. Both writers. -/
theorem C179_unique_partial (mem : List (LRow ρ) → Nat) (ops : List (Op (LRow ρ) ν)) (order : List String) (ho : IsOrder ops order) (s : Store (LRow ρ) ν)
    (h : writeSession (labelWriter mem) ops order = .ok s) (key : String) (hw : ¬ IsWritten ops key) :
    ((fileRows s key).map LRow.label).Nodup ↔ ((batches mem (framesAppended ops key)).countP fun b => b.flatten ≠ []) ≤ 1 := by
  rw [C179_schedule _ ops order ho s h key hw, labels_unique _ (by
    intro p hp
    obtain ⟨b, -, rfl⟩ := List.mem_map.1 hp
    exact relabel_range _), countP_parts _ _ (fun df => by
      rw [← List.length_eq_zero_iff, ← List.length_eq_zero_iff (l := df)]
      show (relabel df).length = 0 ↔ _
      rw [relabel_length])]
  rfl

theorem C179_unique_dl1_partial (castVals : β → β) (mem : List (LRow (DRow β)) → Nat) (ops : List (Op (LRow (DRow β)) ν)) (order : List String)
    (ho : IsOrder ops order) (s : Store (LRow (DRow β)) ν) (h : writeSession (labelDl1Writer castVals mem) ops order = .ok s) (key : String)
    (hw : ¬ IsWritten ops key) :
    ((fileRows s key).map LRow.label).Nodup ↔ ((batches mem (framesAppended ops key)).countP fun b => b.flatten ≠ []) ≤ 1 := by
  rw [C179_schedule _ ops order ho s h key hw, labels_unique _ (by
    intro p hp
    obtain ⟨b, -, rfl⟩ := List.mem_map.1 hp
    exact dl1Label_range castVals mem _), countP_parts _ _ (fun df => by
      rw [← List.length_eq_zero_iff, ← List.length_eq_zero_iff (l := df), (dl1Label_perm castVals mem df).length_eq, List.length_map, relabel_length])]
  rfl

/-- **C179**, small tables: if the frames take less than half a gigabyte, the rows are labelled by their position -/
theorem C179_small_partial (mem : List (LRow ρ) → Nat) (ops : List (Op (LRow ρ) ν)) (order : List String) (ho : IsOrder ops order) (s : Store (LRow ρ) ν)
    (h : writeSession (labelWriter mem) ops order = .ok s) (key : String) (hw : ¬ IsWritten ops key)
    (hm : ((framesAppended ops key).map mem).sum < 500000000) :
    fileRows s key = (rowsAppended ops key).zipIdx.map fun p => ⟨p.2, p.1.row⟩ := by
  rw [C179_schedule _ ops order ho s h key hw]
  show ((batches mem (framesAppended ops key)).map fun b => relabel b.flatten).flatten = _
  rw [batches_small mem _ hm]
  unfold rowsAppended
  split
  · rename_i h0; rw [h0]; rfl
  · simp [relabel]

/-! ### new columns -/

/-- **C179**, what `df[name] = reader.select_column(…)` puts beside a row: the value of the row whose position is its label -/
theorem C179_assign_partial (f : ρ → α) (df : List (LRow ρ)) :
    assignSeries df (columnSeries f df) = .ok (df.map fun r => ((df.map LRow.row)[r.label]?).map f) := by
  have hl : (columnSeries f df).map LRow.label = List.range' 0 df.length := by
    unfold columnSeries
    rw [List.map_map]
    have : (LRow.label ∘ fun p : LRow ρ × Nat => (⟨p.2, f p.1.row⟩ : LRow α)) = Prod.snd := rfl
    rw [this, List.zipIdx_map_snd]
  have hlen : (columnSeries f df).length = df.length := by simp [columnSeries]
  have hget : ∀ i, (columnSeries f df)[i]? = (df[i]?).map fun r => (⟨i, f r.row⟩ : LRow α) := by
    intro i
    simp only [columnSeries, List.getElem?_map, List.getElem?_zipIdx, Nat.zero_add]
    cases df[i]? <;> rfl
  unfold assignSeries
  split
  · rename_i he
    congr 1
    apply List.ext_getElem?
    intro i
    rw [List.getElem?_map, List.getElem?_map, hget]
    cases hi : df[i]? with
    | none => rfl
    | some r =>
      have : r.label = i := by
        have h1 : (df.map LRow.label)[i]? = some r.label := by rw [List.getElem?_map, hi]; rfl
        have hlt : i < df.length := (List.getElem?_eq_some_iff.1 hi).1
        rw [← he, hl, List.getElem?_range' hlt] at h1
        simp at h1
        exact h1.symm
      simp [this, hi]
  · rw [if_pos (by rw [hl]; exact List.nodup_range')]
    congr 1
    apply List.map_congr_left
    intro r _
    rw [← List.head?_filter, filter_label r.label _ 0 (by rw [hl, hlen])]
    simp only [Nat.zero_le, if_true, Nat.sub_zero, hget, List.getElem?_map]
    cases df[r.label]? <;> rfl

/-- **C179**, new columns of small tables: every row gets its own value -/
theorem C179_assign_small_partial (f : ρ → α) (mem : List (LRow ρ) → Nat) (ops : List (Op (LRow ρ) ν)) (order : List String) (ho : IsOrder ops order)
    (s : Store (LRow ρ) ν) (h : writeSession (labelWriter mem) ops order = .ok s) (key : String) (hw : ¬ IsWritten ops key)
    (hm : ((framesAppended ops key).map mem).sum < 500000000) :
    assignSeries (fileRows s key) (columnSeries f (fileRows s key)) = .ok ((fileRows s key).map fun r => some (f r.row)) := by
  rw [C179_assign_partial, C179_small_partial mem ops order ho s h key hw hm]
  congr 1
  apply List.map_congr_left
  intro r hr
  obtain ⟨p, hp, rfl⟩ := List.mem_map.1 hr
  have := List.mem_zipIdx_iff_getElem?.1 hp
  simp only [List.map_map, List.getElem?_map, List.getElem?_zipIdx, Nat.zero_add, this]
  rfl

/-! ### the cookbook -/

/-- **C179**, the column `camera_first_half` of the cookbook: right for every module that is in each appended frame, whatever the sizes, so for files of whole
events -/
theorem C179_cookbook_partial (castVals : β → β) (mem : List (LRow (DRow β)) → Nat) (ops : List (Op (LRow (DRow β)) ν)) (order : List String)
    (ho : IsOrder ops order) (s : Store (LRow (DRow β)) ν) (h : writeSession (labelDl1Writer castVals mem) ops order = .ok s) (key : String)
    (hw : ¬ IsWritten ops key) (tm : Nat) (hne : framesAppended ops key ≠ [])
    (htm : ∀ f ∈ framesAppended ops key, ∃ r ∈ f, ∃ p < 4294967296, r.row.pixel = some p ∧ p / 64 = tm) :
    cookbookFirstHalf (fileRows s key) tm = .ok (decide (tm < 16)) := by
  have hs := C179_schedule _ ops order ho s h key hw
  obtain ⟨c1, c2⟩ := batches_cut mem (framesAppended ops key)
  cases hb : batches mem (framesAppended ops key) with
  | nil => rw [hb] at c1; exact absurd c1.symm hne
  | cons b bs =>
    have hb' : batches (labelDl1Writer castVals mem).mem (framesAppended ops key) = b :: bs := hb
    rw [hb', List.map_cons, List.flatten_cons] at hs
    generalize hA : (labelDl1Writer castVals mem).prep b.flatten = A at hs
    generalize (bs.map fun b => (labelDl1Writer castVals mem).prep b.flatten).flatten = B at hs
    have hin : ∃ r ∈ A, tmOf r.row = tm := by
      rw [hb] at c1 c2
      obtain ⟨f, fs, rfl⟩ := List.exists_cons_of_ne_nil (c2 b (by simp))
      obtain ⟨r, hr, p, hp, hpx, hpt⟩ := htm f (by rw [← c1]; simp)
      have hm : r ∈ (f :: fs).flatten := by simp [hr]
      obtain ⟨i, hi⟩ := List.getElem?_of_mem hm
      have : (⟨i, castRow castVals r.row⟩ : LRow (DRow β)) ∈ A := by
        have := dl1Label_filter castVals mem (f :: fs).flatten i
        rw [hA, hi] at this
        have h' : (⟨i, castRow castVals r.row⟩ : LRow (DRow β)) ∈ A.filter (fun r => r.label = i) := by rw [this]; simp
        exact (List.mem_filter.1 h').1
      refine ⟨_, this, ?_⟩
      show (Option.map toUint32 r.row.pixel).getD 0 / 64 = tm
      rw [hpx]
      show p % 4294967296 / 64 = tm
      rw [Nat.mod_eq_of_lt hp, hpt]
    have hnod : (A.map LRow.label).Nodup := by
      have := dl1Label_range castVals mem b.flatten
      rw [hA] at this
      exact this.nodup_iff.2 List.nodup_range
    obtain ⟨r, hr1, hr2⟩ := hin
    obtain ⟨r0, rest, hf⟩ := List.exists_cons_of_ne_nil (l := A.filter fun r => tmOf r.row = tm) (by
      intro h0
      have := List.filter_eq_nil_iff.1 h0 r hr1
      simp [hr2] at this)
    have hr0 : r0 ∈ A ∧ tmOf r0.row = tm := by
      have : r0 ∈ A.filter fun r => tmOf r.row = tm := by rw [hf]; simp
      have := List.mem_filter.1 this
      exact ⟨this.1, by simpa using this.2⟩
    have hone : A.filter (fun r => r.label = r0.label) = [r0] := by
      have h1 : (A.filter fun r => r.label = r0.label).length = 1 := by
        have := List.count_eq_one_of_mem hnod (List.mem_map_of_mem (f := LRow.label) hr0.1)
        rw [List.count_eq_countP, List.countP_map, List.countP_eq_length_filter] at this
        rw [← this]
        congr 2
      obtain ⟨x, hx⟩ := List.length_eq_one_iff.1 h1
      have : r0 ∈ A.filter fun r => r.label = r0.label := List.mem_filter.2 ⟨hr0.1, by simp⟩
      rw [hx] at this ⊢
      rw [List.mem_singleton.1 this]
    unfold cookbookFirstHalf locRows
    rw [hs, if_pos (by
      rw [List.all_eq_true]
      intro l hl
      obtain ⟨x, hx, rfl⟩ := List.mem_map.1 hl
      exact List.any_eq_true.2 ⟨x, (List.mem_filter.1 hx).1, by simp⟩)]
    rw [List.filter_append, hf, List.cons_append, List.map_cons, List.flatMap_cons, List.filter_append, hone]
    simp only [List.cons_append, hr0.2]

/-! ### the rows without labels -/

/-- the labels do not change which rows are written: without them the batches of `DL1Writer` are those of `Model/Dl1` -/
theorem C179_rows (castVals : β → β) (mem : List (LRow (DRow β)) → Nat) (df : List (LRow (DRow β))) :
    ((labelDl1Writer castVals mem).prep df).map LRow.row = dl1Prep castVals (df.map LRow.row) := by
  have hr : (relabel df).map LRow.row = df.map LRow.row := by
    unfold relabel
    rw [List.map_map]
    have : (LRow.row ∘ fun p : LRow (DRow β) × Nat => (⟨p.2, p.1.row⟩ : LRow (DRow β))) = LRow.row ∘ Prod.fst := rfl
    rw [this, ← List.map_map, List.zipIdx_map_fst]
  have hc : (((relabel df).map fun r => (⟨r.label, castRow castVals r.row⟩ : LRow (DRow β))).map LRow.row) = (df.map LRow.row).map (castRow castVals) := by
    rw [← hr, List.map_map, List.map_map]
    rfl
  unfold labelDl1Writer dl1Prep
  simp only
  rw [← hc]
  generalize ((relabel df).map fun r => (⟨r.label, castRow castVals r.row⟩ : LRow (DRow β))) = L
  have ha : ((L.map LRow.row).all fun r => r.pixel.isSome) = L.all fun r => r.row.pixel.isSome := by rw [List.all_map]; rfl
  rw [ha]
  split
  · rw [List.map_mergeSort (s := rowLe)]
    intro a _ b _
    rfl
  · rfl

/-! ### cases -/

/-- two frames of half a gigabyte -/
def twoBatches : List (Op (LRow Nat) Unit) := [.append [⟨0, 10⟩, ⟨1, 11⟩] "data", .append [⟨0, 12⟩] "data"]

theorem twoBatches_order : IsOrder twoBatches ["data"] := by
  refine ⟨by decide, fun k => ?_⟩
  simp only [IsData, IsAppended, twoBatches, List.mem_cons, List.not_mem_nil, Op.append.injEq, reduceCtorEq, or_false]
  grind

theorem twoBatches_unwritten : ¬ IsWritten twoBatches "data" := by
  rintro (⟨df, h⟩ | ⟨h, -⟩)
  · simp [twoBatches] at h
  · simp at h

/-- **C179** is false: after the second batch the label 0 names two rows, no label names the third row alone, and a column put beside the rows by label gives the
third row the value of the first -/
theorem C179_false : ∃ s, writeSession (labelWriter fun _ => 500000000) twoBatches ["data"] = .ok s ∧
    (fileRows s "data").map LRow.row = [10, 11, 12] ∧ locRows (fileRows s "data") [0] = .ok [⟨0, 10⟩, ⟨0, 12⟩] ∧ locRows (fileRows s "data") [2] = .error .keyError ∧
    assignSeries (fileRows s "data") (columnSeries (fun x => x) (fileRows s "data")) = .ok [some 10, some 11, some 10] := by
  refine ⟨_, rfl, rfl, by decide, by decide, by decide⟩

/-- the same frames in one batch -/
example : ∃ s, writeSession (labelWriter fun _ => 100) twoBatches ["data"] = .ok s ∧ fileRows s "data" = [⟨0, 10⟩, ⟨1, 11⟩, ⟨2, 12⟩] := by
  refine ⟨_, rfl, ?_⟩
  exact C179_small_partial (fun _ => 100) twoBatches ["data"] twoBatches_order _ rfl "data" twoBatches_unwritten (by decide)

example : ∃ s, writeSession (labelWriter fun _ => 500000000) twoBatches ["data"] = .ok s ∧ ¬ ((fileRows s "data").map LRow.label).Nodup := by
  refine ⟨_, rfl, ?_⟩
  rw [C179_unique_partial (fun _ => 500000000) twoBatches ["data"] twoBatches_order _ rfl "data" twoBatches_unwritten]
  decide

/-- two frames with the pixels `a` and `b`; their events arrive in the wrong order -/
def pixelBatches (a b : Nat) : List (Op (LRow (DRow Nat)) Unit) :=
  [.append [⟨0, ⟨1, some a, 5⟩⟩] "data", .append [⟨0, ⟨0, some b, 6⟩⟩] "data"]

theorem pixelBatches_order (a b : Nat) : IsOrder (pixelBatches a b) ["data"] := by
  refine ⟨by decide, fun k => ?_⟩
  simp only [IsData, IsAppended, pixelBatches, List.mem_cons, List.not_mem_nil, Op.append.injEq, reduceCtorEq, or_false]
  grind

theorem pixelBatches_unwritten (a b : Nat) (key : String) : ¬ IsWritten (pixelBatches a b) key := by
  rintro (⟨df, h⟩ | ⟨h, m, md, h⟩) <;> simp [pixelBatches] at h

theorem pixelBatches_file (m a b : Nat) : ∃ s, writeSession (labelDl1Writer id fun _ => m) (pixelBatches a b) ["data"] = .ok s ∧
    fileRows s "data" = ((batches (fun _ => m) (framesAppended (pixelBatches a b) "data")).map
      fun g => (labelDl1Writer id fun _ => m).prep g.flatten).flatten := by
  obtain ⟨s, hs, -⟩ := C15_prepared_batches (labelDl1Writer id fun _ => m) (pixelBatches a b) ["data"] (fun key h => pixelBatches_unwritten a b key h.2)
    (pixelBatches_order a b)
  exact ⟨s, hs, C179_schedule _ _ _ (pixelBatches_order a b) s hs "data" (pixelBatches_unwritten a b "data")⟩

/-- **C179**, position and label differ in one batch too: sorting moves the rows with their labels -/
theorem C179_sorted_false : ∃ s, writeSession (labelDl1Writer id fun _ => 100) (pixelBatches 0 0) ["data"] = .ok s ∧
    fileRows s "data" = [⟨1, ⟨0, some 0, 6⟩⟩, ⟨0, ⟨1, some 0, 5⟩⟩] ∧ locRows (fileRows s "data") [0] = .ok [⟨0, ⟨1, some 0, 5⟩⟩] := by
  obtain ⟨s, hs, hf⟩ := pixelBatches_file 100 0 0
  have e : fileRows s "data" = [⟨1, ⟨0, some 0, 6⟩⟩, ⟨0, ⟨1, some 0, 5⟩⟩] := by
    rw [hf, show batches (fun _ => 100) (framesAppended (pixelBatches 0 0) "data") = [[[⟨0, ⟨1, some 0, 5⟩⟩], [⟨0, ⟨0, some 0, 6⟩⟩]]] from by decide +kernel]
    simp [labelDl1Writer, relabel, castRow, toUint32, List.mergeSort, List.MergeSort.Internal.splitInTwo, rowLe, List.merge]
  exact ⟨s, hs, e, by rw [e]; decide⟩

/-- **C179**, the cookbook is wrong for a module that is only in the second batch: pixel 1024 is in module 16, not in the first half -/
theorem C179_cookbook_false : ∃ s, writeSession (labelDl1Writer id fun _ => 500000000) (pixelBatches 0 1024) ["data"] = .ok s ∧
    cookbookFirstHalf (fileRows s "data") 16 = .ok true := by
  obtain ⟨s, hs, hf⟩ := pixelBatches_file 500000000 0 1024
  refine ⟨s, hs, ?_⟩
  rw [hf]
  decide +kernel

example : ∃ s, writeSession (labelDl1Writer id fun _ => 500000000) (pixelBatches 1030 1024) ["data"] = .ok s ∧
    cookbookFirstHalf (fileRows s "data") 16 = .ok false := by
  obtain ⟨s, hs, -⟩ := pixelBatches_file 500000000 1030 1024
  refine ⟨s, hs, ?_⟩
  refine (C179_cookbook_partial id _ (pixelBatches 1030 1024) ["data"] (pixelBatches_order _ _) s hs "data" (pixelBatches_unwritten _ _ _) 16
    (by simp [framesAppended, pixelBatches]) ?_).trans (by decide)
  intro f hf
  simp [framesAppended, pixelBatches] at hf
  rcases hf with rfl | rfl
  · exact ⟨_, List.mem_singleton.2 rfl, 1030, by decide, rfl, rfl⟩
  · exact ⟨_, List.mem_singleton.2 rfl, 1024, by decide, rfl, rfl⟩

example : ∃ s, writeSession (labelDl1Writer id fun _ => 500000000) (pixelBatches 3 4) ["data"] = .ok s ∧
    locRows (fileRows s "data") [0] = .ok [⟨0, ⟨1, some 3, 5⟩⟩, ⟨0, ⟨0, some 4, 6⟩⟩] := by
  obtain ⟨s, hs, -⟩ := pixelBatches_file 500000000 3 4
  refine ⟨s, hs, ?_⟩
  rw [C179_loc_dl1_partial id _ (pixelBatches 3 4) ["data"] (pixelBatches_order _ _) s hs "data" (pixelBatches_unwritten _ _ _) 0]
  decide +kernel

end Verif.Props
