import Verif.Model.PartialRead
import Verif.Lemmas.Hdf5Reader
import Verif.Props.Hdf5
import Verif.Props.Chunks
import Verif.Props.Hdf5Closed

/-! # C112: parts of a table -/

namespace Verif.Props

open Verif.Py Verif.Model Verif.Spec Verif.Lemmas

variable {ρ ν α : Type}

/-- the parts of a table agree with its rows: number of rows, column names, ranges of rows, single columns, several columns, row by row -/
structure PartsAgree (cells : ρ → Dict String α) (r : HReader ρ ν) (key : String) (rows : List ρ) : Prop where
  count : getNRows r key = .ok (some rows.length)
  names : ∀ row ∈ rows, ∃ names, getColumnNames cells r key = .ok names ∧ names = (cells row).map (·.1)
  range : ∀ start stop, selectRange r key (some start) (some stop) = .ok ((rows.take stop).drop start)
  all : selectRange r key none none = .ok rows
  column : ∀ name values, rows.map (fun row => Dict.get? (cells row) name) = values.map some →
    selectColumnOf cells r key name none none = .ok values ∧
    ∀ start stop, selectColumnOf cells r key name (some start) (some stop) = .ok ((values.take stop).drop start)
  columns : ∀ cols : List (String × List α), (∀ c ∈ cols, rows.map (fun row => Dict.get? (cells row) c.1) = c.2.map some) →
    selectColumnsOf cells r key (cols.map (·.1)) none none = .ok (cols.map (·.2)) ∧
    ∀ start stop, selectColumnsOf cells r key (cols.map (·.1)) (some start) (some stop) = .ok (cols.map fun c => (c.2.take stop).drop start)
  missing : ∀ name row, row ∈ rows → Dict.get? (cells row) name = none → selectColumnOf cells r key name none none = .error .keyError
  single : ∀ fuel, rows.length ≤ fuel → iterateOverRows r key fuel = .ok (some (rows.map fun row => [row]))

theorem mapM_getItem (cells : ρ → Dict String α) (name : String) (rows : List ρ) (values : List α)
    (h : rows.map (fun row => Dict.get? (cells row) name) = values.map some) : rows.mapM (fun row => Dict.getItem (cells row) name) = .ok values := by
  induction rows generalizing values with
  | nil =>
    cases values with
    | nil => rfl
    | cons => simp at h
  | cons row rows ih =>
    cases values with
    | nil => simp at h
    | cons v vs =>
      simp only [List.map_cons, List.cons.injEq] at h
      rw [List.mapM_cons, (Dict.getItem_eq_ok_iff _ _ _).2 h.1, ih vs h.2]
      rfl

theorem readTable_node (r : HReader ρ ν) (key : String) (force : Bool) (rows : List ρ) (h : readTable r key force = .ok rows) :
    ∃ nd, Dict.get? r.store key = some nd ∧ nd.rows = rows := by
  unfold readTable at h
  split at h
  · simp only [bind, Except.bind] at h
    split at h
    · cases h
    · split at h
      · split at h
        · cases h
        · cases hg : Dict.get? r.store key with
          | none => rw [hg] at h; cases h
          | some nd => rw [hg] at h; cases h; exact ⟨nd, rfl, rfl⟩
      · cases h
  · cases h

theorem partition_one (rows : List ρ) (cs : List (List ρ)) (h : IsPartition rows 1 cs) : cs = rows.map fun row => [row] := by
  obtain ⟨h1, h2, -⟩ := h
  subst h1
  induction cs with
  | nil => rfl
  | cons c cs ih =>
    obtain ⟨hne, hle⟩ := h2 c (by simp)
    match c, hne, hle with
    | [a], _, _ =>
      simp only [List.flatten_cons, List.singleton_append, List.map_cons]
      rw [← ih fun p hp => h2 p (by simp [hp])]
    | _ :: _ :: _, _, hle => simp at hle

/-- a table in table format -/
theorem partsAgree_table (cells : ρ → Dict String α) (r : HReader ρ ν) (key : String) (nd : Node ρ ν) (hg : Dict.get? r.store key = some nd) (ht : nd.fmt = .table)
    (hc : ∀ a ∈ nd.rows, ∀ b ∈ nd.rows, Dict.keys (cells a) = Dict.keys (cells b)) : PartsAgree cells r key nd.rows := by
  have hsel : ∀ start stop, selectRange r key (some start) (some stop) = .ok ((nd.rows.take stop).drop start) := by
    intro start stop; unfold selectRange; rw [hg]; rfl
  have hcol : ∀ name start stop, selectColumnOf cells r key name start stop =
      ((nd.rows.take (stop.getD nd.rows.length)).drop (start.getD 0)).mapM fun row => Dict.getItem (cells row) name := by
    intro name start stop; unfold selectColumnOf; rw [hg]; simp only [ht]
  have hcolumn : ∀ name values, nd.rows.map (fun row => Dict.get? (cells row) name) = values.map some →
      selectColumnOf cells r key name none none = .ok values := by
    intro name values h
    rw [hcol]
    simp only [Option.getD_none, List.take_length, List.drop_zero]
    exact mapM_getItem cells name _ _ h
  have hpart : ∀ name (values : List α), nd.rows.map (fun row => Dict.get? (cells row) name) = values.map some →
      ∀ start stop, selectColumnOf cells r key name (some start) (some stop) = .ok ((values.take stop).drop start) := by
    intro name values h start stop
    rw [hcol]
    refine mapM_getItem cells name _ _ ?_
    simp only [Option.getD_some, List.map_drop, List.map_take]
    rw [h]
  refine ⟨?_, ?_, hsel, ?_, ?_, ?_, ?_, ?_⟩
  · unfold getNRows; rw [hg]; simp only [ht]
  · intro row hrow
    refine ⟨(cells row).map (·.1), ?_, rfl⟩
    unfold getColumnNames
    rw [hg]
    simp only [ht]
    cases hr : nd.rows with
    | nil => rw [hr] at hrow; cases hrow
    | cons a as =>
      simp only
      rw [hc a (by rw [hr]; simp) row hrow]
      rfl
  · unfold selectRange; rw [hg]; simp
  · intro name values h
    exact ⟨hcolumn name values h, hpart name values h⟩
  · intro cols h
    unfold selectColumnsOf
    constructor
    · induction cols with
      | nil => rfl
      | cons c cs ih =>
        rw [List.map_cons, List.mapM_cons, hcolumn c.1 c.2 (h c (by simp)), ih fun c hc => h c (by simp [hc])]
        rfl
    · intro start stop
      induction cols with
      | nil => rfl
      | cons c cs ih =>
        rw [List.map_cons, List.mapM_cons, hpart c.1 c.2 (h c (by simp)), ih fun c hc => h c (by simp [hc])]
        rfl
  · intro name row hrow hn
    rw [hcol]
    simp only [Option.getD_none, List.take_length, List.drop_zero]
    have : ∀ a ∈ nd.rows, Dict.getItem (cells a) name = .error .keyError := by
      intro a ha
      have h1 : Dict.get? (cells a) name = none := by
        rw [Dict.get?_eq_none_iff, hc a ha row hrow, ← Dict.get?_eq_none_iff]
        exact hn
      unfold Dict.getItem
      rw [h1]
    cases hr : nd.rows with
    | nil => rw [hr] at hrow; cases hrow
    | cons a as => rw [List.mapM_cons, this a (by rw [hr]; simp)]; rfl
  · intro fuel hf
    obtain ⟨cs, h1, h2⟩ := C21_partition r key nd hg ht 1 (by decide)
    unfold iterateOverRows
    rw [h1 fuel hf, partition_one _ _ h2]

/-- the claim without the condition on how the table was stored: whatever `read` returns, the partial reads agree with it -/
def PartialReadsAgree : Prop :=
  ∀ (mem : List (Dict String Int) → Nat) (ops : List (Op (Dict String Int) Unit)) (order : List String), Unmixed ops → IsOrder ops order →
    ∀ s r, writeSession { mem := mem, prep := id } ops order = .ok s → openReader s = .ok r →
      ∀ key rows, readTable r key true = .ok rows → rows ≠ [] → (∀ a ∈ rows, ∀ b ∈ rows, Dict.keys a = Dict.keys b) → PartsAgree id r key rows

/-- C112 (part): a table filled with `append`. For every history of calls, buffer sizes and closing order, once the file is closed and opened: if `read`
returns rows, with the same columns, then the number of rows, the column names, every range of rows, every column, every list of columns and the iteration
row by row are those of the rows read. Missing: tables stored with `write` (`C112_written`). -/
theorem C112_partial [DecidableEq ν] (cells : ρ → Dict String α) (c : WCfg ρ) (ops : List (Op ρ ν)) (order : List String) (hu : Unmixed ops) (ho : IsOrder ops order)
    (s : Store ρ ν) (r : HReader ρ ν) (hs : writeSession c ops order = .ok s) (hr : openReader s = .ok r) (key : String) (rows : List ρ) (ha : IsAppended ops key)
    (hrows : readTable r key true = .ok rows) (hne : rows ≠ []) (hc : ∀ a ∈ rows, ∀ b ∈ rows, Dict.keys (cells a) = Dict.keys (cells b)) :
    PartsAgree cells r key rows := by
  obtain ⟨s', hs', spec⟩ := writeSession_spec c ops order hu ho
  rw [hs] at hs'
  cases hs'
  obtain ⟨h1, -, -⟩ := openReader_spec s spec.nodup r hr
  obtain ⟨nd, hg, hnd⟩ : ∃ nd, Dict.get? r.store key = some nd ∧ nd.rows = rows := readTable_node r key true rows hrows
  have hf := spec.fmtAppended key (fun hw => hu key ⟨ha, hw⟩) (by
    unfold fileRows
    rw [← h1, hg]
    simp only [hnd]
    exact hne)
  rw [← h1, hg] at hf
  subst hnd
  exact partsAgree_table cells r key nd hg (by simpa using hf) hc

/-- C112, exactly, for every history whose closing succeeds, also those that mix `append` and `write`: the parts of a table that has rows agree with it if
and only if it was never stored with `write`. (Missing from C112: the tables stored with `write`.) -/
theorem C112_exactly_partial [DecidableEq ν] (cells : ρ → Dict String α) (c : WCfg ρ) (ops : List (Op ρ ν)) (order : List String) (ho : IsOrder ops order)
    (s : Store ρ ν) (r : HReader ρ ν) (hs : writeSession c ops order = .ok s) (hr : openReader s = .ok r) (key : String) (rows : List ρ)
    (hk : key = "mapping" → ¬ ∃ m md, Op.addMapping m md ∈ ops) (hrows : readTable r key true = .ok rows) (hne : rows ≠ []) (hd : IsData ops key)
    (hc : ∀ a ∈ rows, ∀ b ∈ rows, Dict.keys (cells a) = Dict.keys (cells b)) :
    PartsAgree cells r key rows ↔ ¬ ∃ df, Op.write key df ∈ ops := by
  have spec := closed_spec c ops order ho s hs
  obtain ⟨h1, -, -⟩ := openReader_spec s spec.nodup r hr
  obtain ⟨nd, hg, hnd⟩ : ∃ nd, Dict.get? r.store key = some nd ∧ nd.rows = rows := readTable_node r key true rows hrows
  have hfmt := spec.fmt key hd
  have hrow := spec.rows key hd
  rw [← h1, hg] at hfmt
  unfold fileRows at hrow
  rw [← h1, hg] at hrow
  constructor
  · rintro hp hw
    obtain ⟨df, hl⟩ := Option.isSome_iff_exists.1 ((lastWrite_isSome ops key).2 hw)
    obtain ⟨r1, -⟩ := run_written_bytes c ops key hk df hl
    obtain ⟨nd', a, b, -⟩ := r1.flush (c := c)
    rw [a] at hfmt
    have hf : nd.fmt = .fixed := by simpa [b] using hfmt
    have := hp.count
    unfold getNRows at this
    rw [hg] at this
    simp [hf] at this
  · intro hw
    have hnw : ¬ IsWritten ops key := by
      rintro (h | ⟨h, h'⟩)
      · exact hw h
      · exact hk h h'
    have hinv := run_inv c ([] : Store ρ ν) key (appendable_nil key) ops hnw
    obtain ⟨-, hinv', -⟩ := flush_inv c [] _ _ key hinv
    cases hg' : Dict.get? (flush c (run c (WState.init []) ops) key).1.store key with
    | none =>
      rw [hg'] at hrow
      exact absurd (hnd.symm.trans hrow) hne
    | some nd' =>
      rw [hg'] at hfmt
      have hf : nd.fmt = .table := by simpa [hinv'.app nd' hg'] using hfmt
      subst hnd
      exact partsAgree_table cells r key nd hg hf hc

/-- C112: a table that was neither written nor appended to and has no metadata raises KeyError in every call. -/
theorem C112_missing [DecidableEq ν] (cells : ρ → Dict String α) (c : WCfg ρ) (ops : List (Op ρ ν)) (order : List String) (hu : Unmixed ops) (ho : IsOrder ops order)
    (s : Store ρ ν) (r : HReader ρ ν) (hs : writeSession c ops order = .ok s) (hr : openReader s = .ok r) (key : String) (hd : ¬ IsData ops key) (hkey : key ≠ "data")
    (hm : ∀ name, ¬ HasMeta ops key name) (hmap : key = "mapping" → ¬ ∃ m md, Op.addMapping m md ∈ ops) :
    getNRows r key = .error .keyError ∧ getColumnNames cells r key = .error .keyError ∧ (∀ start stop, selectRange r key start stop = .error .keyError) ∧
      (∀ name start stop, selectColumnOf cells r key name start stop = .error .keyError) ∧
      (∀ name names start stop, selectColumnsOf cells r key (name :: names) start stop = .error .keyError) ∧
      (∀ chunksize fuel, iterateOverChunks r key chunksize fuel = .error .keyError) ∧ ∀ fuel, iterateOverRows r key fuel = .error .keyError := by
  obtain ⟨s', hs', spec⟩ := writeSession_spec c ops order hu ho
  rw [hs] at hs'
  cases hs'
  obtain ⟨h1, -, -⟩ := openReader_spec s spec.nodup r hr
  have hg : Dict.get? r.store key = none := by
    rw [h1]
    cases hc : Dict.get? s key with
    | none => rfl
    | some nd =>
      rcases (spec.present key).1 (by rw [hc]; rfl) with h | h | ⟨n, h⟩ | ⟨h, h'⟩
      · exact absurd h hd
      · exact absurd h hkey
      · exact absurd h (hm n)
      · exact absurd h' (hmap h)
  have hsel : ∀ name start stop, selectColumnOf cells r key name start stop = .error .keyError := fun name start stop => by
    unfold selectColumnOf; rw [hg]
  refine ⟨by unfold getNRows; rw [hg], by unfold getColumnNames; rw [hg], fun _ _ => by unfold selectRange; rw [hg], hsel, fun name names start stop => ?_,
    fun _ _ => by unfold iterateOverChunks; rw [hg], fun _ => by unfold iterateOverRows iterateOverChunks; rw [hg]⟩
  unfold selectColumnsOf
  rw [List.mapM_cons, hsel]
  rfl

/-- C112: a table stored with `write`. `read` and ranges of rows work; there is no number of rows, no column names, no single column and no iteration. -/
theorem C112_written [DecidableEq ν] (cells : ρ → Dict String α) (c : WCfg ρ) (ops : List (Op ρ ν)) (order : List String) (hu : Unmixed ops) (ho : IsOrder ops order)
    (s : Store ρ ν) (r : HReader ρ ν) (hs : writeSession c ops order = .ok s) (hr : openReader s = .ok r) (key : String) (hkey : key ≠ "mapping") (df : List ρ)
    (hw : lastWrite ops key = some df) :
    getNRows r key = .ok none ∧ getColumnNames cells r key = .error .attributeError ∧
      (∀ name start stop, selectColumnOf cells r key name start stop = .error .typeError) ∧
      (∀ start stop, selectRange r key (some start) (some stop) = .ok ((df.take stop).drop start)) ∧
      selectRange r key none none = .ok df ∧
      (∀ fuel, iterateOverRows r key fuel = .error .typeError) := by
  obtain ⟨s', hs', spec⟩ := writeSession_spec c ops order hu ho
  rw [hs] at hs'
  cases hs'
  obtain ⟨h1, -, -⟩ := openReader_spec s spec.nodup r hr
  have hna : ¬ IsAppended ops key := fun ha => hu key ⟨ha, Or.inl ((lastWrite_isSome ops key).mp (by rw [hw]; rfl))⟩
  have hf := spec.fmtWritten key df hna (fun h => absurd h hkey) hw
  have hrow := (spec.written key df hna (fun h => absurd h hkey) hw).1
  rw [← h1] at hf
  unfold fileRows at hrow
  rw [← h1] at hrow
  cases hg : Dict.get? r.store key with
  | none => rw [hg] at hf; cases hf
  | some nd =>
    rw [hg] at hf hrow
    have hf : nd.fmt = .fixed := by simpa using hf
    have hrow : nd.rows = df := hrow
    refine ⟨?_, ?_, ?_, ?_, ?_, ?_⟩
    · unfold getNRows; rw [hg]; simp only [hf]
    · unfold getColumnNames; rw [hg]; simp only [hf]
    · intro name start stop; unfold selectColumnOf; rw [hg]; simp only [hf]
    · intro start stop; unfold selectRange; rw [hg]; simp only [hrow, Option.getD_some]
    · unfold selectRange; rw [hg]; simp [hrow]
    · intro fuel; unfold iterateOverRows iterateOverChunks; rw [hg]; simp only [hf]

/-- two rows appended to `data`, one row written to `extra` -/
def partOps : List (Op (Dict String Int) Unit) :=
  [.append [[("iev", 0), ("charge", 5)], [("iev", 1), ("charge", 7)]] "data", .write "extra" [[("iev", 4)]]]

theorem partOps_unmixed : Unmixed partOps := by
  rintro key ⟨⟨df, h⟩, hw⟩
  simp [partOps] at h
  rcases hw with ⟨df', h'⟩ | ⟨rfl, -⟩
  · simp [partOps] at h'
    rw [h.2] at h'
    exact absurd h'.1 (by decide)
  · exact absurd h.2 (by decide)

theorem partOps_order : IsOrder partOps ["data", "extra"] := by
  refine ⟨by decide, fun k => ?_⟩
  simp only [IsData, IsAppended, partOps, List.mem_cons, List.not_mem_nil, Op.append.injEq, Op.write.injEq, reduceCtorEq, or_false, false_or]
  grind

/-- eight bytes a row -/
def partMem (df : List (Dict String Int)) : Nat := 8 * df.length

/-- the closed file -/
def partStore : Store (Dict String Int) Unit :=
  match writeSession { mem := partMem, prep := id } partOps ["data", "extra"] with
  | .ok s => s
  | .error _ => []

/-- the opened file -/
def partReader : HReader (Dict String Int) Unit :=
  match openReader partStore with
  | .ok r => r
  | .error _ => { store := [], dataframeKeys := [], metadataKeys := [] }

example : PartsAgree id partReader "data" [[("iev", 0), ("charge", 5)], [("iev", 1), ("charge", 7)]] :=
  C112_partial id { mem := partMem, prep := id } partOps _ partOps_unmixed partOps_order partStore partReader rfl rfl "data" _ ⟨_, by simp [partOps]; rfl⟩ rfl (by simp) (by simp [Dict.keys])

example : PartsAgree id partReader "data" [[("iev", 0), ("charge", 5)], [("iev", 1), ("charge", 7)]] ∧ ¬ PartsAgree id partReader "extra" [[("iev", 4)]] :=
  ⟨(C112_exactly_partial id { mem := partMem, prep := id } partOps _ partOps_order partStore partReader rfl rfl "data"
    [[("iev", 0), ("charge", 5)], [("iev", 1), ("charge", 7)]] (by simp) rfl (by simp) (.inl ⟨_, by simp [partOps]; rfl⟩) (by simp [Dict.keys])).2 (by simp [partOps]),
   fun h => (C112_exactly_partial id { mem := partMem, prep := id } partOps _ partOps_order partStore partReader rfl rfl "extra"
    [[("iev", 4)]] (by simp) rfl (by simp) (.inr ⟨_, by simp [partOps]; rfl⟩) (by simp [Dict.keys])).1 h ⟨_, by simp [partOps]; rfl⟩⟩

example : getNRows partReader "data" = .ok (some 2) ∧ getColumnNames id partReader "data" = .ok ["iev", "charge"] ∧
    selectColumnOf id partReader "data" "charge" none none = .ok [5, 7] ∧
    iterateOverRows partReader "data" 2 = .ok (some [[[("iev", 0), ("charge", 5)]], [[("iev", 1), ("charge", 7)]]]) := ⟨rfl, rfl, rfl, rfl⟩

example := C112_written id { mem := partMem, prep := id } partOps _ partOps_unmixed partOps_order partStore partReader rfl rfl "extra" (by decide) [[("iev", 4)]] rfl

example : getNRows partReader "other" = .error .keyError := (C112_missing id { mem := partMem, prep := id } partOps _ partOps_unmixed partOps_order partStore partReader rfl rfl "other"
  (by simp [partOps, IsData, IsAppended]) (by decide) (by simp [partOps, HasMeta]) (by simp)).1

/-- C112 fails as stated: a table stored with `write` can be read, but has no number of rows. -/
theorem C112_false : ¬ PartialReadsAgree := by
  intro h
  have := (h partMem partOps _ partOps_unmixed partOps_order partStore partReader rfl rfl "extra" [[("iev", 4)]] rfl (by simp) (by simp)).count
  exact absurd this (by intro h; cases h)

end Verif.Props
