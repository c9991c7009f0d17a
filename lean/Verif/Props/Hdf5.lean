import Verif.Lemmas.Hdf5Reader

/-!
# C15–C20, C24: the HDF5 writer and reader

Every theorem ranges over arbitrary histories `ops`, arbitrary memory-size functions and an arbitrary order in which the
tables are visited at close.  `Unmixed ops` says that no table is used with `append` and with `write`/`add_mapping` in
the same session; the other case is covered by `C24_append_then_write_fails` below.
-/

namespace Verif.Props

open Verif.Py Verif.Model Verif.Spec Verif.Lemmas

variable {ρ ν : Type}

/-! ### a running example -/

/-- two interleaved tables, a mapping, metadata -/
def exOps : List (Op Nat Unit) :=
  [.append [1, 2] "data", .append [10] "other", .addMetadata "data" "metadata" [("n_events", .int 2)],
   .append [3] "data", .addMapping [7] [("n_pixels", .int 1)], .write "extra" [5, 6],
   .addMetadata "data" "metadata" [("n_events", .int 3)]]

theorem exOps_unmixed : Unmixed exOps := by
  rintro key ⟨⟨df, h⟩, hw⟩
  simp [exOps] at h
  rcases hw with ⟨df', h'⟩ | ⟨rfl, -⟩
  · simp [exOps] at h'
    rcases h with h | h | h <;> rcases h' with ⟨rfl, -⟩ <;> simp at h
  · rcases h with h | h | h <;> simp at h

theorem exOps_order : IsOrder exOps ["extra", "data", "other"] := by
  refine ⟨by decide, fun k => ?_⟩
  simp only [IsData, IsAppended, exOps, List.mem_cons, List.not_mem_nil, Op.append.injEq, Op.write.injEq,
    reduceCtorEq, or_false, false_or]
  grind

/-! ### C15 -/

/-- C15: closing succeeds, and every table that was built with `append` holds the appended rows, in order, once. -/
theorem C15_appended_rows (mem : List ρ → Nat) (ops : List (Op ρ ν)) (order : List String) (hu : Unmixed ops)
    (ho : IsOrder ops order) :
    ∃ s, writeSession { mem := mem, prep := id } ops order = .ok s ∧
      ∀ key, IsAppended ops key → fileRows s key = rowsAppended ops key := by
  obtain ⟨s, hs, h⟩ := writeSession_spec { mem := mem, prep := id } ops order hu ho
  refine ⟨s, hs, fun key hk => ?_⟩
  obtain ⟨g, ⟨hg, -⟩, hr, -⟩ := h.appended key (fun hw => hu key ⟨hk, hw⟩)
  rw [hr, rowsAppended, ← hg]
  simp [List.flatten_flatten]

example : ∃ s, writeSession { mem := fun df => 300000000 * df.length, prep := id } exOps ["extra", "data", "other"] = .ok s ∧
    ∀ key, IsAppended exOps key → fileRows s key = rowsAppended exOps key :=
  C15_appended_rows _ exOps _ exOps_unmixed exOps_order

/-- C15 (corollary): the content of the tables does not depend on the sizes, hence not on the flush schedule, nor on the
order in which tables are closed. -/
theorem C15_schedule_independent (mem mem' : List ρ → Nat) (ops : List (Op ρ ν)) (order order' : List String)
    (hu : Unmixed ops) (ho : IsOrder ops order) (ho' : IsOrder ops order') :
    ∃ s s', writeSession { mem := mem, prep := id } ops order = .ok s ∧
      writeSession { mem := mem', prep := id } ops order' = .ok s' ∧
      ∀ key, IsAppended ops key → fileRows s key = fileRows s' key := by
  obtain ⟨s, hs, h⟩ := C15_appended_rows mem ops order hu ho
  obtain ⟨s', hs', h'⟩ := C15_appended_rows mem' ops order' hu ho'
  exact ⟨s, s', hs, hs', fun key hk => (h key hk).trans (h' key hk).symm⟩

example : ∃ s s', writeSession { mem := fun _ => 0, prep := id } exOps ["extra", "data", "other"] = .ok s ∧
    writeSession { mem := fun _ => 600000000, prep := id } exOps ["extra", "data", "other"] = .ok s' ∧
    ∀ key, IsAppended exOps key → fileRows s key = fileRows s' key :=
  C15_schedule_independent _ _ exOps _ _ exOps_unmixed exOps_order exOps_order

/-- C15 for writers that override `_prepare_before_append`: the table is the concatenation of the prepared batches,
where the batches cut the appended frames into consecutive non-empty groups. -/
theorem C15_prepared_batches (c : WCfg ρ) (ops : List (Op ρ ν)) (order : List String) (hu : Unmixed ops)
    (ho : IsOrder ops order) :
    ∃ s, writeSession c ops order = .ok s ∧
      ∀ key, IsAppended ops key → ∃ groups, Cuts groups (framesAppended ops key) ∧
        fileRows s key = (groups.map fun g => c.prep g.flatten).flatten := by
  obtain ⟨s, hs, h⟩ := writeSession_spec c ops order hu ho
  refine ⟨s, hs, fun key hk => ?_⟩
  obtain ⟨g, hg, hr, -⟩ := h.appended key (fun hw => hu key ⟨hk, hw⟩)
  exact ⟨g, hg, hr⟩

example : ∃ s, writeSession { mem := List.length, prep := List.reverse } exOps ["extra", "data", "other"] = .ok s ∧
    ∀ key, IsAppended exOps key → ∃ groups, Cuts groups (framesAppended exOps key) ∧
      fileRows s key = (groups.map fun g => List.reverse g.flatten).flatten :=
  C15_prepared_batches { mem := List.length, prep := List.reverse } exOps _ exOps_unmixed exOps_order

/-! ### C16 -/

/-- C16: per-table sizes, the total and the version in the closed file. -/
theorem C16_byte_accounting (c : WCfg ρ) (ops : List (Op ρ ν)) (order : List String) (hu : Unmixed ops)
    (ho : IsOrder ops order) :
    ∃ (s : Store ρ ν) (n : String → Int), writeSession c ops order = .ok s ∧
      (∀ key, IsData ops key → fileField s key "metadata" "n_bytes" = some (.int (n key))) ∧
      (∀ key, IsAppended ops key → ∃ groups, Cuts groups (framesAppended ops key) ∧
        fileRows s key = (groups.map fun g => c.prep g.flatten).flatten ∧
        n key = ((groups.map fun g => c.mem (c.prep g.flatten)).sum : Nat)) ∧
      (∀ key df, (key = "mapping" → ¬ ∃ m md, Op.addMapping m md ∈ ops) → lastWrite ops key = some df →
        fileRows s key = df ∧ n key = c.mem df) ∧
      fileField s "data" "metadata" "total_bytes" = some (.int (order.map n).sum) ∧
      fileField s "data" "metadata" "version" = some (.str "3.1.0") := by
  obtain ⟨s, hs, h⟩ := writeSession_spec c ops order hu ho
  obtain ⟨n, hn, ht⟩ := h.total
  refine ⟨s, n, hs, hn, ?_, ?_, ht, h.version⟩
  · intro key hk
    obtain ⟨g, hg, hr, hb⟩ := h.appended key (fun hw => hu key ⟨hk, hw⟩)
    refine ⟨g, hg, hr, ?_⟩
    have := hb (Or.inl hk)
    rw [hn key (Or.inl hk)] at this
    simpa using this
  · intro key df hm hl
    have hwr := (lastWrite_isSome ops key).mp (by rw [hl]; rfl)
    have hna : ¬ IsAppended ops key := fun ha => hu key ⟨ha, Or.inl hwr⟩
    obtain ⟨h1, h2⟩ := h.written key df hna hm hl
    refine ⟨h1, ?_⟩
    rw [hn key (Or.inr hwr)] at h2
    simpa using h2

example := C16_byte_accounting { mem := fun df => 300000000 * df.length, prep := id } exOps ["extra", "data", "other"]
  exOps_unmixed exOps_order

/-! ### C17 -/

/-- C17: a reader of the closed file gets, for every dictionary added under a listable name of a table, exactly the last
value given to each field (fields the library writes itself — the sizes and the version — carry the library's value). -/
theorem C17_metadata_round_trip [DecidableEq ν] (c : WCfg ρ) (ops : List (Op ρ ν)) (order : List String)
    (hu : Unmixed ops) (ho : IsOrder ops order) :
    ∃ s, writeSession c ops order = .ok s ∧ ∀ r, openReader s = .ok r →
      ∀ key name, key ≠ "mapping" → Listable name →
        (HasMeta ops key name → ∃ d, getMetadata r key name = .ok d ∧
          ∀ f, ¬ (name = "metadata" ∧ (f = "n_bytes" ∨ f = "total_bytes" ∨ f = "version")) →
            Dict.get? d f = lastField ops key name f) ∧
        (¬ HasMeta ops key name → ¬ (name = "metadata" ∧ (IsData ops key ∨ key = "data")) →
          getMetadata r key name = .error .keyError) := by
  obtain ⟨s, hs, h⟩ := writeSession_spec c ops order hu ho
  refine ⟨s, hs, fun r hr key name hk hl => ?_⟩
  obtain ⟨-, -, hg⟩ := openReader_spec s h.nodup r hr
  constructor
  · intro hm
    have ha := (h.attr key name hk).mpr (Or.inl hm)
    obtain ⟨d, hd⟩ := Option.isSome_iff_exists.mp ha
    refine ⟨d, ?_, fun f hf => ?_⟩
    · rw [hg key name, hd]; simp [hk, hl]
    · have := h.field key name f hm (by grind) (by grind)
      rw [← this]; unfold fileField; rw [hd]; rfl
  · intro hm hnn
    have ha : ¬ (fileAttr s key name).isSome := by rw [h.attr key name hk]; grind
    have : fileAttr s key name = none := by simpa using ha
    rw [hg key name, this]

example := C17_metadata_round_trip { mem := List.length, prep := id } exOps ["extra", "data", "other"]
  exOps_unmixed exOps_order

/-- the hypotheses are met: in the example the later value 3 of `n_events` is what the specification asks for -/
example : HasMeta exOps "data" "metadata" ∧ lastField exOps "data" "metadata" "n_events" = some (.int 3) := by
  refine ⟨⟨by decide, by decide, ?_⟩, by decide⟩
  exact ⟨[("n_events", .int 2)], by simp [exOps]⟩

/-- C17: reserved names are refused and change nothing. -/
theorem C17_reserved (c : WCfg ρ) (st : WState ρ ν) (key name : String) (kv : MetaDict ν) :
    ((name = "info" ∨ name = "mapping") → step c st (.addMetadata key name kv) = (st, some .valueError)) ∧
    (¬ (name = "info" ∨ name = "mapping") → (step c st (.addMetadata key name kv)).2 = none) := by
  unfold step addMetadata
  constructor
  · intro h; simp only [if_pos h]
  · intro h; simp only [if_neg h]

example : step { mem := List.length, prep := id } (WState.init ([] : Store Nat Unit)) (.addMetadata "data" "info" [])
    = (WState.init [], some .valueError) := (C17_reserved _ _ "data" "info" []).1 (Or.inl rfl)

/-- C17: the limits of the statement. Names starting with an underscore and the dictionaries of `mapping` are stored but
never found by `get_metadata`. -/
theorem C17_unlisted [DecidableEq ν] (s : Store ρ ν) (hs : (Dict.keys s).Nodup) (r : HReader ρ ν)
    (hr : openReader s = .ok r) (key name : String) (h : key = "mapping" ∨ ¬ Listable name) :
    getMetadata r key name = .error .keyError := by
  rw [(openReader_spec s hs r hr).2.2 key name]
  split
  · rfl
  · rw [if_neg]; grind

example : ∃ r, openReader ([("data", { fmt := .fixed, rows := [], attrs := [("metadata", []), ("_x", [])] })] : Store Nat Unit)
      = .ok r ∧ getMetadata r "data" "_x" = .error .keyError := by
  refine ⟨_, rfl, ?_⟩
  exact C17_unlisted [("data", { fmt := .fixed, rows := [], attrs := [("metadata", []), ("_x", [])] })] (by decide) _ rfl
    "data" "_x" (Or.inr (by decide))

/-! ### C18 -/

/-- C18 is false of the code: a session that only attaches a named dictionary to a new key closes successfully, and the
file cannot be opened (`AttributeError`). -/
theorem C18_false : ∃ (ops : List (Op Nat Unit)) (s : Store Nat Unit),
    writeSession { mem := List.length, prep := id } ops [] = .ok s ∧ IsOrder ops [] ∧
    openReader s = .error .attributeError := by
  refine ⟨[.addMetadata "mc" "mcheader" [("energy", .int 3)]], _, rfl, ⟨by decide, ?_⟩, rfl⟩
  intro k; simp [IsData, IsAppended]

/-- C18, what holds: a closed file opens exactly when every key that received some dictionary also received one named
`metadata`, or is a table, or is `data`, or is the mapping stored by `add_mapping`. (The full claim would drop the
right-hand side.) -/
theorem C18_opens_iff_partial [DecidableEq ν] (c : WCfg ρ) (ops : List (Op ρ ν)) (order : List String)
    (hu : Unmixed ops) (ho : IsOrder ops order) :
    ∃ s, writeSession c ops order = .ok s ∧
      ((∃ r, openReader s = .ok r) ↔
        ∀ key name, HasMeta ops key name → HasMeta ops key "metadata" ∨ IsData ops key ∨ key = "data" ∨
          (key = "mapping" ∧ ∃ m md, Op.addMapping m md ∈ ops)) ∧
      ((¬ ∃ r, openReader s = .ok r) → openReader s = .error .attributeError) := by
  obtain ⟨s, hs, h⟩ := writeSession_spec c ops order hu ho
  refine ⟨s, hs, ?_, ?_⟩
  · rw [openReader_ok_iff' s h.nodup]
    constructor
    · intro hall key name hm
      have hp := (h.present key).mpr (Or.inr (Or.inr (Or.inl ⟨name, hm⟩)))
      have ha := hall key hp
      by_cases hk : key = "mapping"
      · subst hk
        have := h.mapAttr.mp ha
        grind
      · rw [h.attr key "metadata" hk] at ha
        grind
    · intro hall key hp
      rw [h.present key] at hp
      by_cases hk : key = "mapping"
      · subst hk
        rw [h.mapAttr]
        rcases hp with hp | hp | ⟨name, hm⟩ | hp
        · exact Or.inr (Or.inl hp)
        · exact absurd hp (by decide)
        · have := hall "mapping" name hm
          have hd : ¬ ("mapping" = "data") := by decide
          grind
        · exact Or.inr (Or.inr hp.2)
      · rw [h.attr key "metadata" hk]
        rcases hp with hp | hp | ⟨name, hm⟩ | hp
        · exact Or.inr ⟨rfl, Or.inl hp⟩
        · exact Or.inr ⟨rfl, Or.inr hp⟩
        · have := hall key name hm
          grind
        · exact absurd hp.1 hk
  · intro hno
    cases ho' : openReader s with
    | ok r => exact absurd ⟨r, ho'⟩ hno
    | error e => rw [openReader_error s e ho']

example := C18_opens_iff_partial { mem := List.length, prep := id } exOps ["extra", "data", "other"]
  exOps_unmixed exOps_order

/-! ### C19 -/

/-- C19: at every moment of every history, the rows in the file followed by the rows still buffered are the rows
appended so far; in particular the file holds a prefix of them. -/
theorem C19_prefix (mem : List ρ → Nat) (ops : List (Op ρ ν)) (key : String) (hw : ¬ IsWritten ops key) :
    fileRows (run { mem := mem, prep := id } (WState.init []) ops).store key
        ++ ((run { mem := mem, prep := id } (WState.init []) ops).dfList key).flatten = rowsAppended ops key ∧
    fileRows (run { mem := mem, prep := id } (WState.init []) ops).store key <+: rowsAppended ops key := by
  have h := run_inv { mem := mem, prep := id } ([] : Store ρ ν) key (appendable_nil key) ops hw
  obtain ⟨g, -, h2, h3, -⟩ := h.data
  have e : fileRows (run { mem := mem, prep := id } (WState.init []) ops).store key
      ++ ((run { mem := mem, prep := id } (WState.init []) ops).dfList key).flatten = rowsAppended ops key := by
    rw [rowsAppended, ← h2, h3]
    simp [fileRows, Dict.get?, List.flatten_flatten]
  exact ⟨e, ⟨_, e⟩⟩

example := C19_prefix (fun df : List Nat => 300000000 * df.length) exOps "data" (by
  rintro (⟨df, h⟩ | ⟨h, -⟩)
  · simp [exOps] at h
  · exact absurd h (by decide))

/-- the example really has flushed and unflushed rows: after the second `append` to `data` 2 rows are in the file … -/
example : fileRows (run { mem := fun df => 300000000 * df.length, prep := id } (WState.init []) exOps).store "data" = [1, 2] ∧
    ((run { mem := fun df => 300000000 * df.length, prep := id } (WState.init []) exOps).dfList "data").flatten = [3] := by
  decide

/-- C19: an exception leaving the with-block after any number of calls. Closing then stores every row appended up to
that point. -/
theorem C19_interrupted (mem : List ρ → Nat) (ops done : List (Op ρ ν)) (hp : done <+: ops) (order : List String)
    (hu : Unmixed ops) (ho : IsOrder done order) :
    ∃ s, writeSession { mem := mem, prep := id } done order = .ok s ∧
      ∀ key, IsAppended done key → fileRows s key = rowsAppended done key := by
  apply C15_appended_rows mem done order _ ho
  obtain ⟨rest, rfl⟩ := hp
  rintro key ⟨⟨df, h⟩, hw⟩
  refine hu key ⟨⟨df, by simp [h]⟩, ?_⟩
  rcases hw with ⟨df', h'⟩ | ⟨hk, m, md, h'⟩
  · exact Or.inl ⟨df', by simp [h']⟩
  · exact Or.inr ⟨hk, m, md, by simp [h']⟩

example := C19_interrupted (fun df : List Nat => df.length) exOps (exOps.take 2) (List.take_prefix _ _) ["data", "other"]
  exOps_unmixed (by
    refine ⟨by decide, fun k => ?_⟩
    simp only [IsData, IsAppended, exOps, List.take, List.mem_cons, List.not_mem_nil, Op.append.injEq,
      reduceCtorEq, or_false]
    grind)

/-- C19: in such histories `append` never raises. -/
theorem C19_append_never_raises (c : WCfg ρ) (ops : List (Op ρ ν)) (key : String) (df : List ρ)
    (hw : ¬ IsWritten ops key) : (step c (run c (WState.init []) ops) (.append df key)).2 = none :=
  append_call_ok c [] key (appendable_nil key) ops hw df

example := C19_append_never_raises { mem := fun df : List Nat => 600000000 * df.length, prep := id } exOps "data" [9] (by
  rintro (⟨df, h⟩ | ⟨h, -⟩)
  · simp [exOps] at h
  · exact absurd h (by decide))

/-! ### C20 -/

/-- a table of the file the reader may hand out: not the mapping, recorded size present and not 0 -/
def Readable (s : Store ρ ν) (key : String) : Prop :=
  key ≠ "mapping" ∧ ∃ v, fileField s key "metadata" "n_bytes" = some v ∧ v ≠ .int 0

/-- C20: `read` on every opened file, key and force flag. -/
theorem C20_read [DecidableEq ν] (s : Store ρ ν) (hs : (Dict.keys s).Nodup) (r : HReader ρ ν)
    (hr : openReader s = .ok r) (key : String) (force : Bool) :
    (readTable r key force = .error .keyError ↔ ¬ Readable s key) ∧
    (∀ n, Readable s key → fileField s key "metadata" "n_bytes" = some (.int n) →
      (n > 8000000000 ∧ force = false → readTable r key force = .error .memoryError) ∧
      (¬ (n > 8000000000 ∧ force = false) → readTable r key force = .ok (fileRows s key))) ∧
    "mapping" ∉ r.dataframeKeys := by
  obtain ⟨h1, h2, h3⟩ := openReader_spec s hs r hr
  have hmain : ∀ v, Readable s key → fileField s key "metadata" "n_bytes" = some v →
      readTable r key force = (match v with
        | .int n => if n > readLimit ∧ force = false then .error .memoryError else .ok (fileRows s key)
        | _ => .error .typeError) := by
    intro v hre hv
    have hk : key ∈ r.dataframeKeys := (h2 key).mpr hre
    unfold readTable
    rw [if_pos hk]
    unfold fileField at hv
    cases ha : fileAttr s key "metadata" with
    | none => rw [ha] at hv; cases hv
    | some d =>
      rw [ha] at hv
      have hgm : getMetadata r key "metadata" = .ok d := by
        rw [h3 key "metadata", ha]
        have : Listable "metadata" := by decide
        simp [hre.1, this]
      have hnb : getNBytes r key = .ok v := by
        unfold getNBytes
        rw [hgm]
        have : Dict.getItem d "n_bytes" = .ok v := (Dict.getItem_eq_ok_iff d "n_bytes" v).mpr hv
        exact this
      rw [hnb]
      simp only [bind, Except.bind]
      have hrows : ∃ nd, Dict.get? r.store key = some nd ∧ fileRows s key = nd.rows := by
        unfold fileAttr at ha
        cases hg : Dict.get? s key with
        | none => rw [hg] at ha; cases ha
        | some nd => exact ⟨nd, by rw [h1, hg], by unfold fileRows; rw [hg]⟩
      obtain ⟨nd, hnd, hrow⟩ := hrows
      rw [hnd, hrow]
      cases v <;> rfl
  refine ⟨?_, ?_, ?_⟩
  · constructor
    · intro h hre
      obtain ⟨v, hv, -⟩ := hre.2
      rw [hmain v hre hv] at h
      cases v with
      | int n => dsimp only at h; split at h <;> cases h
      | str x => cases h
      | obj x => cases h
    · intro hn
      unfold readTable
      rw [if_neg (fun hk => hn ((h2 key).mp hk))]
  · intro n hre hv
    rw [hmain _ hre hv]
    constructor
    · intro hc; exact if_pos hc
    · intro hc; exact if_neg hc
  · intro hk; exact absurd rfl ((h2 "mapping").mp hk).1

/-- a file with a table of 9 GB -/
def bigFile : Store Nat Unit :=
  [("data", { fmt := .table, rows := [4, 5], attrs := [("metadata", [("n_bytes", .int 9000000000)])] })]

example : ∃ r, openReader bigFile = .ok r ∧
    readTable r "data" false = .error .memoryError ∧ readTable r "data" true = .ok [4, 5] ∧
    readTable r "nope" true = .error .keyError := by
  have hre : Readable bigFile "data" := ⟨by decide, .int 9000000000, rfl, by decide⟩
  refine ⟨_, rfl, ?_, ?_, ?_⟩
  · exact ((C20_read bigFile (by decide) _ rfl "data" false).2.1 9000000000 hre rfl).1 (by decide)
  · exact ((C20_read bigFile (by decide) _ rfl "data" true).2.1 9000000000 hre rfl).2 (by decide)
  · refine (C20_read bigFile (by decide) _ rfl "nope" true).1.mpr ?_
    rintro ⟨-, v, hv, -⟩
    exact absurd hv (by simp [fileField, fileAttr, bigFile, Dict.get?])

/-! ### C24 -/

/-- C24, what holds: for a table that is never appended to in the session, the last `write` wins.  (The full claim
would also cover tables that are appended to, see `C24_false`.) -/
theorem C24_last_write_wins_partial (c : WCfg ρ) (ops : List (Op ρ ν)) (order : List String) (hu : Unmixed ops)
    (ho : IsOrder ops order) :
    ∃ s, writeSession c ops order = .ok s ∧
      ∀ key df, ¬ IsAppended ops key → (key = "mapping" → ¬ ∃ m md, Op.addMapping m md ∈ ops) →
        lastWrite ops key = some df → fileRows s key = df := by
  obtain ⟨s, hs, h⟩ := writeSession_spec c ops order hu ho
  exact ⟨s, hs, fun key df ha hm hl => (h.written key df ha hm hl).1⟩

example := C24_last_write_wins_partial { mem := List.length, prep := id } exOps ["extra", "data", "other"]
  exOps_unmixed exOps_order

/-- C24 is false of the code when a frame for the same table is still buffered: closing raises `ValueError`. -/
theorem C24_false : ∃ (ops : List (Op Nat Unit)), lastWrite ops "data" = some [2] ∧ IsOrder ops ["data"] ∧
    writeSession { mem := List.length, prep := id } ops ["data"] = .error .valueError := by
  refine ⟨[.append [1] "data", .write "data" [2]], by decide, ⟨by decide, ?_⟩, rfl⟩
  intro k; simp [IsData, IsAppended]

/-- C24: the general form of the failure. If rows are buffered for a table when it is overwritten, closing right after
fails, whatever else is in the session and in whatever order tables are visited. -/
theorem C24_append_then_write_fails (c : WCfg ρ) (st : WState ρ ν) (key : String) (df : List ρ) (order : List String)
    (hk : key ∈ order) (hb : st.dfList key ≠ []) (hp : c.prep (st.dfList key).flatten ≠ []) :
    finish c (step c st (.write key df)).1 order = .error .valueError := by
  have hloop : ∀ (order : List String) (st : WState ρ ν) (t : Int), key ∈ order → st.dfList key ≠ [] →
      c.prep (st.dfList key).flatten ≠ [] → (∃ nd, Dict.get? st.store key = some nd ∧ nd.fmt = .fixed) →
      finishLoop c order st t = .error .valueError := by
    intro order
    induction order with
    | nil => intro st t h; cases h
    | cons k order ih =>
      intro st t hk h1 h2 h3
      unfold finishLoop
      by_cases hkk : k = key
      · subst hkk
        obtain ⟨nd, hnd, hf⟩ := h3
        have : flush c st k = (st, some .valueError) := by
          unfold flush Store.append
          simp [h1, h2, hnd, hf]
        rw [this]
      · have hk' : key ∈ order := by
          rcases List.mem_cons.mp hk with h | h
          · exact absurd h.symm hkk
          · exact h
        have hs := flush_other c st k key (Ne.symm hkk)
        cases he : (flush c st k) with
        | mk st1 e =>
          rw [he] at hs
          cases e with
          | some e =>
            have : e = .valueError := by
              unfold flush at he
              split at he
              · cases he
              · dsimp only at he
                split at he
                · rename_i e' hap
                  cases he
                  unfold Store.append at hap
                  split at hap
                  · cases hap
                  · split at hap
                    · cases hap
                    · split at hap
                      · cases hap
                      · cases hap; rfl
                · cases he
            rw [this]
          | none =>
            dsimp only
            apply ih
            · exact hk'
            · change st1.dfList key ≠ []
              rw [hs.2.1]; exact h1
            · change c.prep (st1.dfList key).flatten ≠ []
              rw [hs.2.1]; exact h2
            · change ∃ nd, Dict.get? st1.store key = some nd ∧ nd.fmt = .fixed
              rw [hs.1]; exact h3
  unfold finish
  rw [hloop order (step c st (.write key df)).1 0 hk hb hp
    ⟨{ fmt := .fixed, rows := df, attrs := [] }, by simp [step, write, put_get], rfl⟩]
  rfl

example := C24_append_then_write_fails { mem := List.length, prep := id }
  (run { mem := List.length, prep := id } (WState.init []) exOps) "data" [8] ["other", "data"] (by decide) (by decide) (by decide)

end Verif.Props
