import Verif.Lemmas.Hdf5Appender
import Mathlib.Algebra.BigOperators.Group.List.Basic

/-! # C22, C23: appending to an existing file -/

namespace Verif.Props

open Verif.Py Verif.Model Verif.Spec Verif.Lemmas

variable {ρ ν : Type}

/-- tables of the existing file that can be appended to: absent, or written with `append` before -/
def TableOrAbsent (s : Store ρ ν) (key : String) : Prop :=
  ∀ nd, Dict.get? s key = some nd → nd.fmt = .table

/-- an existing file: a table `data` of 9 GB (two rows here), a table `other`, and a dictionary -/
def oldFile : Store Nat Unit :=
  [("data", { fmt := .table, rows := [1, 2],
              attrs := [("metadata", [("n_bytes", .int 9000000000), ("total_bytes", .int 9000000100),
                ("version", .str "3.1.0"), ("n_events", .int 2)]), ("config", [("a", .int 1)])] }),
   ("other", { fmt := .table, rows := [7], attrs := [("metadata", [("n_bytes", .int 100)])] })]

/-- the calls of the running example -/
def addOps : List (Op Nat Unit) := [.append [3] "data", .addMetadata "data" "config" [("b", .int 2)]]

theorem addOps_unmixed : Unmixed addOps := by
  rintro key ⟨-, hw⟩
  rcases hw with ⟨df', h'⟩ | ⟨-, m, md, h⟩
  · simp [addOps] at h'
  · simp [addOps] at h

theorem addOps_order : IsOrder addOps ["data"] := by
  refine ⟨by decide, fun k => ?_⟩
  simp [IsData, IsAppended, addOps]

theorem addOps_data : ¬ IsWritten addOps "data" := by
  rintro (⟨df', h'⟩ | ⟨-, m, md, h⟩)
  · simp [addOps] at h'
  · simp [addOps] at h

theorem addOps_table : ∀ key, IsAppended addOps key → TableOrAbsent oldFile key := by
  rintro key ⟨df, h⟩
  simp [addOps] at h
  obtain ⟨-, rfl⟩ := h
  intro nd hnd
  simp [oldFile, Dict.get?] at hnd
  rw [← hnd]

/-- C22: closing succeeds; old rows followed by the new ones; untouched tables are identical; metadata fields that are
not given again (and are not maintained by the library) keep their value, the others get the last value given. -/
theorem C22_appender_keeps_content [DecidableEq ν] (mem : List ρ → Nat) (s : Store ρ ν) (hs : (Dict.keys s).Nodup)
    (r : HReader ρ ν) (hr : openReader s = .ok r) (t0 : Int)
    (ht : fileField s "data" "metadata" "total_bytes" = some (.int t0)) (ops : List (Op ρ ν)) (order : List String)
    (hu : Unmixed ops) (hd : ¬ IsWritten ops "data") (ha : ∀ key, IsAppended ops key → TableOrAbsent s key)
    (ho : IsOrder ops order) :
    ∃ s', appendSession { mem := mem, prep := id } s ops order = .ok s' ∧
      (∀ key, ¬ IsWritten ops key → fileRows s' key = fileRows s key ++ rowsAppended ops key) ∧
      (∀ key, key ≠ "data" → ¬ IsData ops key → (¬ ∃ name, HasMeta ops key name) →
        (key = "mapping" → ¬ ∃ m md, Op.addMapping m md ∈ ops) → Dict.get? s' key = Dict.get? s key) ∧
      (∀ key name f, ¬ IsWritten ops key →
        ¬ (name = "metadata" ∧ (f = "n_bytes" ∨ f = "total_bytes" ∨ f = "version")) →
        fileField s' key name f = (lastField ops key name f).or (fileField s key name f)) := by
  obtain ⟨s', h1, h2⟩ := appendSession_spec { mem := mem, prep := id } s hs r hr t0 ht ops order hu hd ha ho
  refine ⟨s', h1, ?_, h2.untouched, ?_⟩
  · intro key hw
    obtain ⟨g, ⟨hg, -⟩, hrow, -⟩ := h2.rows key hw
    rw [hrow, rowsAppended, ← hg]
    simp [List.flatten_flatten]
  · intro key name f hw hf
    exact h2.field key name f hw (by grind) (by grind)

example : ∃ r, openReader oldFile = .ok r := ⟨_, rfl⟩

example := C22_appender_keeps_content (fun df : List Nat => 8 * df.length) oldFile (by decide) _ rfl 9000000100 rfl addOps
  ["data"] addOps_unmixed addOps_data addOps_table addOps_order

/-- C22: tables that are stored in fixed format (by `write`, or empty tables created to hold metadata) cannot be
extended: closing raises. -/
theorem C22_fixed_table_fails : ∃ (s : Store Nat Unit) (ops : List (Op Nat Unit)),
    (∃ r, openReader s = .ok r) ∧ Unmixed ops ∧ IsOrder ops ["extra"] ∧
    appendSession { mem := List.length, prep := id } s ops ["extra"] = .error .valueError := by
  refine ⟨[("data", { fmt := .fixed, rows := [], attrs := [("metadata", [("total_bytes", .int 8)])] }),
    ("extra", { fmt := .fixed, rows := [5], attrs := [("metadata", [("n_bytes", .int 8)])] })],
    [.append [6] "extra"], ⟨_, rfl⟩, ?_, ⟨by decide, ?_⟩, rfl⟩
  · rintro key ⟨-, hw⟩
    rcases hw with ⟨df', h'⟩ | ⟨-, m, md, h⟩
    · simp at h'
    · simp at h
  · intro k; simp [IsData, IsAppended]

/-- C22: overwriting `data` itself in an appender makes closing raise (the dictionary holding the old total is gone). -/
theorem C22_write_data_fails : ∃ (ops : List (Op Nat Unit)), Unmixed ops ∧ IsOrder ops ["data"] ∧
    appendSession { mem := List.length, prep := id } oldFile ops ["data"] = .error .attributeError := by
  refine ⟨[.write "data" [1]], ?_, ⟨by decide, ?_⟩, rfl⟩
  · rintro key ⟨⟨df, h⟩, -⟩
    simp at h
  · intro k; simp [IsData, IsAppended]

/-! ### C23 -/

/-- C23 is false of the code: after appending one row to a 9 GB table its recorded size is that of the new row alone, and
`read` without `force` hands out the whole table although it refused before. -/
theorem C23_false : ∃ s' r r', openReader oldFile = .ok r ∧ readTable r "data" false = .error .memoryError ∧
    appendSession { mem := fun df => 8 * df.length, prep := id } oldFile addOps ["data"] = .ok s' ∧
    openReader s' = .ok r' ∧
    fileField s' "data" "metadata" "n_bytes" = some (.int 8) ∧ readTable r' "data" false = .ok [1, 2, 3] :=
  ⟨_, _, _, rfl, rfl, rfl, rfl, rfl, rfl⟩

/-- C23, what holds: the recorded size of an appended table is the size of the batches added in this session only, and
the total grows by exactly these sizes. (The full claim would have the old size in the per-table value as well.) -/
theorem C23_sizes_partial [DecidableEq ν] (c : WCfg ρ) (s : Store ρ ν) (hs : (Dict.keys s).Nodup)
    (r : HReader ρ ν) (hr : openReader s = .ok r) (t0 : Int)
    (ht : fileField s "data" "metadata" "total_bytes" = some (.int t0)) (ops : List (Op ρ ν)) (order : List String)
    (hu : Unmixed ops) (hd : ¬ IsWritten ops "data") (ha : ∀ key, IsAppended ops key → TableOrAbsent s key)
    (ho : IsOrder ops order) :
    ∃ (s' : Store ρ ν) (n : String → Int), appendSession c s ops order = .ok s' ∧
      (∀ key, IsData ops key → fileField s' key "metadata" "n_bytes" = some (.int (n key))) ∧
      (∀ key, IsAppended ops key → ∃ groups, Cuts groups (framesAppended ops key) ∧
        fileRows s' key = fileRows s key ++ (groups.map fun g => c.prep g.flatten).flatten ∧
        n key = ((groups.map fun g => c.mem (c.prep g.flatten)).sum : Nat)) ∧
      fileField s' "data" "metadata" "total_bytes" = some (.int (t0 + (order.map n).sum)) := by
  obtain ⟨s', h1, h2⟩ := appendSession_spec c s hs r hr t0 ht ops order hu hd ha ho
  obtain ⟨n, hn, htot⟩ := h2.total
  refine ⟨s', n, h1, hn, ?_, htot⟩
  intro key hk
  obtain ⟨g, hg, hrow, hb⟩ := h2.rows key (fun hw => hu key ⟨hk, hw⟩)
  refine ⟨g, hg, hrow, ?_⟩
  have := hb (Or.inl hk)
  rw [hn key (Or.inl hk)] at this
  simpa using this

example := C23_sizes_partial { mem := fun df => 8 * df.length, prep := id } oldFile (by decide) _ rfl 9000000100 rfl addOps
  ["data"] addOps_unmixed addOps_data addOps_table addOps_order

/-- C23: consequence for the total. If the total was the sum of the per-table sizes before, it is afterwards too large by
exactly the old sizes of the tables appended to — here the witness. -/
theorem C23_total_false : ∃ s', appendSession { mem := fun df => 8 * df.length, prep := id } oldFile addOps ["data"] = .ok s' ∧
    fileField s' "data" "metadata" "n_bytes" = some (.int 8) ∧ fileField s' "other" "metadata" "n_bytes" = some (.int 100) ∧
    fileField s' "data" "metadata" "total_bytes" = some (.int 9000000108) :=
  ⟨_, rfl, rfl, rfl, rfl⟩

/-- a sum over the tables is a sum over those in use and the others -/
theorem sum_used (order tables : List String) (ho : order.Nodup) (ht : tables.Nodup) (hsub : ∀ k ∈ order, k ∈ tables) (f : String → Int) :
    (tables.map f).sum = (order.map f).sum + ((tables.filter fun k => k ∉ order).map f).sum := by
  have hp : tables.Perm (order ++ tables.filter fun k => k ∉ order) := by
    refine (List.perm_ext_iff_of_nodup ht ?_).2 fun k => ?_
    · refine List.nodup_append.2 ⟨ho, ht.filter _, ?_⟩
      rintro a ha b hb rfl
      exact absurd ha (by simpa using (List.mem_filter.1 hb).2)
    · simp only [List.mem_append, List.mem_filter, decide_eq_true_eq]
      grind
  rw [(hp.map f).sum_eq, List.map_append, List.sum_append]

/-- C23, exactly: the size recorded for a table appended to covers old and new rows if and only if the old size was zero; and, if the total was the sum over
the tables before, it is so afterwards if and only if the old sizes of the tables used in the session sum up to zero. (`n_bytes` belongs to the library: the
caller does not set it; tables without the entry count with zero, as for the reader. The full claim would drop both conditions.) -/
theorem C23_exactly_partial [DecidableEq ν] (c : WCfg ρ) (s : Store ρ ν) (hs : (Dict.keys s).Nodup) (r : HReader ρ ν) (hr : openReader s = .ok r) (t0 : Int)
    (ht : fileField s "data" "metadata" "total_bytes" = some (.int t0)) (ops : List (Op ρ ν)) (order : List String)
    (hu : Unmixed ops) (hd : ¬ IsWritten ops "data") (ha : ∀ key, IsAppended ops key → TableOrAbsent s key) (ho : IsOrder ops order)
    (huser : ∀ key, lastField ops key "metadata" "n_bytes" = none)
    (tables : List String) (htn : tables.Nodup) (hmap : "mapping" ∉ tables) (hsub : ∀ key, IsData ops key → key ∈ tables)
    (old : String → Int) (hold : ∀ k ∈ tables, fileField s k "metadata" "n_bytes" = some (.int (old k)) ∨ fileField s k "metadata" "n_bytes" = none ∧ old k = 0)
    (hsum : t0 = (tables.map old).sum) :
    ∃ s', appendSession c s ops order = .ok s' ∧
      (∀ key, IsAppended ops key → ∃ groups, Cuts groups (framesAppended ops key) ∧
        fileRows s' key = fileRows s key ++ (groups.map fun g => c.prep g.flatten).flatten ∧
        (fileField s' key "metadata" "n_bytes" = some (.int (old key + ((groups.map fun g => c.mem (c.prep g.flatten)).sum : Nat))) ↔ old key = 0)) ∧
      ∀ new : String → Int,
        (∀ k ∈ tables, fileField s' k "metadata" "n_bytes" = some (.int (new k)) ∨ fileField s' k "metadata" "n_bytes" = none ∧ new k = 0) →
        (fileField s' "data" "metadata" "total_bytes" = some (.int (tables.map new).sum) ↔ (order.map old).sum = 0) := by
  obtain ⟨s', h1, h2⟩ := appendSession_spec c s hs r hr t0 ht ops order hu hd ha ho
  obtain ⟨n, hn, htot⟩ := h2.total
  refine ⟨s', h1, ?_, ?_⟩
  · intro key hk
    obtain ⟨g, hg, hrow, hb⟩ := h2.rows key (fun hw => hu key ⟨hk, hw⟩)
    refine ⟨g, hg, hrow, ?_⟩
    rw [hb (Or.inl hk)]
    simp only [Option.some.injEq, MetaVal.int.injEq]
    omega
  · intro new hnew
    have hin : ∀ k ∈ order, k ∈ tables := fun k hk => hsub k ((ho.2 k).1 hk)
    have e1 : order.map new = order.map n := List.map_congr_left fun k hk => by
      have := hnew k (hin k hk)
      rw [hn k ((ho.2 k).1 hk)] at this
      simp only [Option.some.injEq, MetaVal.int.injEq, reduceCtorEq, false_and, or_false] at this
      exact this.symm
    have e2 : (tables.filter fun k => k ∉ order).map new = (tables.filter fun k => k ∉ order).map old := List.map_congr_left fun k hk => by
      obtain ⟨hk, hko⟩ := List.mem_filter.1 hk
      have hko : k ∉ order := by simpa using hko
      have hnd : ¬ IsData ops k := fun h => hko ((ho.2 k).2 h)
      have hnw : ¬ IsWritten ops k := by
        rintro (h | h)
        · exact hnd (Or.inr h)
        · exact hmap (h.1 ▸ hk)
      have hf := h2.field k "metadata" "n_bytes" hnw (by simp) (fun h => hnd h.1)
      rw [huser k, Option.none_or] at hf
      have a := hnew k hk
      have b := hold k hk
      rw [hf] at a
      rcases a with a | ⟨a, a'⟩ <;> rcases b with b | ⟨b, b'⟩
      · rw [a] at b; simpa using b
      · rw [a] at b; cases b
      · rw [a] at b; cases b
      · rw [a', b']
    rw [htot, sum_used order tables ho.1 htn hin new, e1, e2, hsum, sum_used order tables ho.1 htn hin old]
    simp only [Option.some.injEq, MetaVal.int.injEq]
    omega

/-- the hypotheses are met by the witness of `C23_false`: the old size of `data` is not zero, so neither value is right -/
example : ∃ s', appendSession { mem := fun df => 8 * df.length, prep := id } oldFile addOps ["data"] = .ok s' ∧
    ¬ fileField s' "data" "metadata" "total_bytes" = some (.int (8 + 100)) := by
  obtain ⟨s', h1, -, h3⟩ := C23_exactly_partial { mem := fun df => 8 * df.length, prep := id } oldFile (by decide) _ rfl 9000000100 rfl addOps ["data"]
    addOps_unmixed addOps_data addOps_table addOps_order
    (fun key => lastField_none_of_no_meta _ _ _ _ (by rintro ⟨-, -, kv, h⟩; simp [addOps] at h))
    ["data", "other"] (by decide) (by decide) (fun key h => by have := (addOps_order.2 key).2 h; simp at this; simp [this])
    (fun k => if k = "data" then 9000000000 else 100) (by intro k hk; simp at hk; rcases hk with rfl | rfl <;> exact .inl rfl) (by decide)
  obtain ⟨s2, g1, g2, g3, -⟩ := C23_total_false
  rw [h1] at g1
  cases g1
  refine ⟨s', h1, fun h => ?_⟩
  have := (h3 (fun k => if k = "data" then 8 else 100) (by intro k hk; simp at hk; rcases hk with rfl | rfl; exacts [.inl g2, .inl g3])).1 (by simpa using h)
  simp at this

end Verif.Props
