import Verif.Lemmas.Hdf5Reader

/-! # C21: chunked iteration -/

namespace Verif.Props

open Verif.Py Verif.Model Verif.Spec Verif.Lemmas

variable {ρ ν : Type}

/-- `cs` is a partition of `rows` into pieces of `chunk` rows, only the last of which may be shorter -/
def IsPartition (rows : List ρ) (chunk : Nat) (cs : List (List ρ)) : Prop :=
  cs.flatten = rows ∧ (∀ p ∈ cs, p ≠ [] ∧ p.length ≤ chunk) ∧ ∀ p ∈ cs.dropLast, p.length = chunk

theorem chunkLoop_spec (rows : List ρ) (chunk : Nat) (hc : 0 < chunk) (fuel current : Nat)
    (hf : rows.length ≤ current + fuel) :
    ∃ cs, chunkLoop rows chunk fuel current = some cs ∧ IsPartition (rows.drop current) chunk cs := by
  induction fuel generalizing current with
  | zero =>
    have : ¬ current < rows.length := by omega
    refine ⟨[], by simp [chunkLoop, this], ?_⟩
    have : rows.drop current = [] := List.drop_eq_nil_of_le (by omega)
    rw [this]
    exact ⟨rfl, by simp, by simp⟩
  | succ fuel ih =>
    unfold chunkLoop
    by_cases h : current < rows.length
    · obtain ⟨cs, h1, h2, h3, h4⟩ := ih (min (current + chunk) rows.length) (by omega)
      simp only [h, if_true, h1]
      have hlen : ((rows.drop current).take (min (current + chunk) rows.length - current)).length
          = min chunk (rows.length - current) := by simp; omega
      have hne : (rows.drop current).take (min (current + chunk) rows.length - current) ≠ [] := by
        intro h0; rw [h0] at hlen; simp at hlen; omega
      have : ((rows.drop current).take (min (current + chunk) rows.length - current)).isEmpty = false := by
        cases hv : (rows.drop current).take (min (current + chunk) rows.length - current) with
        | nil => exact absurd hv hne
        | cons _ _ => rfl
      simp only [this]
      refine ⟨_, rfl, ?_, ?_, ?_⟩
      · simp only [Bool.false_eq_true, if_false, List.flatten_cons, h2]
        have e : rows.drop (min (current + chunk) rows.length)
            = (rows.drop current).drop (min (current + chunk) rows.length - current) := by
          rw [List.drop_drop]; congr 1; omega
        rw [e, List.take_append_drop]
      · simp only [Bool.false_eq_true, if_false, List.mem_cons, forall_eq_or_imp]
        exact ⟨⟨hne, by omega⟩, h3⟩
      · simp only [Bool.false_eq_true, if_false]
        cases cs with
        | nil => simp
        | cons x cs =>
          rw [List.dropLast_cons_cons]
          simp only [List.mem_cons, forall_eq_or_imp]
          refine ⟨?_, h4⟩
          have hx := h3 x (by simp)
          have : min (current + chunk) rows.length < rows.length := by
            by_contra hge
            have : rows.drop (min (current + chunk) rows.length) = [] := List.drop_eq_nil_of_le (by omega)
            rw [this] at h2
            simp at h2
            exact hx.1 h2.1
          omega
    · refine ⟨[], by simp [h], ?_⟩
      have : rows.drop current = [] := List.drop_eq_nil_of_le (by omega)
      rw [this]
      exact ⟨rfl, by simp, by simp⟩

/-- C21: with a positive chunk size the iteration over a table ends and its chunks partition the table. -/
theorem C21_partition (r : HReader ρ ν) (key : String) (nd : Node ρ ν) (hg : Dict.get? r.store key = some nd)
    (ht : nd.fmt = .table) (chunk : Nat) (hc : 0 < chunk) :
    ∃ cs, (∀ fuel, nd.rows.length ≤ fuel → iterateOverChunks r key (some chunk) fuel = .ok (some cs)) ∧
      IsPartition nd.rows chunk cs := by
  obtain ⟨c, rfl⟩ : ∃ c, chunk = c + 1 := ⟨chunk - 1, by omega⟩
  have hdet : ∀ fuel, nd.rows.length ≤ fuel → ∀ cur, chunkLoop nd.rows (c + 1) fuel cur
      = chunkLoop nd.rows (c + 1) nd.rows.length cur := by
    have mono : ∀ f cur cs, chunkLoop nd.rows (c + 1) f cur = some cs → chunkLoop nd.rows (c + 1) (f + 1) cur = some cs := by
      intro f
      induction f with
      | zero =>
        intro cur cs h
        unfold chunkLoop at h ⊢
        split at h
        · cases h
        · rename_i hn; rw [if_neg hn]; exact h
      | succ f ih =>
        intro cur cs h
        unfold chunkLoop at h
        unfold chunkLoop
        split at h
        · rename_i hlt
          rw [if_pos hlt]
          dsimp only at h ⊢
          cases hr : chunkLoop nd.rows (c + 1) f (min (cur + (c + 1)) nd.rows.length) with
          | none => rw [hr] at h; cases h
          | some rest => rw [hr] at h; rw [ih _ _ hr]; exact h
        · rename_i hlt; rw [if_neg hlt]; exact h
    intro fuel hf cur
    obtain ⟨cs, hcs, -⟩ := chunkLoop_spec nd.rows (c + 1) (by omega) nd.rows.length cur (by omega)
    rw [hcs]
    obtain ⟨d, rfl⟩ : ∃ d, fuel = nd.rows.length + d := ⟨fuel - nd.rows.length, by omega⟩
    clear hf
    induction d with
    | zero => exact hcs
    | succ d ih => exact mono _ _ _ ih
  obtain ⟨cs, hcs, hp⟩ := chunkLoop_spec nd.rows (c + 1) (by omega) nd.rows.length 0 (by omega)
  refine ⟨cs, ?_, by simpa using hp⟩
  intro fuel hf
  unfold iterateOverChunks
  rw [hg]
  dsimp only
  rw [ht]
  dsimp only
  rw [hdet fuel hf 0, hcs]

/-- a table of five rows -/
def fiveRows : Store Nat Unit :=
  [("data", { fmt := .table, rows := [1, 2, 3, 4, 5], attrs := [("metadata", [("n_bytes", .int 40)])] })]

example := C21_partition { store := fiveRows, dataframeKeys := [], metadataKeys := [] } "data" _ rfl rfl 2 (by decide)

example : iterateOverChunks { store := fiveRows, dataframeKeys := [], metadataKeys := [] } "data" (some 2) 5
    = .ok (some [[1, 2], [3, 4], [5]]) := rfl

theorem nBytes_of_field [DecidableEq ν] (s : Store ρ ν) (hs : (Dict.keys s).Nodup) (r : HReader ρ ν) (hr : openReader s = .ok r) (key : String)
    (hk : key ≠ "mapping") (nBytes : Nat) (hn : fileField s key "metadata" "n_bytes" = some (.int nBytes)) : getNBytes r key = .ok (.int nBytes) := by
  obtain ⟨-, -, h3⟩ := openReader_spec s hs r hr
  unfold getNBytes
  unfold fileField at hn
  cases ha : fileAttr s key "metadata" with
  | none => rw [ha] at hn; cases hn
  | some d =>
    rw [ha] at hn
    have : Listable "metadata" := by decide
    rw [h3 key "metadata", ha]
    simp only [ne_eq, hk, not_false_eq_true, this, and_self, if_true]
    exact (Dict.getItem_eq_ok_iff d "n_bytes" _).mpr hn

/-- C21: the default chunk (`chunksize` absent or 0). If an average row is at most 2e9 bytes, the iteration also
partitions the table, with chunks of at most 2e9 bytes by the recorded average. -/
theorem C21_default [DecidableEq ν] (s : Store ρ ν) (hs : (Dict.keys s).Nodup) (r : HReader ρ ν)
    (hr : openReader s = .ok r) (key : String) (hk : key ≠ "mapping")
    (nd : Node ρ ν) (hg : Dict.get? s key = some nd) (ht : nd.fmt = .table) (nBytes : Nat) (hb : 0 < nBytes)
    (hn : fileField s key "metadata" "n_bytes" = some (.int nBytes)) (havg : nBytes ≤ nd.rows.length * 2000000000) :
    ∃ chunk cs, 0 < chunk ∧ chunk * nBytes ≤ nd.rows.length * 2000000000 ∧
      (∀ cz, cz = none ∨ cz = some 0 → iterateOverChunks r key cz nd.rows.length = .ok (some cs)) ∧
      IsPartition nd.rows chunk cs := by
  obtain ⟨h1, -, h3⟩ := openReader_spec s hs r hr
  have hpos : 0 < defaultChunk nd.rows.length nBytes := Nat.div_pos havg hb
  obtain ⟨cs, hcs, hp⟩ := chunkLoop_spec nd.rows (defaultChunk nd.rows.length nBytes) hpos nd.rows.length 0 (by omega)
  refine ⟨defaultChunk nd.rows.length nBytes, cs, hpos, Nat.div_mul_le_self _ _, ?_, by simpa using hp⟩
  have hnb := nBytes_of_field s hs r hr key hk nBytes hn
  intro cz hcz
  unfold iterateOverChunks
  rw [h1, hg]
  dsimp only
  have hz : ¬ ((nBytes : Int) = 0) := by omega
  rcases hcz with rfl | rfl <;>
  · simp only [hnb, hz, if_false, ht, Int.toNat_natCast, hcs]

example : ∃ r, openReader fiveRows = .ok r ∧ ∃ chunk cs, 0 < chunk ∧ chunk * 40 ≤ 5 * 2000000000 ∧
    (∀ cz, cz = none ∨ cz = some 0 → iterateOverChunks r "data" cz 5 = .ok (some cs)) ∧
    IsPartition [1, 2, 3, 4, 5] chunk cs :=
  ⟨_, rfl, C21_default fiveRows (by decide) _ rfl "data" (by decide) _ rfl rfl 40 (by decide) rfl (by decide)⟩

theorem chunkLoop_zero (rows : List ρ) (h0 : rows ≠ []) (fuel : Nat) : chunkLoop rows 0 fuel 0 = none := by
  have hl : 0 < rows.length := List.length_pos_iff.mpr h0
  induction fuel with
  | zero => simp [chunkLoop, hl]
  | succ fuel ih =>
    unfold chunkLoop
    simp [hl, ih]

/-- C21: the excluded case. If an average row is larger than 2e9 bytes the default chunk is 0 rows and the iteration
never ends: for every number of loop passes it is still running. -/
theorem C21_default_diverges [DecidableEq ν] (s : Store ρ ν) (hs : (Dict.keys s).Nodup) (r : HReader ρ ν)
    (hr : openReader s = .ok r) (key : String) (hk : key ≠ "mapping")
    (nd : Node ρ ν) (hg : Dict.get? s key = some nd) (ht : nd.fmt = .table) (h0 : nd.rows ≠ []) (nBytes : Nat)
    (hn : fileField s key "metadata" "n_bytes" = some (.int nBytes)) (havg : nd.rows.length * 2000000000 < nBytes) (cz : Option Nat)
    (hcz : cz = none ∨ cz = some 0) (fuel : Nat) : iterateOverChunks r key cz fuel = .ok none := by
  obtain ⟨h1, -, h3⟩ := openReader_spec s hs r hr
  have hnb := nBytes_of_field s hs r hr key hk nBytes hn
  have hd : defaultChunk nd.rows.length nBytes = 0 := Nat.div_eq_of_lt havg
  unfold iterateOverChunks
  rw [h1, hg]
  dsimp only
  have hz : ¬ ((nBytes : Int) = 0) := by omega
  rcases hcz with rfl | rfl <;>
  · simp only [hnb, hz, if_false, ht, Int.toNat_natCast, hd, chunkLoop_zero nd.rows h0]

/-- a table of two rows with 5e9 bytes -/
def twoHuge : Store Nat Unit :=
  [("data", { fmt := .table, rows := [1, 2], attrs := [("metadata", [("n_rows", .int 2), ("n_bytes", .int 5000000000)])] })]

example : ∃ r, openReader twoHuge = .ok r ∧ iterateOverChunks r "data" none 1000 = .ok none :=
  ⟨_, rfl, C21_default_diverges twoHuge (by decide) _ rfl "data" (by decide) _ rfl rfl (by decide) 5000000000 rfl (by decide) none (Or.inl rfl) 1000⟩

/-- C21: tables stored with `write` are in fixed format and cannot be iterated at all. -/
theorem C21_written_table (r : HReader ρ ν) (key : String) (nd : Node ρ ν) (hg : Dict.get? r.store key = some nd)
    (ht : nd.fmt = .fixed) (chunk fuel : Nat) (hc : 0 < chunk) :
    iterateOverChunks r key (some chunk) fuel = .error .typeError := by
  obtain ⟨c, rfl⟩ : ∃ c, chunk = c + 1 := ⟨chunk - 1, by omega⟩
  unfold iterateOverChunks
  rw [hg]
  simp [ht]

/-- a file with one table stored with `write` -/
def oneWritten : Store Nat Unit := [("x", { fmt := .fixed, rows := [1], attrs := [] })]

example := C21_written_table { store := oneWritten, dataframeKeys := [], metadataKeys := [] } "x" _ rfl rfl 3 10 (by decide)

end Verif.Props
