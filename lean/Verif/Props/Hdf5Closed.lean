import Verif.Props.Hdf5Mixed
import Verif.Props.Mapping
import Verif.Lemmas.Hdf5Closed

/-!
# C16, C17, C18, C107 for every history whose closing succeeds

The theorems of `Props/Hdf5` and `Props/Mapping` assume that no table is used with `append` and with `write` or `add_mapping` in one session, which is enough
for closing to succeed. Here the history is arbitrary, and closing is assumed to succeed (`C24_exactly_partial` says when it does).
-/

namespace Verif.Props

open Verif.Py Verif.Model Verif.Spec Verif.Lemmas

variable {ρ ν : Type}

/-! ### sizes -/

/-- the recorded size of a table replaced by `write`: that of the frame given last, and of empty frames appended later -/
theorem run_written_bytes (c : WCfg ρ) (ops : List (Op ρ ν)) (key : String) (hk : key = "mapping" → ¬ ∃ m md, Op.addMapping m md ∈ ops) (df : List ρ)
    (h : lastWrite ops key = some df) :
    FixedAs df (run c (WState.init []) ops) key ∧ ∃ j, (run c (WState.init []) ops).nBytes key = c.mem df + j * c.mem [] ∧
      (¬ IsAppended ops key → j = 0) := by
  induction ops using List.reverseRecOn generalizing df with
  | nil => simp [lastWrite] at h
  | append_singleton ops op ih =>
    have hk' : key = "mapping" → ¬ ∃ m md, Op.addMapping m md ∈ ops := fun a ⟨m, md, b⟩ => hk a ⟨m, md, List.mem_append_left _ b⟩
    rw [run_snoc]
    by_cases hw : OpWrites op key
    · cases op with
      | write k df' =>
        have hkk : k = key := hw
        subst hkk
        rw [lastWrite_snoc] at h
        simp only [opWrite, if_true, Option.some.injEq] at h
        subst h
        exact ⟨(step_write_fixed c _ _ k df' (.inl rfl)).1, 0, by simp [step, write, fset], fun _ => rfl⟩
      | addMapping m md => exact absurd ⟨m, md, by simp⟩ (hk hw)
      | append df k => exact absurd hw (by simp [OpWrites])
      | addMetadata k n kv => exact absurd hw (by simp [OpWrites])
    · have hl : lastWrite ops key = some df := by
        rw [lastWrite_snoc] at h
        cases op with
        | write k df' =>
          have : ¬ k = key := fun h => hw h
          simpa [opWrite, this] using h
        | _ => exact h
      obtain ⟨i1, j, i2, i3⟩ := ih hk' df hl
      by_cases ha : OpAppends op key
      · cases op with
        | append x k =>
          have hkk : k = key := ha
          subst hkk
          refine ⟨i1.append x, ?_⟩
          have hna : ¬ ¬ IsAppended (ops ++ [Op.append x k]) k := fun h => h ⟨x, by simp⟩
          rcases append_cases c (run c (WState.init []) ops) x k with h1 | h1
          · exact ⟨j, by change (append c _ x k).1.nBytes k = _; rw [h1]; exact i2, fun h => absurd h hna⟩
          · rcases flush_total c (buffered c (run c (WState.init []) ops) x k) k with ⟨-, h2, -⟩ | ⟨h2, -, -, h3⟩
            · exact ⟨j, by change (append c _ x k).1.nBytes k = _; rw [h1, h2]; exact i2, fun h => absurd h hna⟩
            · refine ⟨j + 1, ?_, fun h => absurd h hna⟩
              change (append c _ x k).1.nBytes k = _
              rw [h1, flush_bytes c _ k h2]
              obtain ⟨nd, n1, n2, -⟩ := i1
              obtain ⟨-, n3⟩ := h3 nd n1 n2
              have hne : (buffered c (run c (WState.init []) ops) x k).dfList k ≠ [] := by simp [buffered, fset]
              rw [if_neg hne, n3.resolve_left hne]
              change (run c (WState.init []) ops).nBytes k + _ = _
              rw [i2]
              ring
        | _ => exact absurd ha (by simp [OpAppends])
      · have hs := step_untouched c (run c (WState.init []) ops) op key hw ha
        exact ⟨i1.congr hs, j, by rw [hs.2.2]; exact i2, fun hn => i3 fun ⟨x, hx⟩ => hn ⟨x, List.mem_append_left _ hx⟩⟩

/-- C16 for every history whose closing succeeds: the size recorded for each table is that of what was stored in it – of the batches, for a table that was only
appended to, of the frame given last, for a table that was replaced (empty frames appended besides count each with the size of an empty frame) –, the total is
the sum over the tables, and the version is there. -/
theorem C16_every_history (c : WCfg ρ) (ops : List (Op ρ ν)) (order : List String) (ho : IsOrder ops order) (s : Store ρ ν)
    (h : writeSession c ops order = .ok s) :
    ∃ n : String → Int,
      (∀ key, IsData ops key → fileField s key "metadata" "n_bytes" = some (.int (n key))) ∧
      (∀ key, IsAppended ops key → ¬ IsWritten ops key → ∃ groups, Cuts groups (framesAppended ops key) ∧
        fileRows s key = (groups.map fun g => c.prep g.flatten).flatten ∧
        n key = ((groups.map fun g => c.mem (c.prep g.flatten)).sum : Nat)) ∧
      (∀ key df, (key = "mapping" → ¬ ∃ m md, Op.addMapping m md ∈ ops) → lastWrite ops key = some df →
        fileRows s key = df ∧ ∃ j : Nat, n key = c.mem df + j * c.mem [] ∧ (¬ IsAppended ops key → j = 0)) ∧
      fileField s "data" "metadata" "total_bytes" = some (.int (order.map n).sum) ∧
      fileField s "data" "metadata" "version" = some (.str "3.1.0") := by
  have hc := closed_spec c ops order ho s h
  have hfl := session_flushes c ops order ho s h
  refine ⟨fun k => finalBytes c (run c (WState.init []) ops) k, hc.bytes, ?_, ?_, hc.total, hc.version⟩
  · intro key ha hw
    have hd : IsData ops key := .inl ha
    have hl : lastReplace ops key = none := by
      cases hl : lastReplace ops key with
      | none => rfl
      | some df => exact absurd ((lastReplace_isSome ops key).1 (by rw [hl]; rfl)) hw
    obtain ⟨g, g1, g2, g3, g4⟩ := ((run_any c [] ops key).2 hl).flush
    have hnil : (flush c (run c (WState.init []) ops) key).1.dfList key = [] := by
      rcases flush_total c (run c (WState.init []) ops) key with ⟨h1, -⟩ | ⟨-, h1, -⟩
      · rw [hfl key ((ho.2 key).2 hd)] at h1; cases h1
      · exact h1
    rw [hnil, List.append_nil] at g2
    refine ⟨g, ⟨g2, g1⟩, ?_, ?_⟩
    · rw [hc.rows key hd, g3]; rfl
    · change ((flush c (run c (WState.init []) ops) key).1.nBytes key : Int) = _
      rw [g4]
  · intro key df hk hl
    have hd : IsData ops key := .inr ((lastWrite_isSome ops key).1 (by rw [hl]; rfl))
    obtain ⟨r1, j, r2, r3⟩ := run_written_bytes c ops key hk df hl
    constructor
    · rw [hc.rows key hd]
      obtain ⟨nd, a, -, b⟩ := r1.flush (c := c)
      unfold fileRows; rw [a]; exact b
    · have hb := flush_bytes c _ key (hfl key ((ho.2 key).2 hd))
      change ∃ j : Nat, ((flush c (run c (WState.init []) ops) key).1.nBytes key : Int) = _ ∧ _
      rw [hb, r2]
      by_cases h0 : (run c (WState.init []) ops).dfList key = []
      · exact ⟨j, by simp [h0], r3⟩
      · refine ⟨j + 1, ?_, fun hn => absurd (run_dfList_nil c [] key ops hn) h0⟩
        rcases flush_total c (run c (WState.init []) ops) key with ⟨h1, -⟩ | ⟨-, -, -, h1⟩
        · rw [hfl key ((ho.2 key).2 hd)] at h1; cases h1
        · obtain ⟨nd, a, b, -⟩ := r1
          rw [if_neg h0, (h1 nd a b).2.resolve_left h0]
          push_cast
          ring

/-! ### dictionaries -/

/-- C17 for every history whose closing succeeds. -/
theorem C17_every_history [DecidableEq ν] (c : WCfg ρ) (ops : List (Op ρ ν)) (order : List String) (ho : IsOrder ops order) (s : Store ρ ν)
    (h : writeSession c ops order = .ok s) (r : HReader ρ ν) (hr : openReader s = .ok r) (key name : String) (hk : key ≠ "mapping") (hl : Listable name) :
    (HasMeta ops key name → ∃ d, getMetadata r key name = .ok d ∧
      ∀ f, ¬ (name = "metadata" ∧ (f = "n_bytes" ∨ f = "total_bytes" ∨ f = "version")) → Dict.get? d f = lastField ops key name f) ∧
    (¬ HasMeta ops key name → ¬ (name = "metadata" ∧ (IsData ops key ∨ key = "data")) → getMetadata r key name = .error .keyError) := by
  have hc := closed_spec c ops order ho s h
  obtain ⟨-, -, hg⟩ := openReader_spec s hc.nodup r hr
  constructor
  · intro hm
    have ha := (hc.attr key name hk).mpr (Or.inl hm)
    obtain ⟨d, hd⟩ := Option.isSome_iff_exists.mp ha
    refine ⟨d, ?_, fun f hf => ?_⟩
    · rw [hg key name, hd]; simp [hk, hl]
    · have := hc.fieldAll key name f (Or.inl hm) (by grind) (by grind)
      rw [← this]; unfold fileField; rw [hd]; rfl
  · intro hm hnn
    have ha : ¬ (fileAttr s key name).isSome := by rw [hc.attr key name hk]; grind
    have : fileAttr s key name = none := by simpa using ha
    rw [hg key name, this]

/-- C18 for every history whose closing succeeds: exactly which files can be opened. -/
theorem C18_every_history_partial [DecidableEq ν] (c : WCfg ρ) (ops : List (Op ρ ν)) (order : List String) (ho : IsOrder ops order) (s : Store ρ ν)
    (h : writeSession c ops order = .ok s) :
    ((∃ r, openReader s = .ok r) ↔
      ∀ key name, HasMeta ops key name → HasMeta ops key "metadata" ∨ IsData ops key ∨ key = "data" ∨
        (key = "mapping" ∧ ∃ m md, Op.addMapping m md ∈ ops)) ∧
    ((¬ ∃ r, openReader s = .ok r) → openReader s = .error .attributeError) := by
  have h := closed_spec c ops order ho s h
  refine ⟨?_, ?_⟩
  · rw [openReader_ok_iff' s h.nodup]
    constructor
    · intro hall key name hm
      have hp := (h.present key).mpr (Or.inr (Or.inr (Or.inl ⟨name, hm⟩)))
      have ha := hall key hp
      by_cases hk : key = "mapping"
      · subst hk
        have := h.mapAttr.mp ha
        grind
      · rw [h.attr key "metadata" hk] at ha
        grind
    · intro hall key hp
      rw [h.present key] at hp
      by_cases hk : key = "mapping"
      · subst hk
        rw [h.mapAttr]
        rcases hp with hp | hp | ⟨name, hm⟩ | hp
        · exact Or.inr (Or.inl hp)
        · exact absurd hp (by decide)
        · have := hall "mapping" name hm
          have hd : ¬ ("mapping" = "data") := by decide
          grind
        · exact Or.inr (Or.inr hp.2)
      · rw [h.attr key "metadata" hk]
        rcases hp with hp | hp | ⟨name, hm⟩ | hp
        · exact Or.inr ⟨rfl, Or.inl hp⟩
        · exact Or.inr ⟨rfl, Or.inr hp⟩
        · have := hall key name hm
          grind
        · exact absurd hp.1 hk
  · intro hno
    cases ho' : openReader s with
    | ok r => exact absurd ⟨r, ho'⟩ hno
    | error e => rw [openReader_error s e ho']

/-- C107 for every history whose closing succeeds, in which the key `mapping` is used by `add_mapping` only. -/
theorem C107_every_history [DecidableEq ν] (c : WCfg ρ) (ops : List (Op ρ ν)) (order : List String) (ho : IsOrder ops order) (s : Store ρ ν)
    (h : writeSession c ops order = .ok s) (hd : ¬ IsData ops "mapping") (hm : ¬ ∃ name, HasMeta ops "mapping" name) (r : HReader ρ ν)
    (hr : openReader s = .ok r) :
    getMapping r = (match lastMapping ops with
      | some m => .ok m
      | none => .error .keyError) := by
  have hc := closed_spec c ops order ho s h
  cases hl : lastMapping ops with
  | some m =>
    obtain ⟨g1, g2⟩ := session_mapping c ops order ho hd (fun h => hm ⟨_, h⟩) s h m.1 m.2 hl
    rw [getMapping_of_file s hc.nodup r hr m.2 g2, g1]
  | none =>
    have hno : ¬ ∃ m md, Op.addMapping m md ∈ ops := by
      rintro ⟨m, md, hmem⟩
      exact absurd hl (lastMapping_ne_none ops m md hmem)
    have : ¬ (Dict.get? s "mapping").isSome := by
      rw [hc.present]
      rintro (h | h | h | h)
      · exact hd h
      · exact absurd h (by decide)
      · exact hm h
      · exact hno h.2
    obtain ⟨h1, -⟩ := openReader_spec s hc.nodup r hr
    unfold getMapping
    rw [h1]
    cases hg : Dict.get? s "mapping" with
    | none => rfl
    | some nd => rw [hg] at this; simp at this

/-! ### an example: `data` is appended to and replaced, with a dictionary and a mapping -/

def closedOps : List (Op Nat Unit) :=
  [.append [1, 2] "data", .addMapping [5, 6] [("n_pixels", .int 2)], .write "data" [9], .addMetadata "data" "config" [("a", .int 1)], .append [] "data",
    .addMetadata "data" "config" [("b", .int 2)], .write "data" [7, 8], .addMetadata "data" "config" [("a", .int 3)], .append [4] "other", .append [] "data"]

def closedCfg : WCfg Nat := { mem := fun df => 300000000 * df.length + 128, prep := id }

theorem closedOps_order : IsOrder closedOps ["data", "other"] := by
  refine ⟨by decide, fun k => ?_⟩
  simp only [IsData, IsAppended, closedOps, List.mem_cons, List.not_mem_nil, Op.append.injEq, Op.write.injEq, reduceCtorEq, or_false, false_or]
  grind

def closedFile : Store Nat Unit := (writeSession closedCfg closedOps ["data", "other"]).toOption.getD []

theorem closedFile_ok : writeSession closedCfg closedOps ["data", "other"] = .ok closedFile := by rfl

example : fileField closedFile "data" "metadata" "n_bytes" = some (.int (300000000 * 2 + 128 + 1 * 128)) ∧
    fileField closedFile "other" "metadata" "n_bytes" = some (.int 300000128) ∧
    fileField closedFile "data" "metadata" "total_bytes" = some (.int 900000384) := by decide +kernel

example := C16_every_history closedCfg closedOps _ closedOps_order _ closedFile_ok
example := C17_every_history closedCfg closedOps _ closedOps_order _ closedFile_ok

example : ∃ r, openReader closedFile = .ok r := (C18_every_history_partial closedCfg closedOps _ closedOps_order _ closedFile_ok).1.2 <| by
  rintro key name ⟨-, -, kv, h⟩
  simp only [closedOps, List.mem_cons, List.not_mem_nil, Op.addMetadata.injEq, reduceCtorEq, or_false, false_or] at h
  grind

example (r : HReader Nat Unit) (hr : openReader closedFile = .ok r) : getMapping r = .ok ([5, 6], [("n_pixels", .int 2)]) :=
  C107_every_history closedCfg closedOps _ closedOps_order _ closedFile_ok
    (by rintro (⟨df, h⟩ | ⟨df, h⟩) <;> simp [closedOps] at h) (by rintro ⟨name, -, -, kv, h⟩; simp [closedOps] at h) r hr

end Verif.Props
