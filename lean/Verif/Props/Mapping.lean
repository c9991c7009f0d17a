import Verif.Lemmas.Mapping
import Verif.Lemmas.Hdf5Reader
import Verif.Lemmas.Hdf5Appender
import Verif.Lemmas.Dl1File
import Verif.Model.TcMapping
import Verif.Props.Hdf5
import Verif.Props.Appender
import Verif.Props.Dl1

/-! # C107, C108: the mapping stored in a file -/

namespace Verif.Props

open Verif.Py Verif.Model Verif.Spec Verif.Lemmas

variable {ρ ν τ ε β S : Type}

theorem getMapping_of_file [DecidableEq ν] (s : Store ρ ν) (hs : (Dict.keys s).Nodup) (r : HReader ρ ν) (hr : openReader s = .ok r) (md : MetaDict ν)
    (h : fileAttr s "mapping" "metadata" = some md) : getMapping r = .ok (fileRows s "mapping", md) := by
  obtain ⟨h1, -⟩ := openReader_spec s hs r hr
  unfold getMapping fileRows
  unfold fileAttr at h
  rw [h1]
  cases hg : Dict.get? s "mapping" with
  | none => rw [hg] at h; cases h
  | some nd =>
    rw [hg] at h
    simp only [Option.bind_some] at h
    simp only [h]

/-! ### C107 -/

theorem lastMapping_ne_none (ops : List (Op ρ ν)) (m : List ρ) (md : MetaDict ν) (hmem : Op.addMapping m md ∈ ops) : lastMapping ops ≠ none := by
  induction ops using List.reverseRecOn with
  | nil => simp at hmem
  | append_singleton ops op ih =>
    rw [lastMapping_snoc]
    cases op with
    | addMapping a b => simp
    | append a b => exact ih (by simpa using hmem)
    | write a b => exact ih (by simpa using hmem)
    | addMetadata a b c => exact ih (by simpa using hmem)

/-- C107: for every history of calls in which the key `mapping` is used by `add_mapping` only, the closed file has exactly the table and the metadata
given last to `add_mapping`, and `get_mapping` raises `KeyError` if there was none. -/
theorem C107_round_trip [DecidableEq ν] (c : WCfg ρ) (ops : List (Op ρ ν)) (order : List String) (hu : Unmixed ops) (ho : IsOrder ops order)
    (hd : ¬ IsData ops "mapping") (hm : ¬ ∃ name, HasMeta ops "mapping" name) :
    ∃ s, writeSession c ops order = .ok s ∧ ∀ r, openReader s = .ok r →
      getMapping r = (match lastMapping ops with
        | some m => .ok m
        | none => .error .keyError) := by
  obtain ⟨s, hs, h⟩ := writeSession_spec c ops order hu ho
  refine ⟨s, hs, fun r hr => ?_⟩
  cases hl : lastMapping ops with
  | some m =>
    obtain ⟨g1, g2⟩ := session_mapping c ops order ho hd (fun h => hm ⟨_, h⟩) s hs m.1 m.2 hl
    rw [getMapping_of_file s h.nodup r hr m.2 g2, g1]
  | none =>
    have hno : ¬ ∃ m md, Op.addMapping m md ∈ ops := by
      rintro ⟨m, md, hmem⟩
      exact lastMapping_ne_none ops m md hmem hl
    have : ¬ (Dict.get? s "mapping").isSome := by
      rw [h.present]
      rintro (h | h | h | h)
      · exact hd h
      · exact absurd h (by decide)
      · exact hm h
      · exact hno h.2
    obtain ⟨h1, -⟩ := openReader_spec s h.nodup r hr
    unfold getMapping
    rw [h1]
    cases hg : Dict.get? s "mapping" with
    | none => rfl
    | some nd => rw [hg] at this; simp at this

theorem exOps_mapping : ¬ IsData exOps "mapping" ∧ ¬ ∃ name, HasMeta exOps "mapping" name := by
  constructor
  · rintro (⟨df, h⟩ | ⟨df, h⟩) <;> simp [exOps] at h
  · rintro ⟨name, -, -, kv, h⟩
    simp [exOps] at h

example : ∃ s, writeSession { mem := List.length, prep := id } exOps ["extra", "data", "other"] = .ok s ∧
    ∀ r, openReader s = .ok r → getMapping r = .ok ([7], [("n_pixels", .int 1)]) :=
  C107_round_trip _ exOps _ exOps_unmixed exOps_order exOps_mapping.1 exOps_mapping.2

/-- C107: the mapping of a DL1 file is the mapping of the raw file it was made from. -/
theorem C107_dl1 [DecidableEq ν] (mem : List (DRow β) → Nat) (castVals : β → β) (rd : RawReader τ ε β ν) (x : Extractor S τ ε β ν) (enc : Option τ → ν)
    (order : List String) (h : (dl1Calls rd x enc).2 = none) (ho : IsOrder (dl1Calls rd x enc).1 order) :
    ∃ s, writeDl1File mem castVals rd x enc order = (.ok s, none) ∧ ∀ r, openReader s = .ok r → getMapping r = .ok (rd.mapping, rd.mappingMeta) := by
  obtain ⟨s, st, vss, hf⟩ := dl1_file mem castVals rd x enc order h ho
  refine ⟨s, hf.file, fun r hr => ?_⟩
  obtain ⟨st', vss', -, -, -, -, -, h6, -⟩ := dl1Calls_ok rd x enc (dl1Calls rd x enc).1 (Prod.ext rfl h)
  have hs := hf.file
  unfold writeDl1File at hs
  simp only [Prod.mk.injEq] at hs
  rw [h6] at ho hs
  have hd : ¬ IsData (((goodEvents rd.events).zip vss').flatMap (eventOps rd) ++ (closingOps rd x enc st' ++ headerOps rd)) "mapping" := by
    rw [calls_isData]
    rintro ⟨-, h | ⟨-, h | h⟩⟩ <;> exact absurd h (by decide)
  have hl : lastMapping (((goodEvents rd.events).zip vss').flatMap (eventOps rd) ++ (closingOps rd x enc st' ++ headerOps rd)) = some (rd.mapping, rd.mappingMeta) := by
    unfold lastMapping headerOps closingOps
    rw [List.foldl_append]
    split <;> rfl
  obtain ⟨g1, g2⟩ := session_mapping _ _ order ho hd (by
    rintro ⟨-, -, kv, h⟩
    rcases List.mem_append.1 h with h | h
    · obtain ⟨p, -, h⟩ := List.mem_flatMap.1 h
      unfold eventOps at h
      split at h <;> simp at h
    · unfold closingOps headerOps at h
      split at h <;> simp at h) s hs.1 _ _ hl
  rw [getMapping_of_file s hf.session.nodup r hr _ g2, g1]

/-- C107: appending to a file leaves its mapping as it is, unless the calls use the key `mapping`. -/
theorem C107_append [DecidableEq ν] (c : WCfg ρ) (s : Store ρ ν) (hs : (Dict.keys s).Nodup) (r : HReader ρ ν) (hr : openReader s = .ok r) (t0 : Int)
    (ht : fileField s "data" "metadata" "total_bytes" = some (.int t0)) (ops : List (Op ρ ν)) (order : List String) (hu : Unmixed ops)
    (hw : ¬ IsWritten ops "data") (ha : ∀ key, IsAppended ops key → TableOrAbsent s key) (ho : IsOrder ops order)
    (hd : ¬ IsData ops "mapping") (hm : ¬ ∃ name, HasMeta ops "mapping" name) (hn : ¬ ∃ m md, Op.addMapping m md ∈ ops) :
    ∃ s', appendSession c s ops order = .ok s' ∧ ∀ r', openReader s' = .ok r' → getMapping r' = getMapping r := by
  obtain ⟨s', h1, h2⟩ := appendSession_spec c s hs r hr t0 ht ops order hu hw ha ho
  refine ⟨s', h1, fun r' hr' => ?_⟩
  have e : r.store = s := (openReader_spec s hs r hr).1
  have e' : r'.store = s' := by
    unfold openReader at hr'
    split at hr'
    · cases hr'
    · injection hr' with hr'
      rw [← hr']
  unfold getMapping
  rw [e, e', h2.untouched "mapping" (by decide) hd hm fun _ => hn]

/-- a file with a mapping, to which rows are appended -/
example : ∃ s' r, openReader (("mapping", { fmt := .fixed, rows := [7], attrs := [("metadata", [("n_pixels", .int 1)])] }) :: oldFile) = .ok r ∧
    appendSession { mem := List.length, prep := id } (("mapping", { fmt := .fixed, rows := [7], attrs := [("metadata", [("n_pixels", .int 1)])] }) :: oldFile)
      addOps ["data"] = .ok s' ∧ ∀ r', openReader s' = .ok r' → getMapping r' = .ok ([7], [("n_pixels", .int 1)]) := by
  obtain ⟨s', h1, h2⟩ := C107_append { mem := List.length, prep := id }
    (("mapping", { fmt := .fixed, rows := [7], attrs := [("metadata", [("n_pixels", .int 1)])] }) :: oldFile) (by decide) _ rfl 9000000100 rfl addOps ["data"]
    addOps_unmixed addOps_data (by
      rintro key ⟨df, h⟩
      simp [addOps] at h
      obtain ⟨-, rfl⟩ := h
      intro nd hnd
      simp [oldFile, Dict.get?] at hnd
      rw [← hnd]) addOps_order (by rintro (⟨df, h⟩ | ⟨df, h⟩) <;> simp [addOps] at h)
    (by rintro ⟨name, -, -, kv, h⟩; simp [addOps] at h) (by rintro ⟨m, md, h⟩; simp [addOps] at h)
  exact ⟨s', _, rfl, h1, h2⟩

/-- C107, the limit of the statement: metadata added under the key `mapping` and the name `metadata` replace those of the mapping when the file is closed. -/
theorem C107_replaced [DecidableEq ν] (c : WCfg ρ) (ops : List (Op ρ ν)) (order : List String) (hu : Unmixed ops) (ho : IsOrder ops order)
    (hd : ¬ IsData ops "mapping") (hm : HasMeta ops "mapping" "metadata") :
    ∃ s, writeSession c ops order = .ok s ∧ ∀ r, openReader s = .ok r → ∀ rows md, getMapping r = .ok (rows, md) →
      ∀ f, Dict.get? md f = lastField ops "mapping" "metadata" f := by
  obtain ⟨s, hs, h⟩ := writeSession_spec c ops order hu ho
  refine ⟨s, hs, fun r hr rows md hg f => ?_⟩
  obtain ⟨h1, -⟩ := openReader_spec s h.nodup r hr
  have h2 := h.field "mapping" "metadata" f hm (by rintro ⟨h, -⟩; exact absurd h (by decide)) (fun h => hd h.1)
  unfold getMapping at hg
  rw [h1] at hg
  unfold fileField fileAttr at h2
  cases hn : Dict.get? s "mapping" with
  | none => rw [hn] at hg; cases hg
  | some nd =>
    rw [hn] at hg h2
    simp only at hg
    cases ha : Dict.get? nd.attrs "metadata" with
    | none => rw [ha] at hg; cases hg
    | some d =>
      rw [ha] at hg
      injection hg with hg
      simp only [Prod.mk.injEq] at hg
      rw [← hg.2]
      simpa [ha] using h2

/-- the number of pixels of the mapping is lost -/
example : ∃ (s : Store Nat Unit) (r : HReader Nat Unit) (d : Except Err (List Nat × MetaDict Unit)),
    writeSession { mem := List.length, prep := id } [.addMapping [7] [("n_pixels", .int 1)], .addMetadata "mapping" "metadata" [("source", .int 3)]] [] = .ok s ∧
    openReader s = .ok r ∧ getMapping r = d ∧ d = .ok ([7], [("source", .int 3)]) := ⟨_, _, _, rfl, rfl, rfl, rfl⟩

/-! ### C108 -/

/-- C108 is false: no CHECLabPy mapping can be turned into a TargetCalib mapping, and no file yields one, whatever its content: the metadata are a `dict`,
whose items are not attributes. The item `version` asked for is not even among the metadata made from a TargetCalib mapping. -/
theorem C108_false {μ : Type} (mapping : String → String → Except Err μ) (configuration : String → Bool → Except Err μ) :
    (∀ t : TcMapping ρ ν, tcMappingFromClp mapping (clpMapping t) = .error .attributeError ∧ Dict.get? (clpMapping t).2 "version" = none) ∧
    (∀ (r : HReader ρ ν) (n : Except Err Int) (m : ClpMapping ρ ν), getMapping r = .ok m → dl1TcMapping configuration n r = .error .attributeError) := by
  refine ⟨fun t => ⟨rfl, ?_⟩, fun r n m h => ?_⟩
  · simp [clpMapping, Dict.get?]
  · unfold dl1TcMapping
    rw [h]
    rfl

/-- the metadata of a mapping hold what the getters of the TargetCalib mapping return -/
structure HoldsGetters (t : TcMapping ρ ν) (md : MetaDict ν) : Prop where
  cfgfile : Dict.get? md "cfgfile" = some (.str t.cfgPath)
  single : Dict.get? md "is_single_module" = some (.int (if t.isSingleModule then 1 else 0))
  pixels : Dict.get? md "n_pixels" = some (.int t.nPixels)
  modules : Dict.get? md "n_modules" = some (.int t.nModules)
  tmpix : Dict.get? md "n_tmpix" = some (.int t.nTmPix)
  superpixels : Dict.get? md "n_superpixels" = some (.int t.nSuperPixels)
  rows : Dict.get? md "n_rows" = some (.int t.nRows)
  columns : Dict.get? md "n_columns" = some (.int t.nColumns)
  size : Dict.get? md "size" = some (.obj t.size)
  upRow : Dict.get? md "fOTUpRow_l" = some (.obj t.fOTUpRowL) ∧ Dict.get? md "fOTUpRow_u" = some (.obj t.fOTUpRowU)
  upCol : Dict.get? md "fOTUpCol_l" = some (.obj t.fOTUpColL) ∧ Dict.get? md "fOTUpCol_u" = some (.obj t.fOTUpColU)
  upX : Dict.get? md "fOTUpX_l" = some (.obj t.fOTUpXL) ∧ Dict.get? md "fOTUpX_u" = some (.obj t.fOTUpXU)
  upY : Dict.get? md "fOTUpY_l" = some (.obj t.fOTUpYL) ∧ Dict.get? md "fOTUpY_u" = some (.obj t.fOTUpYU)

/-- C108, what holds: a DL1 file made from a raw file with a TargetCalib mapping contains it completely: another mapping with the same content is the same,
and the two arguments of the constructor of `target_calib.Mapping` are items of the metadata. (The full claim is that the mapping can be rebuilt.) -/
theorem C108_partial [DecidableEq ν] (mem : List (DRow β) → Nat) (castVals : β → β) (rd : RawReader τ ε β ν) (x : Extractor S τ ε β ν) (enc : Option τ → ν)
    (order : List String) (h : (dl1Calls rd x enc).2 = none) (ho : IsOrder (dl1Calls rd x enc).1 order) (t : TcMapping (DRow β) ν)
    (ht : (rd.mapping, rd.mappingMeta) = clpMapping t) :
    ∃ s, writeDl1File mem castVals rd x enc order = (.ok s, none) ∧ ∀ r, openReader s = .ok r → ∃ rows md, getMapping r = .ok (rows, md) ∧
      HoldsGetters t md ∧ ∀ t' : TcMapping (DRow β) ν, clpMapping t' = (rows, md) → t' = t := by
  obtain ⟨s, h1, h2⟩ := C107_dl1 mem castVals rd x enc order h ho
  refine ⟨s, h1, fun r hr => ⟨(clpMapping t).1, (clpMapping t).2, ?_,
    ⟨rfl, rfl, rfl, rfl, rfl, rfl, rfl, rfl, rfl, ⟨rfl, rfl⟩, ⟨rfl, rfl⟩, ⟨rfl, rfl⟩, ⟨rfl, rfl⟩⟩, fun t' ht' => ?_⟩⟩
  · rw [h2 r hr, ht]
  · cases t
    cases t'
    simp only [clpMapping, Prod.mk.injEq, List.cons.injEq, MetaVal.str.injEq, MetaVal.int.injEq, MetaVal.obj.injEq, Int.natCast_inj, true_and, and_true, metaBool] at ht'
    simp only [TcMapping.mk.injEq]
    grind

/-- the mapping of a single module -/
def exTcMapping : TcMapping (DRow Nat) Unit where
  pixels := [⟨0, some 0, 5⟩, ⟨0, some 1, 6⟩]
  cfgPath := "/cfg/one"
  isSingleModule := true
  nPixels := 2
  nModules := 1
  nTmPix := 2
  nSuperPixels := 1
  nRows := 1
  nColumns := 2
  size := ()
  fOTUpRowL := ()
  fOTUpRowU := ()
  fOTUpColL := ()
  fOTUpColU := ()
  fOTUpXL := ()
  fOTUpXU := ()
  fOTUpYL := ()
  fOTUpYU := ()

/-- a raw file with that mapping -/
def exMappedReader : RawReader Nat Unit Nat Unit := { exReader with
  mapping := (clpMapping exTcMapping).1
  mappingMeta := (clpMapping exTcMapping).2 }

example : ∃ s, writeDl1File List.length id exMappedReader exExtractor (fun _ => ()) ["data"] = (.ok s, none) ∧ ∀ r, openReader s = .ok r → ∃ rows md,
    getMapping r = .ok (rows, md) ∧ Dict.get? md "cfgfile" = some (.str "/cfg/one") := by
  obtain ⟨s, h1, h2⟩ := C108_partial List.length id exMappedReader exExtractor (fun _ => ()) ["data"] rfl (by
    refine ⟨by decide, fun k => ?_⟩
    simp [IsData, IsAppended, dl1Calls, dl1Loop, dl1Step, exMappedReader, exReader, exExtractor, skipEvent, dl1Closing]
    grind) exTcMapping rfl
  refine ⟨s, h1, fun r hr => ?_⟩
  obtain ⟨rows, md, g1, g2, -⟩ := h2 r hr
  exact ⟨rows, md, g1, g2.cfgfile⟩

example : ∃ s r, writeSession { mem := List.length, prep := id } [.addMapping (clpMapping exTcMapping).1 (clpMapping exTcMapping).2] [] = .ok s ∧
    openReader s = .ok r ∧ getMapping r = .ok (clpMapping exTcMapping) ∧
    dl1TcMapping (μ := Unit) (fun _ _ => .ok ()) (.ok 1) r = .error .attributeError := ⟨_, _, rfl, rfl, rfl, rfl⟩

end Verif.Props
