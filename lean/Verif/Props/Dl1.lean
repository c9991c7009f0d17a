import Verif.Lemmas.Dl1File
import Verif.Lemmas.Replace

/-!
# C07, C25–C28, C69: DL1 production and reading

`order` is the order in which Python visits the set of tables when the writer closes; `mem` is the memory size of a frame
and decides when the buffers are flushed; both are arbitrary.  `castVals` converts the columns other than `iev` and
`pixel` to the types of the file.
-/

namespace Verif.Props

open Verif.Py Verif.Model Verif.Spec Verif.Lemmas

variable {τ ε β ν S : Type}

/-! ### a running example -/

/-- three processed events with ids 3, 9, 11 and two skipped ones, two pixels, two modules of one superpixel -/
def exReader : RawReader Nat Unit Nat Unit where
  path := "/data/Run01_r1.tio"
  events := [⟨3, false, false, 100, ()⟩, ⟨5, true, false, 101, ()⟩, ⟨9, false, false, 102, ()⟩,
    ⟨10, false, true, 103, ()⟩, ⟨11, false, false, 104, ()⟩]
  isMc := false
  nPixels := 2
  nModules := 2
  nSuperpixels := 1
  getSn tm := .int (1000 + tm)
  getSipmTemp tm := .int (20 + tm)
  getPrimaryTemp tm := .int (40 + tm)
  getSpDac tm sp := .int (200 + 10 * tm + sp)
  getSpHvon _ _ := .int 1
  mcRow _ := 0
  pointingRow _ := 0
  mcheader := none
  mapping := []
  mappingMeta := []
  otherMeta := [("run_id", .int 1)]

/-- an extractor with memory: it numbers the events -/
def exExtractor : Extractor Nat Nat Unit Nat Unit where
  init := 0
  extract s e := .ok (s + 1, [1000 * s + e.iev, 7])
  config := []

theorem exReader_calls : (dl1Calls exReader exExtractor fun _ => ()).2 = none := rfl

theorem exReader_order : IsOrder (dl1Calls exReader exExtractor fun _ => ()).1 ["data"] := by
  refine ⟨by decide, fun k => ?_⟩
  simp [IsData, IsAppended, dl1Calls, dl1Loop, dl1Step, exReader, exExtractor, skipEvent, dl1Closing]
  grind

/-! ### C25 -/

/-- C25: when production ends without an exception and processed at least one event, the file opens; indexing it by the
id of a processed event returns that event's rows — one per pixel, in pixel order, with the extracted values (converted
to the types of the file) — and indexing by any other id, in particular that of a skipped event, raises `IndexError`.
`vss` are the values the extractor returns when fed the processed events one after the other. -/
theorem C25_event_round_trip [DecidableEq ν] (mem : List (DRow β) → Nat) (castVals : β → β) (rd : RawReader τ ε β ν)
    (x : Extractor S τ ε β ν) (enc : Option τ → ν) (order : List String) (h : (dl1Calls rd x enc).2 = none)
    (ho : IsOrder (dl1Calls rd x enc).1 order) (hm : (Dict.keys rd.otherMeta).Nodup)
    (hid : ((goodEvents rd.events).map Event.iev).Nodup) (hb : ∀ e ∈ goodEvents rd.events, e.iev < 2 ^ 32)
    (hp : 1 ≤ rd.nPixels) (hp' : rd.nPixels ≤ 2 ^ 32) (hne : goodEvents rd.events ≠ []) :
    ∃ (s : Store (DRow β) ν) (r : HReader (DRow β) ν) (vss : List (List β)),
      writeDl1File mem castVals rd x enc order = (.ok s, none) ∧ openReader s = .ok r ∧
      extractAll x x.init (goodEvents rd.events) = .ok vss ∧ (∀ vs ∈ vss, vs.length = rd.nPixels) ∧
      vss.length = (goodEvents rd.events).length ∧
      (∀ p ∈ (goodEvents rd.events).zip vss, dl1GetItem r p.1.iev = .ok (eventRows castVals p.1.iev p.2)) ∧
      ∀ id : Int, (∀ e ∈ goodEvents rd.events, (e.iev : Int) ≠ id) → dl1GetItem r id = .error .indexError := by
  obtain ⟨s, st, vss, hf⟩ := dl1_file mem castVals rd x enc order h ho
  obtain ⟨r, hr⟩ := hf.opens.2 fun _ => hne
  obtain ⟨l, hl1, hl2, -⟩ := hf.table hid hb hp'
  have hbf := hf.blockFile r hr hm hne hp l hl1 hl2
  have hbid : ∀ p ∈ l, blockId (eventRows castVals p.1 p.2) = p.1 := by
    intro p hpm
    obtain ⟨q, hq, rfl⟩ := List.mem_map.1 (hl1.mem_iff.1 hpm)
    refine blockId_eventRows _ _ ?_
    rw [hf.width _ (List.of_mem_zip hq).2]
    omega
  have hids : (l.map fun p => eventRows castVals p.1 p.2).map blockId = l.map Prod.fst := by
    rw [List.map_map]
    exact List.map_congr_left fun p hpm => hbid p hpm
  have hfst : (l.map Prod.fst).Perm ((goodEvents rd.events).map Event.iev) := by
    refine (hl1.map Prod.fst).trans ?_
    rw [List.map_map]
    have : (Prod.fst ∘ fun p : Event τ ε × List β => (p.1.iev, p.2)) = Event.iev ∘ Prod.fst := rfl
    rw [this, ← List.map_map, List.map_fst_zip (by rw [hf.len])]
  obtain ⟨g1, g2⟩ := blockFile_get r _ _ hbf (by rw [hids]; exact hfst.nodup_iff.2 hid)
  refine ⟨s, r, vss, hf.file, hr, hf.ext, hf.width, hf.len, ?_, ?_⟩
  · intro p hpm
    have hpl : (p.1.iev, p.2) ∈ l := hl1.mem_iff.2 (List.mem_map.2 ⟨p, hpm, rfl⟩)
    have := g1 _ (List.mem_map.2 ⟨_, hpl, rfl⟩)
    rw [hbid _ hpl] at this
    exact this
  · intro id hall
    refine g2 id fun b hbm => ?_
    obtain ⟨p, hpl, rfl⟩ := List.mem_map.1 hbm
    rw [hbid p hpl]
    obtain ⟨e, he, he'⟩ := List.mem_map.1 (hfst.mem_iff.1 (List.mem_map_of_mem hpl))
    rw [← he']
    exact hall e he

example : ∃ (s : Store (DRow Nat) Unit) (r : HReader (DRow Nat) Unit) (vss : List (List Nat)),
    writeDl1File (fun df => 200000000 * df.length) (· % 256) exReader exExtractor (fun _ => ()) ["data"]
      = (.ok s, none) ∧ openReader s = .ok r ∧
    extractAll exExtractor 0 (goodEvents exReader.events) = .ok vss ∧ (∀ vs ∈ vss, vs.length = 2) ∧ vss.length = 3 ∧
    (∀ p ∈ (goodEvents exReader.events).zip vss, dl1GetItem r p.1.iev = .ok (eventRows (· % 256) p.1.iev p.2)) ∧
    ∀ id : Int, (∀ e ∈ goodEvents exReader.events, (e.iev : Int) ≠ id) → dl1GetItem r id = .error .indexError :=
  C25_event_round_trip _ _ exReader exExtractor _ _ exReader_calls exReader_order (by decide) (by decide)
    (by decide) (by decide) (by decide) (by decide)

/-! ### C26 -/

/-- C26: for every opened file whose `data` table is in table format and has `n_events * n_pixels` rows, in the number of
pixels and events the file records, iterating yields `n_events` pieces of `n_pixels` rows that make up the table, and
iterating over selected ids yields exactly the pieces whose first row carries one of the ids, once each and in file order —
for every list of ids, with repeats and unknown ids. -/
theorem C26_iteration (r : HReader (DRow β) ν) (nd : Node (DRow β) ν) (nEvents nPixels : Nat)
    (hnd : Dict.get? r.store "data" = some nd) (hfmt : nd.fmt = .table) (he : metaInt r "n_events" = .ok nEvents)
    (hx : metaInt r "n_pixels" = .ok nPixels) (hpos : 1 ≤ nPixels) (hlen : nd.rows.length = nEvents * nPixels) :
    ∃ blocks : List (List (DRow β)), iterateOverEvents r = .ok blocks ∧ blocks.flatten = nd.rows ∧
      blocks.length = nEvents ∧ (∀ b ∈ blocks, b.length = nPixels) ∧
      ∀ ids : List Int, iterateOverSelected r ids
        = .ok (blocks.filter fun b => b.head?.any fun row => decide ((row.iev : Int) ∈ ids)) := by
  obtain ⟨blocks, h1, h2, h3⟩ : ∃ blocks : List (List (DRow β)), blocks.flatten = nd.rows ∧ blocks.length = nEvents ∧
      ∀ b ∈ blocks, b.length = nPixels := by
    have key : ∀ (k : Nat) (rows : List (DRow β)), rows.length = k * nPixels → ∃ blocks : List (List (DRow β)),
        blocks.flatten = rows ∧ blocks.length = k ∧ ∀ b ∈ blocks, b.length = nPixels := by
      intro k
      induction k with
      | zero => intro rows h; exact ⟨[], (List.length_eq_zero_iff.1 (by simpa using h)).symm, rfl, by simp⟩
      | succ k ih =>
        intro rows h
        rw [Nat.succ_mul] at h
        obtain ⟨bs, b1, b2, b3⟩ := ih (rows.drop nPixels) (by rw [List.length_drop]; omega)
        refine ⟨rows.take nPixels :: bs, by simp [b1], by simp [b2], ?_⟩
        intro b hb
        rcases List.mem_cons.1 hb with rfl | hb
        · rw [List.length_take]; omega
        · exact b3 b hb
    exact key nEvents nd.rows hlen
  have hbf : BlockFile r nPixels blocks := ⟨⟨nd, hnd, h1.symm, hfmt⟩, h3, hpos, by rw [he, h2], hx⟩
  refine ⟨blocks, ?_, h1, h2, h3, ?_⟩
  · unfold iterateOverEvents
    simp only [he, Int.toNat_natCast]
    rw [mapM_ok _ _ (fun i => (blocks[i]?).getD [])]
    · congr 1
      apply List.ext_getElem (by simp [h2])
      intro i i1 i2
      simp [i2]
    · intro i hi
      simp only [List.mem_range] at hi
      rw [blockFile_select r nPixels blocks hbf i (by omega)]
      rw [List.getElem?_eq_getElem (by omega)]
      rfl
  · intro ids
    unfold iterateOverSelected
    rw [blockFile_lookup r nPixels blocks hbf]
    simp only
    rw [mapM_ok _ _ (fun i => (blocks[i]?).getD [])]
    · congr 1
      have hb0 : ∀ b ∈ blocks, (b.head?.any fun row => decide ((row.iev : Int) ∈ ids))
          = decide ((blockId b : Int) ∈ ids) := by
        intro b hb
        cases b with
        | nil => have := h3 [] hb; simp at this; omega
        | cons row b => exact decide_eq_decide.2 Iff.rfl
      rw [List.filter_congr hb0]
      have key : ∀ (bs : List (List (DRow β))) (k : Nat), (∀ i (hi : i < bs.length), blocks[k + i]? = some bs[i]) →
          (((bs.map blockId).zipIdx k).filter (fun p => decide ((p.1 : Int) ∈ ids))).map
            (fun p => (blocks[p.2]?).getD []) = bs.filter fun b => decide ((blockId b : Int) ∈ ids) := by
        intro bs
        induction bs with
        | nil => intro k _; rfl
        | cons b bs ih =>
          intro k hk
          have h0 := hk 0 (by simp)
          simp at h0
          have ih' := ih (k + 1) (fun i hi => by
            have := hk (i + 1) (by simpa using hi)
            rw [show k + 1 + i = k + (i + 1) from by omega, this]; rfl)
          simp only [List.map_cons, List.zipIdx_cons, List.filter_cons]
          by_cases hm : ((blockId b : Int) ∈ ids)
          · simp only [hm, decide_true, if_true, List.map_cons, ih', h0]; rfl
          · simp only [hm, decide_false, Bool.false_eq_true, if_false, ih']
      have := key blocks 0 (fun i hi => by simp [hi])
      rw [List.map_map]
      exact this
    · intro i hi
      obtain ⟨p, hp, rfl⟩ := List.mem_map.1 hi
      have hp' := (List.mem_filter.1 hp).1
      obtain ⟨-, hp2, -⟩ := List.mem_zipIdx hp'
      simp at hp2
      rw [blockFile_select r nPixels blocks hbf p.2 hp2, List.getElem?_eq_getElem hp2]
      rfl

/-- a file of three events of two pixels, ids 4, 9, 4 -/
def exFile : HReader (DRow Nat) Unit where
  store := [("data", { fmt := .table, rows := [⟨4, some 0, 1⟩, ⟨4, some 1, 2⟩, ⟨9, some 0, 3⟩, ⟨9, some 1, 4⟩,
    ⟨4, some 0, 5⟩, ⟨4, some 1, 6⟩], attrs := [("metadata", [("n_events", .int 3), ("n_pixels", .int 2)])] })]
  dataframeKeys := ["data"]
  metadataKeys := [("data", ["metadata"])]

example := C26_iteration exFile _ 3 2 rfl rfl rfl rfl (by decide) rfl

example : iterateOverSelected exFile [9, 100, 9] = .ok [[⟨9, some 0, 3⟩, ⟨9, some 1, 4⟩]] := rfl

/-- C26 on produced files: when the ids of the processed events increase, iterating over the produced file yields the
events in the order in which they were processed, whatever the flush schedule. -/
theorem C26_produced_file [DecidableEq ν] (mem : List (DRow β) → Nat) (castVals : β → β) (rd : RawReader τ ε β ν)
    (x : Extractor S τ ε β ν) (enc : Option τ → ν) (order : List String) (h : (dl1Calls rd x enc).2 = none)
    (ho : IsOrder (dl1Calls rd x enc).1 order) (hm : (Dict.keys rd.otherMeta).Nodup)
    (hid : ((goodEvents rd.events).map Event.iev).Pairwise (· < ·)) (hb : ∀ e ∈ goodEvents rd.events, e.iev < 2 ^ 32)
    (hp : 1 ≤ rd.nPixels) (hp' : rd.nPixels ≤ 2 ^ 32) (hne : goodEvents rd.events ≠ []) :
    ∃ (s : Store (DRow β) ν) (r : HReader (DRow β) ν) (vss : List (List β)),
      writeDl1File mem castVals rd x enc order = (.ok s, none) ∧ openReader s = .ok r ∧
      extractAll x x.init (goodEvents rd.events) = .ok vss ∧ vss.length = (goodEvents rd.events).length ∧
      iterateOverEvents r
        = .ok (((goodEvents rd.events).zip vss).map fun p => eventRows castVals p.1.iev p.2) := by
  obtain ⟨s, st, vss, hf⟩ := dl1_file mem castVals rd x enc order h ho
  obtain ⟨r, hr⟩ := hf.opens.2 fun _ => hne
  obtain ⟨l, hl1, hl2, hl3⟩ := hf.table (hid.imp (fun h => by omega)) hb hp'
  have hbf := hf.blockFile r hr hm hne hp l hl1 hl2
  obtain ⟨nd, n1, n2, n3⟩ := hbf.node
  obtain ⟨blocks, b1, b2, b3, b4, -⟩ := C26_iteration r nd _ rd.nPixels n1 n3 hbf.nEvents hbf.nPixels hp
    (by rw [n2]; exact length_flatten_blocks _ _ hbf.size)
  refine ⟨s, r, vss, hf.file, hr, hf.ext, hf.len, ?_⟩
  rw [b1]
  congr 1
  have heq : blocks = l.map fun p => eventRows castVals p.1 p.2 := by
    apply List.ext_getElem b3
    intro i i1 i2
    rw [← drop_take_flatten rd.nPixels blocks b4 i i1, ← drop_take_flatten rd.nPixels _ hbf.size i i2, b2, n2]
  rw [heq, hl3 hid, List.map_map]
  rfl

example : ∃ (s : Store (DRow Nat) Unit) (r : HReader (DRow Nat) Unit) (vss : List (List Nat)),
    writeDl1File (fun df => 200000000 * df.length) id exReader exExtractor (fun _ => ()) ["data"] = (.ok s, none) ∧
    openReader s = .ok r ∧ extractAll exExtractor 0 (goodEvents exReader.events) = .ok vss ∧ vss.length = 3 ∧
    iterateOverEvents r = .ok (((goodEvents exReader.events).zip vss).map fun p => eventRows id p.1.iev p.2) :=
  C26_produced_file _ _ exReader exExtractor _ _ exReader_calls exReader_order (by decide) (by decide)
    (by decide) (by decide) (by decide) (by decide)

/-! ### C27 -/

/-- C27: whenever production ends without an exception, the file records as `n_events` the number of events that are
neither stale nor have missing packets, as `n_skipped` the number of the others, and as `start_time` and `end_time` the
times of the first and the last processed event (`enc none` stores `None`: no event was processed). -/
theorem C27_accounting (mem : List (DRow β) → Nat) (castVals : β → β) (rd : RawReader τ ε β ν)
    (x : Extractor S τ ε β ν) (enc : Option τ → ν) (order : List String) (h : (dl1Calls rd x enc).2 = none)
    (ho : IsOrder (dl1Calls rd x enc).1 order) (hm : (Dict.keys rd.otherMeta).Nodup) :
    ∃ (s : Store (DRow β) ν) (processed skipped : Nat),
      writeDl1File mem castVals rd x enc order = (.ok s, none) ∧
      fileField s "data" "metadata" "n_events" = some (.int processed) ∧
      fileField s "data" "metadata" "n_skipped" = some (.int skipped) ∧
      processed = (rd.events.filter fun e => !e.stale && !e.missingPackets).length ∧
      processed + skipped = rd.events.length ∧
      fileField s "data" "metadata" "start_time"
        = some (.obj (enc ((rd.events.filter fun e => !e.stale && !e.missingPackets).head?.map Event.tCpu))) ∧
      fileField s "data" "metadata" "end_time"
        = some (.obj (enc ((rd.events.filter fun e => !e.stale && !e.missingPackets).getLast?.map Event.tCpu))) := by
  obtain ⟨s, st, vss, hf⟩ := dl1_file mem castVals rd x enc order h ho
  have hfield := fun f h1 h2 h3 => hf.field "metadata" f (dl1Meta rd enc st) (by simp [dataDict])
    (nodup_dl1Meta rd enc st hm) h1 h2 h3
  have hg : goodEvents rd.events = rd.events.filter fun e => !e.stale && !e.missingPackets := by
    unfold goodEvents
    apply List.filter_congr
    intro e _
    cases e.stale <;> cases e.missingPackets <;> rfl
  obtain ⟨l1, l2, l3, l4, -⟩ := hf.loop
  simp only [loopInit, Nat.zero_add, Option.none_or, Option.or_none] at l1 l2 l3 l4
  refine ⟨s, st.processed, st.skipped, hf.file, ?_, ?_, ?_, ?_, ?_, ?_⟩
  · rw [hfield _ (by simp) (by simp) (by simp), get?_dl1Meta]; simp
  · rw [hfield _ (by simp) (by simp) (by simp), get?_dl1Meta]; simp
  · rw [l1, hg]
  · omega
  · rw [hfield _ (by simp) (by simp) (by simp), get?_dl1Meta, ← hg, l3]; simp
  · rw [hfield _ (by simp) (by simp) (by simp), get?_dl1Meta, ← hg, l4]; simp

example := C27_accounting (fun df => 200000000 * df.length) (· % 256) exReader exExtractor (fun _ => ()) ["data"]
  exReader_calls exReader_order (by decide)

/-- C27, error branch: when the extractor raises on some event, the file is still closed and contains the rows of
exactly the events processed before that event, but records no `n_events`, so indexing it raises an exception. -/
theorem C27_interrupted [DecidableEq ν] (mem : List (DRow β) → Nat) (castVals : β → β) (rd : RawReader τ ε β ν)
    (x : Extractor S τ ε β ν) (enc : Option τ → ν) (order : List String) (err : Err)
    (h : (dl1Calls rd x enc).2 = some err) (hmc : rd.isMc = true → rd.mcheader.isSome)
    (ho : IsOrder (dl1Calls rd x enc).1 order) (hid : ((goodEvents rd.events).map Event.iev).Nodup)
    (hb : ∀ e ∈ goodEvents rd.events, e.iev < 4294967296) (hp : rd.nPixels ≤ 4294967296) :
    ∃ (s : Store (DRow β) ν) (pre : List (Event τ ε)) (e : Event τ ε) (post : List (Event τ ε)) (vss : List (List β)),
      writeDl1File mem castVals rd x enc order = (.ok s, some err) ∧
      rd.events = pre ++ e :: post ∧ e.stale = false ∧ e.missingPackets = false ∧
      extractAll x x.init (goodEvents pre) = .ok vss ∧
      (∃ l : List (Nat × List β), l.Perm (((goodEvents pre).zip vss).map fun p => (p.1.iev, p.2)) ∧
        fileRows s "data" = (l.map fun p => eventRows castVals p.1 p.2).flatten ∧
        (((goodEvents pre).map Event.iev).Pairwise (· < ·) → l = ((goodEvents pre).zip vss).map fun p => (p.1.iev, p.2))) ∧
      ∀ r, openReader s = .ok r → iterateOverEvents r = .error .keyError ∧ ∀ id, ∃ e', dl1GetItem r id = .error e' := by
  have h' : ∃ st, dl1Loop rd x (loopInit x) rd.events = (st, some err) ∧ (dl1Calls rd x enc).1 = st.ops := by
    unfold dl1Calls at h ⊢
    change (match dl1Loop rd x (loopInit x) rd.events with
      | (st, some err) => (st.ops, some err)
      | (st, none) => (st.ops ++ (dl1Closing rd x enc st).1, (dl1Closing rd x enc st).2)).2 = _ at h
    change ∃ st, _ ∧ (match dl1Loop rd x (loopInit x) rd.events with
      | (st, some err) => (st.ops, some err)
      | (st, none) => (st.ops ++ (dl1Closing rd x enc st).1, (dl1Closing rd x enc st).2)).1 = _
    cases hl : dl1Loop rd x (loopInit x) rd.events with
    | mk st oe =>
      rw [hl] at h
      cases oe with
      | some err' => simp only [Option.some.injEq] at h; subst h; exact ⟨st, rfl, rfl⟩
      | none =>
        simp only at h
        unfold dl1Closing at h
        simp only at h
        split at h
        · rename_i hm
          split at h
          · simp at h
          · rename_i hn; rw [hn] at hmc; simp at hmc; exact absurd hm (by simp [hmc])
        · simp at h
  obtain ⟨st, hl, hops⟩ := h'
  obtain ⟨pre, e, post, st1, h1, h2, h3⟩ := dl1Loop_error rd x rd.events _ st err hl
  obtain ⟨h4, h5, -⟩ := dl1Step_error rd x st1 st e err h3
  obtain ⟨vss, e1, e2, e3, e4⟩ := (dl1Loop_spec rd x pre _ st1 h2).ext
  have hops' : (dl1Calls rd x enc).1 = ((goodEvents pre).zip vss).flatMap (eventOps rd) := by
    rw [hops, h4, e4]; simp [loopInit]
  rw [hops'] at ho
  have happ : ∀ op ∈ ((goodEvents pre).zip vss).flatMap (eventOps rd),
      ∃ df k, op = Op.append df k := by
    intro op hop
    obtain ⟨p, hp, h⟩ := List.mem_flatMap.1 hop
    unfold eventOps at h
    split at h <;> simp at h <;> grind
  have hnw : ∀ key, ¬ IsWritten (((goodEvents pre).zip vss).flatMap (eventOps rd)) key := by
    rintro key (⟨df, hw⟩ | ⟨-, m, md, hw⟩) <;> obtain ⟨_, _, h0⟩ := happ _ hw <;> simp at h0
  obtain ⟨s, hs, hsp⟩ := writeSession_spec { mem := mem, prep := dl1Prep castVals } _ order
    (fun key hk => hnw key hk.2) ho
  refine ⟨s, pre, e, post, vss, ?_, h1, ?_, ?_, e1, ?_, ?_⟩
  · unfold writeDl1File
    rw [← hops'] at hs
    exact Prod.ext hs h
  · unfold goodEvents at h5; simp at h5; exact h5.1
  · unfold goodEvents at h5; simp at h5; exact h5.2
  · obtain ⟨groups, g1, g2, -⟩ := hsp.appended "data" (hnw _)
    rw [framesAppended_events] at g1
    have hc' : Cuts groups ((((goodEvents pre).zip vss).map fun p => (p.1.iev, p.2)).map fun p => eventFrame p.1 p.2) := by
      rw [List.map_map]; exact g1
    obtain ⟨gs, g3, g4⟩ := cuts_map _ groups _ hc'
    have hfst : gs.flatten.map Prod.fst = (goodEvents pre).map Event.iev := by
      rw [g3, List.map_map]
      have : (Prod.fst ∘ fun p : Event τ ε × List β => (p.1.iev, p.2)) = Event.iev ∘ Prod.fst := rfl
      rw [this, ← List.map_map, List.map_fst_zip (by rw [e3])]
    have hsub : (goodEvents pre).Sublist (goodEvents rd.events) := by
      unfold goodEvents
      rw [h1, List.filter_append]
      exact List.sublist_append_left _ _
    obtain ⟨l, hl1, hl2, hl3⟩ := batches_blocks castVals gs (by rw [hfst]; exact hid.sublist (hsub.map _))
      (by
        intro p hpm
        have : p.1 ∈ (goodEvents pre).map Event.iev := by rw [← hfst]; exact List.mem_map_of_mem hpm
        obtain ⟨e', he, he'⟩ := List.mem_map.1 this
        rw [← he']; exact hb e' (hsub.subset he))
      (by
        intro p hpm
        rw [g3] at hpm
        obtain ⟨q, hq, rfl⟩ := List.mem_map.1 hpm
        rw [e2 _ (List.of_mem_zip hq).2]
        exact hp)
    refine ⟨l, by rw [← g3]; exact hl1, ?_, ?_⟩
    · rw [g2, g4]
      exact hl2
    · intro hs
      rw [← g3]
      apply hl3
      rw [← hfst, List.pairwise_map] at hs
      exact hs
  · have hnone : fileField s "data" "metadata" "n_events" = none := by
      rw [hsp.fieldAll "data" "metadata" "n_events" (Or.inr ⟨rfl, Or.inr rfl⟩) (by simp) (by simp)]
      have := lastField_events rd ((goodEvents pre).zip vss) "data" "metadata" "n_events" []
      rw [List.append_nil] at this
      rw [this]
      rfl
    intro r hr
    obtain ⟨-, -, o3⟩ := openReader_spec s hsp.nodup r hr
    have hm : metaInt r "n_events" = .error .keyError := by
      unfold metaInt
      rw [o3]
      unfold fileField at hnone
      cases ha : fileAttr s "data" "metadata" with
      | none => rfl
      | some d =>
        rw [ha] at hnone
        have hl : Listable "metadata" := by decide
        have hnone' : Dict.get? d "n_events" = none := hnone
        simp [hl, hnone']
    refine ⟨by unfold iterateOverEvents; rw [hm], fun id => ?_⟩
    unfold dl1GetItem eventLookup
    cases Dict.get? r.store "data" with
    | none => exact ⟨_, rfl⟩
    | some nd =>
      dsimp only
      cases nd.fmt with
      | fixed => exact ⟨_, rfl⟩
      | table => exact ⟨.keyError, by simp only [hm]⟩

/-- an extractor that fails on event 9 -/
def exFailing : Extractor Nat Nat Unit Nat Unit where
  init := 0
  extract s e := if e.iev = 9 then .error .zeroDivision else .ok (s + 1, [1000 * s + e.iev, 7])
  config := []

example := C27_interrupted (fun df => 200000000 * df.length) (· % 256) exReader exFailing (fun _ => ()) ["data"]
  .zeroDivision rfl (by decide) (by
    refine ⟨by decide, fun k => ?_⟩
    simp [IsData, IsAppended, dl1Calls, dl1Loop, dl1Step, exReader, exFailing, skipEvent]) (by decide) (by decide) (by decide)

/-- what makes the loop stop: some event that is not skipped, after events whose columns all had one value per pixel, for which the extractor raises or gives columns of another length -/
def StopsWith (rd : RawReader τ ε β ν) (x : Extractor S τ ε β ν) (s : S) (events : List (Event τ ε)) (err : Err) : Prop :=
  ∃ before e after vss, goodEvents events = before ++ e :: after ∧ extractAll x s before = .ok vss ∧ (∀ vs ∈ vss, vs.length = rd.nPixels) ∧
    (extractAll x s (before ++ [e]) = .error err ∨ err = .valueError ∧ ∃ vs, extractAll x s (before ++ [e]) = .ok (vss ++ [vs]) ∧ vs.length ≠ rd.nPixels)

theorem dl1Loop_stops (rd : RawReader τ ε β ν) (x : Extractor S τ ε β ν) (events : List (Event τ ε)) (st : LoopState S τ β ν) (err : Err) :
    (dl1Loop rd x st events).2 = some err ↔ StopsWith rd x st.ext events err := by
  induction events generalizing st with
  | nil => simp [dl1Loop, StopsWith, goodEvents]
  | cons e0 es ih =>
    by_cases hs : skipEvent e0 = true
    · have hg : goodEvents (e0 :: es) = goodEvents es := by
        unfold goodEvents skipEvent at *
        rw [List.filter_cons_of_neg]
        simp at hs ⊢; grind
      simp only [dl1Loop, dl1Step, hs, if_true, StopsWith, hg]
      exact ih _
    · have hg : goodEvents (e0 :: es) = e0 :: goodEvents es := by
        unfold goodEvents skipEvent at *
        rw [List.filter_cons_of_pos]
        simp at hs ⊢; grind
      cases hx : x.extract st.ext e0 with
      | error err' =>
        simp only [dl1Loop, dl1Step, hs, Bool.false_eq_true, if_false, hx, StopsWith, hg]
        constructor
        · intro h
          injection h with h
          subst h
          exact ⟨[], e0, goodEvents es, [], rfl, rfl, by simp, Or.inl (by simp [extractAll, hx])⟩
        · rintro ⟨before, e, after, vss, h1, h2, -, h4⟩
          cases before with
          | nil =>
            simp only [List.nil_append, List.cons.injEq] at h1
            obtain ⟨rfl, -⟩ := h1
            rcases h4 with h4 | ⟨-, vs, h4, -⟩
            · simp only [List.nil_append, extractAll, hx, Except.error.injEq] at h4; rw [h4]
            · simp [extractAll, hx] at h4
          | cons b bs =>
            simp only [List.cons_append, List.cons.injEq] at h1
            obtain ⟨rfl, -⟩ := h1
            simp [extractAll, hx] at h2
      | ok p =>
        obtain ⟨s, vals⟩ := p
        by_cases hl : vals.length = rd.nPixels
        · have hloop : (dl1Loop rd x st (e0 :: es)).2 = some err ↔ StopsWith rd x s es err := by
            simp only [dl1Loop, dl1Step, hs, Bool.false_eq_true, if_false, hx, hl, ne_eq, not_true_eq_false]
            exact ih _
          rw [hloop]
          simp only [StopsWith, hg]
          constructor
          · rintro ⟨before, e, after, vss, h1, h2, h3, h4⟩
            refine ⟨e0 :: before, e, after, vals :: vss, by rw [h1]; rfl, by simp only [extractAll, hx, h2], ?_, ?_⟩
            · intro vs hvs
              rcases List.mem_cons.1 hvs with rfl | hvs
              · exact hl
              · exact h3 vs hvs
            · rcases h4 with h4 | ⟨h4, vs, h5, h6⟩
              · left; simp only [List.cons_append, extractAll, hx, h4]
              · right; exact ⟨h4, vs, by simp only [List.cons_append, extractAll, hx, h5], h6⟩
          · rintro ⟨before, e, after, vss, h1, h2, h3, h4⟩
            cases before with
            | nil =>
              exfalso
              simp only [List.nil_append, List.cons.injEq] at h1
              obtain ⟨rfl, -⟩ := h1
              simp only [extractAll, Except.ok.injEq] at h2
              subst h2
              rcases h4 with h4 | ⟨-, vs, h4, h5⟩
              · simp [extractAll, hx] at h4
              · simp only [List.nil_append, extractAll, hx, Except.ok.injEq, List.cons.injEq, and_true] at h4
                exact h5 (h4 ▸ hl)
            | cons b bs =>
              simp only [List.cons_append, List.cons.injEq] at h1
              obtain ⟨rfl, h1⟩ := h1
              simp only [extractAll, hx] at h2
              cases hb : extractAll x s bs with
              | error e' => rw [hb] at h2; cases h2
              | ok rest =>
                rw [hb] at h2
                injection h2 with h2
                subst h2
                refine ⟨bs, e, after, rest, h1, hb, fun vs h => h3 vs (List.mem_cons_of_mem _ h), ?_⟩
                simp only [List.cons_append, extractAll, hx] at h4
                cases hbe : extractAll x s (bs ++ [e]) with
                | error e' =>
                  rw [hbe] at h4
                  rcases h4 with h4 | ⟨-, vs, h4, -⟩
                  · exact Or.inl (by injection h4 with h4; rw [h4])
                  · cases h4
                | ok r =>
                  rw [hbe] at h4
                  rcases h4 with h4 | ⟨h5, vs, h4, h6⟩
                  · cases h4
                  · simp only [Except.ok.injEq, List.cons.injEq, true_and] at h4
                    exact Or.inr ⟨h5, vs, by rw [h4], h6⟩
        · simp only [dl1Loop, dl1Step, hs, Bool.false_eq_true, if_false, hx, hl, ne_eq, not_false_eq_true, if_true, StopsWith, hg]
          constructor
          · intro h
            injection h with h
            subst h
            exact ⟨[], e0, goodEvents es, [], rfl, rfl, by simp, Or.inr ⟨rfl, vals, by simp [extractAll, hx], hl⟩⟩
          · rintro ⟨before, e, after, vss, h1, h2, h3, h4⟩
            cases before with
            | nil =>
              simp only [List.nil_append, List.cons.injEq] at h1
              obtain ⟨rfl, -⟩ := h1
              rcases h4 with h4 | ⟨h4, -⟩
              · simp [extractAll, hx] at h4
              · rw [h4]
            | cons b bs =>
              exfalso
              simp only [List.cons_append, List.cons.injEq] at h1
              obtain ⟨rfl, -⟩ := h1
              simp only [extractAll, hx] at h2
              cases hb : extractAll x s bs with
              | error e' => rw [hb] at h2; cases h2
              | ok rest =>
                rw [hb] at h2
                injection h2 with h2
                subst h2
                exact hl (h3 vals (by simp))

/-- C27, when production fails: exactly if the extractor raises for some event that is not skipped, or gives columns without one value per pixel (`ValueError`), or if a simulation without
header ends (`TypeError`). -/
theorem C27_fails_iff (rd : RawReader τ ε β ν) (x : Extractor S τ ε β ν) (enc : Option τ → ν) (err : Err) :
    (dl1Calls rd x enc).2 = some err ↔
      StopsWith rd x x.init rd.events err ∨
      (∀ e', ¬ StopsWith rd x x.init rd.events e') ∧ rd.isMc = true ∧ rd.mcheader = none ∧ err = .typeError := by
  have key := fun err => dl1Loop_stops rd x rd.events (loopInit x) err
  unfold dl1Calls
  change (match dl1Loop rd x (loopInit x) rd.events with
    | (st, some err) => (st.ops, some err)
    | (st, none) => (st.ops ++ (dl1Closing rd x enc st).1, (dl1Closing rd x enc st).2)).2 = _ ↔ _
  cases hl : dl1Loop rd x (loopInit x) rd.events with
  | mk st oe =>
    rw [hl] at key
    cases oe with
    | some err' =>
      simp only [Option.some.injEq] at key ⊢
      have h' := (key err').1 rfl
      constructor
      · rintro rfl; exact Or.inl h'
      · rintro (h | ⟨h, -⟩)
        · exact (key err).2 h
        · exact absurd h' (h err')
    | none =>
      simp only at key ⊢
      have hno : ∀ e', ¬ StopsWith rd x x.init rd.events e' := fun e' h => by have := (key e').2 h; cases this
      unfold dl1Closing
      simp only
      cases hm : rd.isMc with
      | false => simpa [hm] using hno err
      | true =>
        cases hh : rd.mcheader with
        | some hd => simpa [hm] using hno err
        | none =>
          simp only [if_true, Option.some.injEq]
          exact ⟨fun h => Or.inr ⟨hno, trivial, trivial, h.symm⟩, fun h => h.elim (fun h => absurd h (hno err)) fun h => h.2.2.2.symm⟩

/-- the extractor that fails on event 9 stops the production -/
example : StopsWith exReader exFailing exFailing.init exReader.events .zeroDivision := (dl1Loop_stops exReader exFailing exReader.events (loopInit exFailing) _).1 (by decide)

/-! ### C69 -/

/-- C69 is false: for every data run in which no event was processed, production succeeds and the file opens, but every
lookup of an event and every selection of events raises `TypeError`; iteration over all events yields nothing. -/
theorem C69_false_data [DecidableEq ν] (mem : List (DRow β) → Nat) (castVals : β → β) (rd : RawReader τ ε β ν)
    (x : Extractor S τ ε β ν) (enc : Option τ → ν) (order : List String) (h : (dl1Calls rd x enc).2 = none)
    (ho : IsOrder (dl1Calls rd x enc).1 order) (hm : (Dict.keys rd.otherMeta).Nodup) (hmc : rd.isMc = false)
    (hne : goodEvents rd.events = []) :
    ∃ (s : Store (DRow β) ν) (r : HReader (DRow β) ν),
      writeDl1File mem castVals rd x enc order = (.ok s, none) ∧ openReader s = .ok r ∧
      (∀ id, dl1GetItem r id = .error .typeError) ∧ (∀ ids, iterateOverSelected r ids = .error .typeError) ∧
      iterateOverEvents r = .ok [] := by
  obtain ⟨s, st, vss, hf⟩ := dl1_file mem castVals rd x enc order h ho
  obtain ⟨r, hr⟩ := hf.opens.2 (by simp [hmc])
  obtain ⟨o1, -, -⟩ := openReader_spec s hf.session.nodup r hr
  obtain ⟨nd, n1, n2⟩ := hf.emptyTable hne
  have hl : eventLookup r = .error .typeError := by
    unfold eventLookup; rw [o1, n1]; simp [n2]
  refine ⟨s, r, hf.file, hr, ?_, ?_, ?_⟩
  · intro id; unfold dl1GetItem; rw [hl]
  · intro ids; unfold iterateOverSelected; rw [hl]
  · unfold iterateOverEvents
    rw [(hf.metaInt r hr hm).1, hf.loop.processed, hne]
    rfl

example := C69_false_data (fun df => df.length) id { exReader with events := [⟨5, true, false, 101, ()⟩] } exExtractor
  (fun _ => ()) [] rfl ⟨by decide, fun k => by
    simp [IsData, IsAppended, dl1Calls, dl1Loop, dl1Step, exReader, exExtractor, skipEvent, dl1Closing]⟩
  (by decide) rfl rfl

/-- C69 is false: for every simulation run in which no event was processed, production succeeds but the file cannot be
opened. -/
theorem C69_false_simulation [DecidableEq ν] (mem : List (DRow β) → Nat) (castVals : β → β) (rd : RawReader τ ε β ν)
    (x : Extractor S τ ε β ν) (enc : Option τ → ν) (order : List String) (h : (dl1Calls rd x enc).2 = none)
    (ho : IsOrder (dl1Calls rd x enc).1 order) (hmc : rd.isMc = true) (hne : goodEvents rd.events = []) :
    ∃ (s : Store (DRow β) ν), writeDl1File mem castVals rd x enc order = (.ok s, none) ∧
      openReader s = .error .attributeError := by
  obtain ⟨s, st, vss, hf⟩ := dl1_file mem castVals rd x enc order h ho
  refine ⟨s, hf.file, ?_⟩
  have hno : ¬ ∃ r, openReader s = .ok r := by rw [hf.opens]; simp [hmc, hne]
  cases ho' : openReader s with
  | ok r => exact absurd ⟨r, ho'⟩ hno
  | error e => rw [openReader_error s e ho']

example := C69_false_simulation (fun df => df.length) id
  { exReader with events := [⟨5, true, false, 101, ()⟩], isMc := true, mcheader := some [("shower", .int 1)] }
  exExtractor (fun _ => ()) [] rfl ⟨by decide, fun k => by
    simp [IsData, IsAppended, dl1Calls, dl1Loop, dl1Step, exReader, exExtractor, skipEvent, dl1Closing]⟩ rfl rfl

/-! ### C07 -/

theorem pad2Int_ne_pad2 (i : Int) (h : i < 0) : ∃ cs, (pad2Int i).toList = '-' :: cs := by
  cases i with
  | ofNat n => exact absurd h (by simp)
  | negSucc n => exact ⟨decimal (n + 1), by unfold pad2Int; simp⟩

theorem decimalPad_head (w n : Nat) (cs ds : List Char) : decimalPad w n ++ ds ≠ '-' :: cs := by
  intro h
  have h1 := decimalPad_digits w n
  cases hd : decimalPad w n with
  | nil => exact decimalPad_ne_nil w n hd
  | cons c rest =>
    rw [hd] at h h1
    simp at h
    have := h1 c (by simp)
    rw [h.1] at this
    exact absurd this (by decide)

/-- C07: slow-control values per module.  For every file produced without an exception that can be opened, for every
module the three dictionaries return what the raw reader returned; from the number of modules on `IndexError`; negative
numbers raise `KeyError`. -/
theorem C07_modules [DecidableEq ν] (mem : List (DRow β) → Nat) (castVals : β → β) (rd : RawReader τ ε β ν)
    (x : Extractor S τ ε β ν) (enc : Option τ → ν) (order : List String) (h : (dl1Calls rd x enc).2 = none)
    (ho : IsOrder (dl1Calls rd x enc).1 order) (hm : (Dict.keys rd.otherMeta).Nodup)
    (hne : rd.isMc = true → goodEvents rd.events ≠ []) :
    ∃ (s : Store (DRow β) ν) (r : HReader (DRow β) ν),
      writeDl1File mem castVals rd x enc order = (.ok s, none) ∧ openReader s = .ok r ∧
      (∀ tm : Nat, tm < rd.nModules → getModuleValue r "sn" tm = .ok (rd.getSn tm) ∧
        getModuleValue r "sipm_temp" tm = .ok (rd.getSipmTemp tm) ∧
        getModuleValue r "primary_temp" tm = .ok (rd.getPrimaryTemp tm)) ∧
      (∀ tm : Int, tm ≥ rd.nModules → ∀ name, getModuleValue r name tm = .error .indexError) ∧
      (∀ tm : Int, tm < 0 → ∀ name ∈ ["sn", "sipm_temp", "primary_temp"],
        getModuleValue r name tm = .error .keyError) := by
  obtain ⟨s, st, vss, hf⟩ := dl1_file mem castVals rd x enc order h ho
  obtain ⟨r, hr⟩ := hf.opens.2 hne
  obtain ⟨-, -, im, -⟩ := hf.metaInt r hr hm
  have hres : ∀ k : String, k.toList.head? = some 'T' → k ≠ "n_bytes" ∧ k ≠ "total_bytes" ∧ k ≠ "version" := by
    intro k hk
    refine ⟨?_, ?_, ?_⟩ <;> rintro rfl <;> exact absurd hk (by decide)
  have hT : ∀ q : String, ("TM" ++ q).toList.head? = some 'T' := by
    intro q; rw [String.toList_append]; rfl
  have key : ∀ (name : String) (get : Nat → MetaVal ν), Listable name →
      dataDict rd x enc st name = some (tmDict rd.nModules get) →
      (∀ tm : Nat, tm < rd.nModules → getModuleValue r name tm = .ok (get tm)) ∧
      (∀ tm : Int, tm < 0 → getModuleValue r name tm = .error .keyError) := by
    intro name get hl hd
    obtain ⟨d', h1, h2⟩ := hf.meta r hr name _ hd (nodup_tmDict _ _) hl
    constructor
    · intro tm htm
      unfold getModuleValue
      rw [im]
      simp only [ge_iff_le, Int.ofNat_le, Nat.not_le.2 htm, if_false, h1]
      rw [Dict.getItem_eq_ok_iff]
      obtain ⟨r1, r2, r3⟩ := hres _ (hT (pad2Int tm))
      rw [h2 _ r1 r2 r3]
      exact get?_tmDict _ _ _ htm
    · intro tm htm
      unfold getModuleValue
      rw [im]
      simp only [ge_iff_le, show ¬ ((rd.nModules : Int) ≤ tm) from by omega, if_false, h1]
      rw [Dict.getItem_eq_error_iff]
      obtain ⟨r1, r2, r3⟩ := hres _ (hT (pad2Int tm))
      rw [h2 _ r1 r2 r3]
      refine ⟨?_, rfl⟩
      unfold tmDict
      rw [get?_foldl_set_none]
      · rfl
      · intro a _ heq
        obtain ⟨cs, hcs⟩ := pad2Int_ne_pad2 tm htm
        have := congrArg String.toList heq
        unfold tmKey pad2 at this
        simp only [String.toList_append, String.toList_ofList, List.append_cancel_left_eq, hcs] at this
        exact decimalPad_head 2 a cs [] (by simpa using this)
  have k1 := key "sn" rd.getSn (by decide) (by simp [dataDict])
  have k2 := key "sipm_temp" rd.getSipmTemp (by decide) (by simp [dataDict])
  have k3 := key "primary_temp" rd.getPrimaryTemp (by decide) (by simp [dataDict])
  refine ⟨s, r, hf.file, hr, fun tm htm => ⟨k1.1 tm htm, k2.1 tm htm, k3.1 tm htm⟩, ?_, ?_⟩
  · intro tm htm name
    unfold getModuleValue
    rw [im]
    simp [htm]
  · intro tm htm name hn
    simp only [List.mem_cons, List.not_mem_nil, or_false] at hn
    rcases hn with rfl | rfl | rfl
    · exact k1.2 tm htm
    · exact k2.2 tm htm
    · exact k3.2 tm htm

example := C07_modules (fun df => df.length) id exReader exExtractor (fun _ => ()) ["data"] exReader_calls exReader_order
  (by decide) (by decide)

/-- C07: slow-control values per superpixel. -/
theorem C07_superpixels [DecidableEq ν] (mem : List (DRow β) → Nat) (castVals : β → β) (rd : RawReader τ ε β ν)
    (x : Extractor S τ ε β ν) (enc : Option τ → ν) (order : List String) (h : (dl1Calls rd x enc).2 = none)
    (ho : IsOrder (dl1Calls rd x enc).1 order) (hm : (Dict.keys rd.otherMeta).Nodup)
    (hne : rd.isMc = true → goodEvents rd.events ≠ []) :
    ∃ (s : Store (DRow β) ν) (r : HReader (DRow β) ν),
      writeDl1File mem castVals rd x enc order = (.ok s, none) ∧ openReader s = .ok r ∧
      (∀ tm sp : Nat, tm < rd.nModules → sp < rd.nSuperpixels →
        getSuperpixelValue r "dac" tm sp = .ok (rd.getSpDac tm sp) ∧
        getSuperpixelValue r "hvon" tm sp = .ok (rd.getSpHvon tm sp)) ∧
      (∀ tm sp : Int, tm ≥ rd.nModules ∨ sp ≥ rd.nSuperpixels → ∀ name,
        getSuperpixelValue r name tm sp = .error .indexError) ∧
      (∀ tm sp : Int, tm < rd.nModules → sp < rd.nSuperpixels → tm < 0 ∨ sp < 0 → ∀ name ∈ ["dac", "hvon"],
        getSuperpixelValue r name tm sp = .error .keyError) := by
  obtain ⟨s, st, vss, hf⟩ := dl1_file mem castVals rd x enc order h ho
  obtain ⟨r, hr⟩ := hf.opens.2 hne
  obtain ⟨-, -, im, is⟩ := hf.metaInt r hr hm
  have hres : ∀ k : String, k.toList.head? = some 'T' → k ≠ "n_bytes" ∧ k ≠ "total_bytes" ∧ k ≠ "version" := by
    intro k hk
    refine ⟨?_, ?_, ?_⟩ <;> rintro rfl <;> exact absurd hk (by decide)
  have hT : ∀ p q : String, ("TM" ++ p ++ "_SP" ++ q).toList.head? = some 'T' := by
    intro p q; simp only [String.toList_append]; rfl
  have key : ∀ (name : String) (get : Nat → Nat → MetaVal ν), Listable name →
      dataDict rd x enc st name = some (tmSpDict rd.nModules rd.nSuperpixels get) →
      (∀ tm sp : Nat, tm < rd.nModules → sp < rd.nSuperpixels → getSuperpixelValue r name tm sp = .ok (get tm sp)) ∧
      (∀ tm sp : Int, tm < rd.nModules → sp < rd.nSuperpixels → tm < 0 ∨ sp < 0 →
        getSuperpixelValue r name tm sp = .error .keyError) := by
    intro name get hl hd
    obtain ⟨d', h1, h2⟩ := hf.meta r hr name _ hd (nodup_tmSpDict _ _ _) hl
    constructor
    · intro tm sp htm hsp
      unfold getSuperpixelValue
      rw [im, is]
      simp only [ge_iff_le, Int.ofNat_le, Nat.not_le.2 htm, Nat.not_le.2 hsp, if_false, h1]
      rw [Dict.getItem_eq_ok_iff]
      obtain ⟨r1, r2, r3⟩ := hres _ (hT (pad2Int tm) (pad2Int sp))
      rw [h2 _ r1 r2 r3]
      exact get?_tmSpDict _ _ _ _ _ htm hsp
    · intro tm sp htm hsp hneg
      unfold getSuperpixelValue
      rw [im, is]
      simp only [ge_iff_le, show ¬ ((rd.nModules : Int) ≤ tm) from by omega,
        show ¬ ((rd.nSuperpixels : Int) ≤ sp) from by omega, if_false, h1]
      rw [Dict.getItem_eq_error_iff]
      obtain ⟨r1, r2, r3⟩ := hres _ (hT (pad2Int tm) (pad2Int sp))
      rw [h2 _ r1 r2 r3]
      refine ⟨?_, rfl⟩
      rw [tmSpDict_eq]
      rw [get?_foldl_set_none (fun p : Nat × Nat => tmSpKey p.1 p.2) (fun p => get p.1 p.2)]
      · rfl
      · rintro ⟨a, b⟩ - heq
        have heq := congrArg String.toList heq
        unfold tmSpKey pad2 at heq
        simp only [String.toList_append, String.toList_ofList, List.append_assoc, List.append_cancel_left_eq] at heq
        by_cases htm0 : tm < 0
        · obtain ⟨cs, hcs⟩ := pad2Int_ne_pad2 tm htm0
          rw [hcs] at heq
          exact decimalPad_head 2 a _ _ heq
        · have hsp0 : sp < 0 := by omega
          obtain ⟨cs, hcs⟩ := pad2Int_ne_pad2 sp hsp0
          rw [hcs] at heq
          obtain ⟨n, rfl⟩ := Int.eq_ofNat_of_zero_le (Int.not_lt.1 htm0)
          rw [show pad2Int (n : Int) = pad2 n from rfl] at heq
          unfold pad2 at heq
          simp only [String.toList_ofList] at heq
          change decimalPad 2 a ++ ('_' :: 'S' :: 'P' :: decimalPad 2 b)
            = decimalPad 2 n ++ ('_' :: 'S' :: 'P' :: '-' :: cs) at heq
          obtain ⟨-, t2⟩ := takeWhile_digits (decimalPad 2 a) ('S' :: 'P' :: decimalPad 2 b) '_' (decimalPad_digits 2 a) (by decide)
          obtain ⟨-, t4⟩ := takeWhile_digits (decimalPad 2 n) ('S' :: 'P' :: '-' :: cs) '_' (decimalPad_digits 2 n) (by decide)
          rw [heq, t4] at t2
          simp only [List.cons.injEq, true_and] at t2
          exact decimalPad_head 2 b cs [] (by simpa using t2.symm)
  have k1 := key "dac" rd.getSpDac (by decide) (by simp [dataDict])
  have k2 := key "hvon" rd.getSpHvon (by decide) (by simp [dataDict])
  refine ⟨s, r, hf.file, hr, fun tm sp htm hsp => ⟨k1.1 tm sp htm hsp, k2.1 tm sp htm hsp⟩, ?_, ?_⟩
  · intro tm sp hts name
    unfold getSuperpixelValue
    rw [im, is]
    by_cases htm : tm ≥ rd.nModules
    · simp [htm]
    · simp only [htm, if_false]
      simp [hts.resolve_left htm]
  · intro tm sp htm hsp hneg name hn
    simp only [List.mem_cons, List.not_mem_nil, or_false] at hn
    rcases hn with rfl | rfl
    · exact k1.2 tm sp htm hsp hneg
    · exact k2.2 tm sp htm hsp hneg

example := C07_superpixels (fun df => df.length) id exReader exExtractor (fun _ => ()) ["data"] exReader_calls
  exReader_order (by decide) (by decide)

/-! ### C28 -/

/-- C28 is false: the automatic output path of some inputs is the input path itself. -/
theorem C28_false : outputPath "/data/run_00.h5" false none = "/data/run_00.h5" ∧
    outputPath "/data/gamma.simtel" true none = "/data/gamma.simtel" := by
  constructor <;> rfl

/-- C28, what holds: without an explicit output path, the chosen path differs from the input exactly when the input
contains `_r1` or `.tio` (data), or `.simtel.gz` (simulation). (The full claim would drop the right-hand side.) -/
theorem C28_partial (path : String) (given : Option String) (hg : given = none ∨ given = some "") :
    (outputPath path false given ≠ path ↔ ("_r1".toList <:+: path.toList ∨ ".tio".toList <:+: path.toList)) ∧
    (outputPath path true given ≠ path ↔ ".simtel.gz".toList <:+: path.toList) := by
  have hcount : ∀ (s old new : String) (x : Char), new.toList.count x ≤ old.toList.count x →
      (pyReplace s old new).toList.count x ≤ s.toList.count x := by
    intro s old new x hx
    unfold pyReplace
    rw [String.toList_ofList]
    exact count_replaceChars_le _ _ x hx _ _
  have hcount' : ∀ (s old new : String) (x : Char), new.toList.count x < old.toList.count x →
      old.toList <:+: s.toList → (pyReplace s old new).toList.count x < s.toList.count x := by
    intro s old new x hx hi
    unfold pyReplace
    rw [String.toList_ofList]
    exact count_replaceChars_lt _ _ x hx _ _ (Nat.le_refl _) hi
  have hid : ∀ (s old new : String), ¬ old.toList <:+: s.toList → pyReplace s old new = s := by
    intro s old new hi
    unfold pyReplace
    rw [replaceChars_of_not_infix _ _ _ _ hi, String.ofList_toList]
  have h1 : outputPath path false given = pyReplace (pyReplace path "_r1" "_dl1") ".tio" ".h5" := by
    rcases hg with rfl | rfl <;> rfl
  have h2 : outputPath path true given = pyReplace path ".simtel.gz" "_dl1.h5" := by
    rcases hg with rfl | rfl <;> rfl
  rw [h1, h2]
  refine ⟨⟨?_, ?_⟩, ⟨?_, ?_⟩⟩
  · intro hne
    by_contra hc
    push Not at hc
    rw [hid path _ _ hc.1, hid path _ _ hc.2] at hne
    exact hne rfl
  · rintro hc heq
    by_cases hr : "_r1".toList <:+: path.toList
    · have a := hcount' path "_r1" "_dl1" 'r' (by decide) hr
      have b := hcount (pyReplace path "_r1" "_dl1") ".tio" ".h5" 'r' (by decide)
      rw [heq] at b
      omega
    · rw [hid path _ _ hr] at heq
      have a := hcount' path ".tio" ".h5" 't' (by decide) (hc.resolve_left hr)
      rw [heq] at a
      omega
  · intro hne
    by_contra hc
    rw [hid path _ _ hc] at hne
    exact hne rfl
  · intro hc heq
    have a := hcount' path ".simtel.gz" "_dl1.h5" 'z' (by decide) hc
    rw [heq] at a
    omega

example : outputPath "/data/Run01_r1.tio" false none = "/data/Run01_dl1.h5" := by decide +kernel

example := C28_partial "/data/Run01_r1.tio" none (Or.inl rfl)

/-- C28: the replacement treats every occurrence, from the left: the text before the first occurrence is kept, the
occurrence is replaced, and so on with the text after it; without an occurrence the text is unchanged. (So a directory
named `..._r1` is renamed too.) -/
theorem C28_every_occurrence (old new : String) (hne : old ≠ "") :
    (∀ s : String, ¬ old.toList <:+: s.toList → pyReplace s old new = s) ∧
    ∀ a b : String, ¬ old.toList <:+: a.toList ++ old.toList.dropLast → pyReplace (a ++ old ++ b) old new = a ++ new ++ pyReplace b old new := by
  have hne' : old.toList ≠ [] := by
    intro h
    exact hne (String.toList_inj.1 (by simpa using h))
  constructor
  · intro s h
    unfold pyReplace
    rw [replaceChars_of_not_infix _ _ _ _ h, String.ofList_toList]
  · intro a b h
    unfold pyReplace
    apply String.toList_inj.1
    simp only [String.toList_append, String.toList_ofList]
    exact replaceChars_first old.toList new.toList a.toList b.toList hne' h

example : outputPath "/lab_r1/Run01_r1.tio" false none = "/lab_dl1/Run01_dl1.h5" := by decide +kernel

example := (C28_every_occurrence "_r1" "_dl1" (by decide)).2 "/lab" "/Run01_r1.tio" (by decide +kernel)

/-- C28: an explicit output path is used as it is. -/
theorem C28_explicit (path out : String) (isMc : Bool) (h : out ≠ "") : outputPath path isMc (some out) = out := by
  unfold outputPath
  simp [h]

example := C28_explicit "/data/Run01_r1.tio" "/tmp/out.h5" false (by decide)

end Verif.Props
