import Verif.Lemmas.Dl1Session
import Verif.Lemmas.Hdf5Reader

namespace Verif.Lemmas

open Verif.Py Verif.Model Verif.Spec

variable {τ ε β ν S : Type}

/-- everything known about a completed production -/
structure Dl1File (mem : List (DRow β) → Nat) (castVals : β → β) (rd : RawReader τ ε β ν) (x : Extractor S τ ε β ν)
    (enc : Option τ → ν) (order : List String) (s : Store (DRow β) ν) (st : LoopState S τ β ν)
    (vss : List (List β)) : Prop where
  file : writeDl1File mem castVals rd x enc order = (.ok s, none)
  loop : LoopSpec rd x (loopInit x) rd.events st
  ext : extractAll x x.init (goodEvents rd.events) = .ok vss
  width : ∀ vs ∈ vss, vs.length = rd.nPixels
  len : vss.length = (goodEvents rd.events).length
  session : SessionSpec { mem := mem, prep := dl1Prep castVals }
    (((goodEvents rd.events).zip vss).flatMap (eventOps rd) ++ (closingOps rd x enc st ++ headerOps rd)) order s

theorem dl1_file (mem : List (DRow β) → Nat) (castVals : β → β) (rd : RawReader τ ε β ν) (x : Extractor S τ ε β ν)
    (enc : Option τ → ν) (order : List String) (h : (dl1Calls rd x enc).2 = none)
    (ho : IsOrder (dl1Calls rd x enc).1 order) :
    ∃ s st vss, Dl1File mem castVals rd x enc order s st vss := by
  obtain ⟨st, vss, h1, h2, h3, h4, h5, h6, h7⟩ := dl1Calls_ok rd x enc (dl1Calls rd x enc).1 (Prod.ext rfl h)
  rw [h6] at ho
  obtain ⟨s, hs, hsp⟩ := writeSession_spec { mem := mem, prep := dl1Prep castVals } _ order
    (calls_unmixed rd x enc st _) ho
  refine ⟨s, st, vss, ?_, h2, h3, h4, h5, hsp⟩
  unfold writeDl1File
  rw [← h6] at hs
  exact Prod.ext hs h

variable {mem : List (DRow β) → Nat} {castVals : β → β} {rd : RawReader τ ε β ν} {x : Extractor S τ ε β ν}
    {enc : Option τ → ν} {order : List String} {s : Store (DRow β) ν} {st : LoopState S τ β ν} {vss : List (List β)}

theorem Dl1File.field (h : Dl1File mem castVals rd x enc order s st vss) (name f : String) (d : MetaDict ν)
    (hd : dataDict rd x enc st name = some d) (hn : (Dict.keys d).Nodup)
    (h1 : f ≠ "n_bytes") (h2 : f ≠ "total_bytes") (h3 : f ≠ "version") :
    fileField s "data" name f = Dict.get? d f := by
  rw [h.session.field "data" name f (hasMeta_data rd x enc st _ name d hd) (by grind) (by grind),
    lastField_data rd x enc st _ name f d hd, get?_reverse_nodup d hn]

theorem Dl1File.opens [DecidableEq ν] (h : Dl1File mem castVals rd x enc order s st vss) :
    (∃ r, openReader s = .ok r) ↔ (rd.isMc = true → goodEvents rd.events ≠ []) := by
  have hl : (goodEvents rd.events).zip vss = [] ↔ goodEvents rd.events = [] := by
    rw [List.zip_eq_nil_iff]
    constructor
    · rintro (h0 | h0)
      · exact h0
      · have := h.len; rw [h0] at this
        exact List.length_eq_zero_iff.1 this.symm
    · exact Or.inl
  rw [openReader_ok_iff' s h.session.nodup]
  constructor
  · intro hall hmc hnil
    have hm : HasMeta (((goodEvents rd.events).zip vss).flatMap (eventOps rd) ++ (closingOps rd x enc st ++ headerOps rd))
        "mc" "mcheader" := by
      refine ⟨by simp, by simp, rd.mcheader.getD [], ?_⟩
      unfold headerOps; simp [hmc]
    have := hall "mc" ((h.session.present "mc").2 (Or.inr (Or.inr (Or.inl ⟨_, hm⟩))))
    rw [h.session.attr "mc" "metadata" (by simp), calls_isData, Ne, hl] at this
    rcases this with h1 | ⟨-, h1 | h1⟩
    · have := hasMeta_key rd x enc st _ _ _ h1
      simp at this
    · exact h1.1 hnil
    · simp at h1
  · intro hmc k hk
    rw [h.session.present] at hk
    have hdata : (fileAttr s "data" "metadata").isSome := (h.session.attr "data" "metadata" (by simp)).2 (Or.inr ⟨rfl, Or.inr rfl⟩)
    rcases hk with hk | rfl | ⟨name, hk⟩ | ⟨rfl, hk⟩
    · refine (h.session.attr k "metadata" ?_).2 (Or.inr ⟨rfl, Or.inl hk⟩)
      rw [calls_isData] at hk
      rcases hk with ⟨-, h1 | ⟨-, h1 | h1⟩⟩ <;> subst h1 <;> simp
    · exact hdata
    · rcases hasMeta_key rd x enc st _ _ _ hk with rfl | ⟨h1, rfl, -⟩
      · exact hdata
      · refine (h.session.attr "mc" "metadata" (by simp)).2 (Or.inr ⟨rfl, Or.inl ?_⟩)
        rw [calls_isData, Ne, hl]
        exact ⟨hmc h1, Or.inr ⟨h1, Or.inl rfl⟩⟩
    · exact h.session.mapAttr.2 (Or.inr (Or.inr hk))

theorem Dl1File.meta [DecidableEq ν] (h : Dl1File mem castVals rd x enc order s st vss) (r : HReader (DRow β) ν)
    (hr : openReader s = .ok r) (name : String) (d : MetaDict ν) (hd : dataDict rd x enc st name = some d)
    (hn : (Dict.keys d).Nodup) (hl : Listable name) : ∃ d', getMetadata r "data" name = .ok d' ∧
      ∀ f, f ≠ "n_bytes" → f ≠ "total_bytes" → f ≠ "version" → Dict.get? d' f = Dict.get? d f := by
  obtain ⟨h1, -, h3⟩ := openReader_spec s h.session.nodup r hr
  have ha := (h.session.attr "data" name (by simp)).2 (Or.inl (hasMeta_data rd x enc st _ name d hd))
  obtain ⟨d', hd'⟩ := Option.isSome_iff_exists.1 ha
  refine ⟨d', ?_, ?_⟩
  · rw [h3, hd']; simp [hl]
  · intro f f1 f2 f3
    have := h.field name f d hd hn f1 f2 f3
    unfold fileField at this
    rw [hd'] at this
    exact this

theorem get?_dl1Meta (f : String) :
    Dict.get? (dl1Meta rd enc st) f =
      if f = "end_time" then some (.obj (enc st.endTime)) else
      if f = "start_time" then some (.obj (enc st.startTime)) else
      if f = "n_skipped" then some (.int st.skipped) else
      if f = "n_events" then some (.int st.processed) else
      if f = "n_superpixels_per_module" then some (.int rd.nSuperpixels) else
      if f = "n_pixels" then some (.int rd.nPixels) else
      if f = "n_modules" then some (.int rd.nModules) else Dict.get? rd.otherMeta f := by
  unfold dl1Meta
  simp only [Dict.get?_set, Dict.update_cons, Dict.update_nil]
  grind

theorem Dl1File.metaInt [DecidableEq ν] (h : Dl1File mem castVals rd x enc order s st vss) (r : HReader (DRow β) ν)
    (hr : openReader s = .ok r) (hm : (Dict.keys rd.otherMeta).Nodup) :
    metaInt r "n_events" = .ok st.processed ∧ metaInt r "n_pixels" = .ok rd.nPixels ∧
    metaInt r "n_modules" = .ok rd.nModules ∧ metaInt r "n_superpixels_per_module" = .ok rd.nSuperpixels := by
  obtain ⟨d', h1, h2⟩ := h.meta r hr "metadata" (dl1Meta rd enc st) (by simp [dataDict]) (nodup_dl1Meta rd enc st hm)
    (by decide)
  unfold Model.metaInt
  rw [h1]
  refine ⟨?_, ?_, ?_, ?_⟩ <;> simp only [h2, ne_eq, String.reduceEq, not_false_eq_true] <;>
    rw [get?_dl1Meta] <;> simp

/-- the table -/
theorem Dl1File.table (h : Dl1File mem castVals rd x enc order s st vss)
    (hid : ((goodEvents rd.events).map Event.iev).Nodup) (hb : ∀ e ∈ goodEvents rd.events, e.iev < 4294967296)
    (hp : rd.nPixels ≤ 4294967296) :
    ∃ l : List (Nat × List β), l.Perm (((goodEvents rd.events).zip vss).map fun p => (p.1.iev, p.2)) ∧
      fileRows s "data" = (l.map fun p => eventRows castVals p.1 p.2).flatten ∧
      (((goodEvents rd.events).map Event.iev).Pairwise (· < ·) →
        l = ((goodEvents rd.events).zip vss).map fun p => (p.1.iev, p.2)) := by
  obtain ⟨groups, hc, hr, -⟩ := h.session.appended "data" (calls_not_written_data rd x enc st _)
  rw [calls_frames] at hc
  have hc' : Cuts groups ((((goodEvents rd.events).zip vss).map fun p => (p.1.iev, p.2)).map
      fun p => eventFrame p.1 p.2) := by
    rw [List.map_map]; exact hc
  obtain ⟨gs, g1, g2⟩ := cuts_map _ groups _ hc'
  have hfst : gs.flatten.map Prod.fst = (goodEvents rd.events).map Event.iev := by
    rw [g1, List.map_map]
    have : (Prod.fst ∘ fun p : Event τ ε × List β => (p.1.iev, p.2)) = Event.iev ∘ Prod.fst := rfl
    rw [this, ← List.map_map, List.map_fst_zip (by rw [h.len])]
  obtain ⟨l, hl1, hl2, hl3⟩ := batches_blocks castVals gs (by rw [hfst]; exact hid)
    (by
      intro p hpm
      have : p.1 ∈ (goodEvents rd.events).map Event.iev := by rw [← hfst]; exact List.mem_map_of_mem hpm
      obtain ⟨e, he, he'⟩ := List.mem_map.1 this
      rw [← he']; exact hb e he)
    (by
      intro p hpm
      rw [g1] at hpm
      obtain ⟨q, hq, rfl⟩ := List.mem_map.1 hpm
      rw [h.width _ (List.of_mem_zip hq).2]
      exact hp)
  refine ⟨l, by rw [← g1]; exact hl1, ?_, ?_⟩
  · rw [hr, g2]
    exact hl2
  · intro hs
    rw [← g1]
    apply hl3
    rw [← hfst, List.pairwise_map] at hs
    exact hs

theorem Dl1File.blockFile [DecidableEq ν] (h : Dl1File mem castVals rd x enc order s st vss) (r : HReader (DRow β) ν)
    (hr : openReader s = .ok r) (hm : (Dict.keys rd.otherMeta).Nodup) (hne : goodEvents rd.events ≠ [])
    (hp : 0 < rd.nPixels) (l : List (Nat × List β))
    (hl : l.Perm (((goodEvents rd.events).zip vss).map fun p => (p.1.iev, p.2)))
    (hrows : fileRows s "data" = (l.map fun p => eventRows castVals p.1 p.2).flatten) :
    BlockFile r rd.nPixels (l.map fun p => eventRows castVals p.1 p.2) := by
  obtain ⟨i1, i2, -, -⟩ := h.metaInt r hr hm
  obtain ⟨o1, -, -⟩ := openReader_spec s h.session.nodup r hr
  have hlen : l.length = (goodEvents rd.events).length := by
    rw [hl.length_eq]; simp [h.len]
  have hsize : ∀ b ∈ l.map fun p => eventRows castVals p.1 p.2, b.length = rd.nPixels := by
    intro b hbm
    obtain ⟨p, hpm, rfl⟩ := List.mem_map.1 hbm
    obtain ⟨q, hq, rfl⟩ := List.mem_map.1 (hl.mem_iff.1 hpm)
    unfold eventRows
    rw [List.length_mapIdx]
    exact h.width _ (List.of_mem_zip hq).2
  have hlen' := length_flatten_blocks _ _ hsize
  have hnonempty : fileRows s "data" ≠ [] := by
    intro h0
    rw [hrows] at h0
    rw [h0] at hlen'
    simp only [List.length_nil, List.length_map] at hlen'
    rcases Nat.mul_eq_zero.1 hlen'.symm with h1 | h1
    · rw [hlen] at h1; exact hne (List.length_eq_zero_iff.1 h1)
    · omega
  refine ⟨?_, hsize, hp, ?_, i2⟩
  · have hf := h.session.fmtAppended "data" (calls_not_written_data rd x enc st _) hnonempty
    rw [o1]
    cases hg : Dict.get? s "data" with
    | none => rw [hg] at hf; simp at hf
    | some nd =>
      rw [hg] at hf
      simp at hf
      refine ⟨nd, rfl, ?_, hf⟩
      unfold fileRows at hrows; rw [hg] at hrows
      exact hrows
  · rw [i1, h.loop.processed]
    simp [loopInit, hlen]

/-- the table of a run without processed events -/
theorem Dl1File.emptyTable (h : Dl1File mem castVals rd x enc order s st vss) (hne : goodEvents rd.events = []) :
    ∃ nd, Dict.get? s "data" = some nd ∧ nd.fmt = .fixed := by
  have hnd : ¬ IsData (((goodEvents rd.events).zip vss).flatMap (eventOps rd) ++ (closingOps rd x enc st ++ headerOps rd)) "data" := by
    rw [calls_isData, hne]; simp
  have hpres := (h.session.present "data").2 (Or.inr (Or.inl rfl))
  have := h.session.fmtEmpty "data" (by simp) hnd hpres
  cases hg : Dict.get? s "data" with
  | none => rw [hg] at this; simp at this
  | some nd => rw [hg] at this; exact ⟨nd, rfl, by simpa using this⟩

theorem blockId_eventRows (iev : Nat) (vs : List β) (h : 0 < vs.length) : blockId (eventRows castVals iev vs) = iev := by
  cases vs with
  | nil => simp at h
  | cons v vs => simp [eventRows, blockId]

/-! ### interrupted productions -/

theorem dl1Loop_error (rd : RawReader τ ε β ν) (x : Extractor S τ ε β ν) (events : List (Event τ ε))
    (st0 st : LoopState S τ β ν) (err : Err) (h : dl1Loop rd x st0 events = (st, some err)) :
    ∃ (pre : List (Event τ ε)) (e : Event τ ε) (post : List (Event τ ε)) (st1 : LoopState S τ β ν),
      events = pre ++ e :: post ∧ dl1Loop rd x st0 pre = (st1, none) ∧ dl1Step rd x st1 e = (st, some err) := by
  induction events generalizing st0 with
  | nil => simp [dl1Loop] at h
  | cons e es ih =>
    simp only [dl1Loop] at h
    split at h
    · rename_i st' err' hs
      cases h
      exact ⟨[], e, es, st0, rfl, rfl, hs⟩
    · rename_i st' hs
      obtain ⟨pre, e', post, st1, h1, h2, h3⟩ := ih st' h
      exact ⟨e :: pre, e', post, st1, by rw [h1]; rfl, by simp only [dl1Loop, hs, h2], h3⟩

theorem dl1Step_error (rd : RawReader τ ε β ν) (x : Extractor S τ ε β ν) (st st' : LoopState S τ β ν) (e : Event τ ε)
    (err : Err) (h : dl1Step rd x st e = (st', some err)) : st'.ops = st.ops ∧ e ∈ goodEvents [e] ∧
      (x.extract st.ext e = .error err ∨ err = .valueError) := by
  unfold dl1Step at h
  by_cases hs : skipEvent e
  · simp [hs] at h
  · simp only [hs, Bool.false_eq_true, if_false] at h
    have hg : e ∈ goodEvents [e] := by
      unfold goodEvents skipEvent at *
      simp at hs
      simp; grind
    split at h
    · rename_i err' hx
      cases h
      exact ⟨rfl, hg, Or.inl hx⟩
    · split at h
      · cases h; exact ⟨rfl, hg, Or.inr rfl⟩
      · cases h

end Verif.Lemmas
