import Verif.Model.Dl1Images
import Verif.Props.Camera
import Verif.Props.Dl1
import Verif.Props.Mapping

/-!
# C182: camera images of a DL1 file

From the events of the raw file to the squares drawn: production (C25, C26), the mapping carried into the file (C107), the image classes (C66)
and the loops of the example (`Verif.Model.Dl1Images`).
-/

namespace Verif.Props

open Verif.Py Verif.Model Verif.Spec Verif.Lemmas

variable {τ ε β ν S σ : Type}

/-- how many of `m` events, the first of which has number `j`, are shown -/
def shownCount (limit : Option Nat) (j m : Nat) : Nat :=
  match limit with
  | none => m
  | some l => min m (l + 1 - j)

theorem showEvents_ok (set : σ → List ℚ → σ × Option Err) (charge : β → ℚ) (limit : Option Nat) (r : HReader (DRow β) ν) (n : Nat)
    (P : σ → Prop) (R : σ → List ℚ → Prop)
    (hset : ∀ s v, P s → v.length = n → ∃ s', set s v = (s', none) ∧ P s' ∧ R s' v) (blocks : List (List (DRow β)))
    (hlen : ∀ b ∈ blocks, b.length = n) (hsel : ∀ (i : Nat) b, blocks[i]? = some b → selectEventIndex r i = .ok b) (m : Nat) :
    ∀ (j : Nat) (s : σ), P s → j + m = blocks.length →
      ∃ pics, showEvents set charge limit r s (List.range' j m) = (pics, none) ∧ pics.length = shownCount limit j m ∧
        ∀ (k : Nat) pic, pics[k]? = some pic → ∃ b, blocks[j + k]? = some b ∧ P pic ∧ R pic (b.map fun w => charge w.vals) := by
  induction m with
  | zero =>
    intro j s _ _
    refine ⟨[], rfl, ?_, by simp⟩
    unfold shownCount
    cases limit <;> simp
  | succ m ih =>
    intro j s hs hj
    have hj' : j < blocks.length := by omega
    have hb : blocks[j]? = some blocks[j] := List.getElem?_eq_getElem hj'
    rw [List.range'_succ]
    unfold showEvents
    rw [hsel j _ hb]
    by_cases hl : limit.any (fun l => decide (j > l)) = true
    · simp only [hl, if_true]
      refine ⟨[], rfl, ?_, by simp⟩
      cases limit with
      | none => simp at hl
      | some l =>
        simp only [Option.any_some, decide_eq_true_eq] at hl
        simp only [shownCount, List.length_nil]
        omega
    · simp only [hl, Bool.false_eq_true, if_false]
      obtain ⟨s', e1, e2, e3⟩ := hset s (blocks[j].map fun w => charge w.vals) hs (by rw [List.length_map]; exact hlen _ (List.getElem_mem hj'))
      rw [e1]
      obtain ⟨pics, p1, p2, p3⟩ := ih (j + 1) s' e2 (by omega)
      simp only [p1]
      refine ⟨_, rfl, ?_, ?_⟩
      · rw [List.length_cons, p2]
        cases limit with
        | none => rfl
        | some l =>
          simp only [Option.any_some, decide_eq_true_eq] at hl
          simp only [shownCount]
          omega
      · intro k pic hk
        cases k with
        | zero =>
          simp only [List.getElem?_cons_zero, Option.some.injEq] at hk
          subst hk
          exact ⟨_, hb, e2, e3⟩
        | succ k =>
          rw [List.getElem?_cons_succ] at hk
          obtain ⟨b, b1, b2⟩ := p3 k pic hk
          exact ⟨b, by rw [← b1]; congr 1; omega, b2⟩

theorem mapM_range_getElem {α : Type} (f : Nat → Except Err α) (n : Nat) (l : List α) (h : (List.range n).mapM f = .ok l) :
    l.length = n ∧ ∀ (i : Nat) b, l[i]? = some b → f i = .ok b := by
  induction n generalizing l with
  | zero =>
    rw [List.range_zero, List.mapM_nil] at h
    cases h
    simp
  | succ n ih =>
    rw [List.range_succ, List.mapM_append] at h
    cases h1 : (List.range n).mapM f with
    | error e => rw [h1] at h; cases h
    | ok l1 =>
      rw [h1] at h
      cases h2 : f n with
      | error e => simp only [List.mapM_cons, h2] at h; cases h
      | ok b =>
        simp only [List.mapM_cons, h2, List.mapM_nil] at h
        cases h
        obtain ⟨a1, a2⟩ := ih l1 h1
        refine ⟨by simp [a1], fun i c hc => ?_⟩
        by_cases hi : i < l1.length
        · change (l1 ++ [b])[i]? = some c at hc
          rw [List.getElem?_append_left hi] at hc
          exact a2 i c hc
        · change (l1 ++ [b])[i]? = some c at hc
          rw [List.getElem?_append_right (by omega)] at hc
          have : i - l1.length = 0 := by
            by_contra hne
            rw [List.getElem?_eq_none (by simp; omega)] at hc
            cases hc
          rw [this] at hc
          simp at hc
          rw [← hc, show i = n by omega]
          exact h2

/-- the loop over the whole file -/
theorem showFile_ok (set : σ → List ℚ → σ × Option Err) (charge : β → ℚ) (limit : Option Nat) (r : HReader (DRow β) ν) (n : Nat)
    (P : σ → Prop) (R : σ → List ℚ → Prop)
    (hset : ∀ s v, P s → v.length = n → ∃ s', set s v = (s', none) ∧ P s' ∧ R s' v) (blocks : List (List (DRow β)))
    (hlen : ∀ b ∈ blocks, b.length = n) (hit : iterateOverEvents r = .ok blocks) (s : σ) (hs : P s) :
    ∃ pics, showFile set charge limit r s = (pics, none) ∧ pics.length = shownCount limit 0 blocks.length ∧
      ∀ (k : Nat) pic, pics[k]? = some pic → ∃ b, blocks[k]? = some b ∧ P pic ∧ R pic (b.map fun w => charge w.vals) := by
  unfold iterateOverEvents at hit
  unfold showFile
  cases hm : metaInt r "n_events" with
  | error e => rw [hm] at hit; cases hit
  | ok m =>
    rw [hm] at hit
    simp only at hit ⊢
    obtain ⟨h1, h2⟩ := mapM_range_getElem _ _ _ hit
    obtain ⟨pics, p1, p2, p3⟩ := showEvents_ok set charge limit r n P R hset blocks hlen h2 m.toNat 0 s hs (by omega)
    refine ⟨pics, by rw [List.range_eq_range']; exact p1, by rw [p2, h1], fun k pic hk => ?_⟩
    obtain ⟨b, b1, b2⟩ := p3 k pic hk
    exact ⟨b, by simpa using b1, b2⟩

theorem eventRows_charges (castVals : β → β) (iev : Nat) (vs : List β) (charge : β → ℚ) :
    (eventRows castVals iev vs).map (fun w => charge w.vals) = vs.map fun v => charge (castVals v) := by
  unfold eventRows
  apply List.ext_getElem?
  intro i
  simp only [List.getElem?_map, List.getElem?_mapIdx, Option.map_map]
  rfl

/-- what is needed of a produced file: it opens, its mapping is that of the raw file, its events are those processed -/
theorem produced [DecidableEq ν] (mem : List (DRow β) → Nat) (castVals : β → β) (rd : RawReader τ ε β ν)
    (x : Extractor S τ ε β ν) (enc : Option τ → ν) (order : List String) (h : (dl1Calls rd x enc).2 = none)
    (ho : IsOrder (dl1Calls rd x enc).1 order) (hm : (Dict.keys rd.otherMeta).Nodup)
    (hid : ((goodEvents rd.events).map Event.iev).Pairwise (· < ·)) (hb : ∀ e ∈ goodEvents rd.events, e.iev < 2 ^ 32)
    (hp : 1 ≤ rd.nPixels) (hp' : rd.nPixels ≤ 2 ^ 32) (hne : goodEvents rd.events ≠ []) :
    ∃ (s : Store (DRow β) ν) (r : HReader (DRow β) ν) (vss : List (List β)),
      writeDl1File mem castVals rd x enc order = (.ok s, none) ∧ openReader s = .ok r ∧
      extractAll x x.init (goodEvents rd.events) = .ok vss ∧ vss.length = (goodEvents rd.events).length ∧
      (∀ vs ∈ vss, vs.length = rd.nPixels) ∧ getMapping r = .ok (rd.mapping, rd.mappingMeta) ∧
      ∃ blocks, iterateOverEvents r = .ok blocks ∧ blocks.length = vss.length ∧ (∀ b ∈ blocks, b.length = rd.nPixels) ∧
        ∀ (k : Nat) b, blocks[k]? = some b → ∃ iev vs, vss[k]? = some vs ∧ b = eventRows castVals iev vs := by
  obtain ⟨s, r, vss, h1, h2, h3, h4, h5⟩ := C26_produced_file mem castVals rd x enc order h ho hm hid hb hp hp' hne
  obtain ⟨s1, r1, vss1, -, -, g3, g4, -⟩ := C25_event_round_trip mem castVals rd x enc order h ho hm (hid.imp fun h => by omega) hb hp hp' hne
  rw [h3] at g3
  cases g3
  obtain ⟨s2, f1, f2⟩ := C107_dl1 mem castVals rd x enc order h ho
  rw [h1] at f1
  cases f1
  have key : ∀ (k : Nat) b, (((goodEvents rd.events).zip vss).map fun p => eventRows castVals p.1.iev p.2)[k]? = some b →
      ∃ iev vs, vss[k]? = some vs ∧ b = eventRows castVals iev vs := by
    intro k b hk
    rw [List.getElem?_map, Option.map_eq_some_iff] at hk
    obtain ⟨p, hp, rfl⟩ := hk
    exact ⟨p.1.iev, p.2, (List.getElem?_zip_eq_some.1 hp).2, rfl⟩
  refine ⟨s, r, vss, h1, h2, h3, h4, g4, f2 r h2, _, h5, by simp [h4], fun b hb => ?_, key⟩
  obtain ⟨k, hk⟩ := List.mem_iff_getElem?.1 hb
  obtain ⟨iev, vs, e1, rfl⟩ := key k b hk
  unfold eventRows
  rw [List.length_mapIdx]
  exact g4 vs (List.mem_of_getElem? e1)

/-- **C182**, squares: for a file produced from events of increasing ids whose mapping has a row for each pixel, the example shows the first eleven
processed events (all, if there are fewer) in the order of processing, and raises nothing. Image `k` has a square for each pixel: square `p` is
centred where row `p` of the raw file's mapping says, has the side of the mapping's metadata and a tenth of a millimetre more, and shows the
charge extracted for pixel `p` of the `k`-th processed event. -/
theorem C182_squares [DecidableEq ν] (mem : List (DRow β) → Nat) (castVals : β → β) (rd : RawReader τ ε β ν)
    (x : Extractor S τ ε β ν) (enc : Option τ → ν) (order : List String) (h : (dl1Calls rd x enc).2 = none)
    (ho : IsOrder (dl1Calls rd x enc).1 order) (hm : (Dict.keys rd.otherMeta).Nodup)
    (hid : ((goodEvents rd.events).map Event.iev).Pairwise (· < ·)) (hb : ∀ e ∈ goodEvents rd.events, e.iev < 2 ^ 32)
    (hp : 1 ≤ rd.nPixels) (hp' : rd.nPixels ≤ 2 ^ 32) (hne : goodEvents rd.events ≠ [])
    (num : MetaVal ν → Except Err ℚ) (xpos ypos charge : β → ℚ) (v : MetaVal ν) (size : ℚ) (hmap : rd.mapping.length = rd.nPixels)
    (hv : Dict.get? rd.mappingMeta "size" = some v) (hsize : num v = .ok size) :
    ∃ (s : Store (DRow β) ν) (r : HReader (DRow β) ν) (vss : List (List β)) (pics : List PatchImage),
      writeDl1File mem castVals rd x enc order = (.ok s, none) ∧ openReader s = .ok r ∧
      extractAll x x.init (goodEvents rd.events) = .ok vss ∧
      plotFromDl1 num xpos ypos charge r = (pics, none) ∧ pics.length = min 11 (goodEvents rd.events).length ∧
      ∀ (k : Nat) pic, pics[k]? = some pic → ∃ vs, vss[k]? = some vs ∧
        pic.shown = vs.map (fun w => charge (castVals w)) ∧ pic.shown.length = rd.nPixels ∧ pic.patches.length = rd.nPixels ∧
        ∀ (p : Nat) q m, pic.patches[p]? = some q → rd.mapping[p]? = some m →
          q.1.1 + q.2 / 2 = xpos m.vals ∧ q.1.2 + q.2 / 2 = ypos m.vals ∧ q.2 = size + 1 / 10000 := by
  obtain ⟨s, r, vss, h1, h2, h3, h4, h5, h6, blocks, b1, b2, b3, b4⟩ := produced mem castVals rd x enc order h ho hm hid hb hp hp' hne
  obtain ⟨im, i1, i2, i3, i4⟩ := C66_patches (rd.mapping.map fun w => xpos w.vals) (rd.mapping.map fun w => ypos w.vals) (by simp) size
  have hx : im.xpix = rd.mapping.map fun w => xpos w.vals := by
    unfold PatchImage.init at i1
    rw [if_neg (by simp)] at i1
    cases i1
    rfl
  obtain ⟨pics, p1, p2, p3⟩ := showFile_ok PatchImage.setImage charge (some 10) r rd.nPixels
    (fun s => s.xpix = im.xpix ∧ s.patches = im.patches) (fun s v => s.shown = v)
    (fun s v hs hl => by
      refine ⟨{ s with image := some v, shown := v }, ?_, hs, rfl⟩
      unfold PatchImage.setImage
      rw [if_neg (by rw [hs.1, hx, List.length_map, hmap]; simpa using hl)])
    blocks b3 b1 im ⟨rfl, rfl⟩
  refine ⟨s, r, vss, pics, h1, h2, h3, ?_, ?_, ?_⟩
  · unfold plotFromDl1
    rw [h6]
    simp only [Dict.getItem, hv, hsize, i1]
    exact p1
  · rw [p2, b2, h4]
    simp only [shownCount]
    omega
  · intro k pic hk
    obtain ⟨b, e1, ⟨e2, e3⟩, e4⟩ := p3 k pic hk
    obtain ⟨iev, vs, f1, rfl⟩ := b4 k b e1
    rw [eventRows_charges] at e4
    refine ⟨vs, f1, e4, by rw [e4, List.length_map]; exact h5 vs (List.mem_of_getElem? f1), by rw [e3, i3, List.length_map, hmap], ?_⟩
    intro p q m hq hm'
    rw [e3] at hq
    obtain ⟨q1, q2, q3⟩ := i2 p q hq
    rw [List.getElem?_map, hm'] at q1 q2
    simp only [Option.map_some, Option.some.injEq] at q1 q2
    exact ⟨q1.symm, q2.symm, q3⟩

/-- **C182**, grid: the other example shows every processed event. Cell `(row, col)` of image `k` shows the charge extracted for the pixel of the
`k`-th processed event that the mapping puts there; the cells of no pixel are hidden in the corners of the camera and zero elsewhere: nothing
of an earlier event remains. -/
theorem C182_grid [DecidableEq ν] (mem : List (DRow β) → Nat) (castVals : β → β) (rd : RawReader τ ε β ν)
    (x : Extractor S τ ε β ν) (enc : Option τ → ν) (order : List String) (h : (dl1Calls rd x enc).2 = none)
    (ho : IsOrder (dl1Calls rd x enc).1 order) (hm : (Dict.keys rd.otherMeta).Nodup)
    (hid : ((goodEvents rd.events).map Event.iev).Pairwise (· < ·)) (hb : ∀ e ∈ goodEvents rd.events, e.iev < 2 ^ 32)
    (hp : 1 ≤ rd.nPixels) (hp' : rd.nPixels ≤ 2 ^ 32) (hne : goodEvents rd.events ≠ [])
    (count : MetaVal ν → Except Err Nat) (row col : β → Int) (charge : β → ℚ) (va vb : MetaVal ν) (nRows nCols : Nat)
    (pos : List (Nat × Nat)) (hpos : ∀ c ∈ pos, c.1 < nRows ∧ c.2 < nCols) (hnd : pos.Nodup)
    (hmap : rd.mapping.map (fun w => (row w.vals, col w.vals)) = pos.map fun c => ((c.1 : Int), (c.2 : Int)))
    (hn : pos.length = rd.nPixels) (hva : Dict.get? rd.mappingMeta "n_rows" = some va) (hvb : Dict.get? rd.mappingMeta "n_columns" = some vb)
    (hca : count va = .ok nRows) (hcb : count vb = .ok nCols) :
    ∃ (s : Store (DRow β) ν) (r : HReader (DRow β) ν) (vss : List (List β)) (pics : List Imshow),
      writeDl1File mem castVals rd x enc order = (.ok s, none) ∧ openReader s = .ok r ∧
      extractAll x x.init (goodEvents rd.events) = .ok vss ∧
      plotImshow count row col charge r = (pics, none) ∧ pics.length = (goodEvents rd.events).length ∧
      ∀ (k : Nat) pic, pics[k]? = some pic → ∃ vs, vss[k]? = some vs ∧ vs.length = rd.nPixels ∧
        (∀ (p : Nat) c w, pos[p]? = some c → vs[p]? = some w → pic.data c.1 c.2 = some (charge (castVals w))) ∧
        ∀ i j, (i, j) ∉ pos → (isCorner nRows nCols i j → pic.data i j = none) ∧ (¬ isCorner nRows nCols i j → pic.data i j = some 0) := by
  obtain ⟨s, r, vss, h1, h2, h3, h4, h5, h6, blocks, b1, b2, b3, b4⟩ := produced mem castVals rd x enc order h ho hm hid hb hp hp' hne
  have hr : rd.mapping.map (fun w => row w.vals) = pos.map fun c => (c.1 : Int) := by
    have := congrArg (List.map Prod.fst) hmap
    simpa [List.map_map, Function.comp_def] using this
  have hc : rd.mapping.map (fun w => col w.vals) = pos.map fun c => (c.2 : Int) := by
    have := congrArg (List.map Prod.snd) hmap
    simpa [List.map_map, Function.comp_def] using this
  obtain ⟨im, i1, -, -⟩ := (C66_initial (pos.map fun c => (c.1 : Int)) (pos.map fun c => (c.2 : Int)) nRows nCols).1 (by simp)
  have him : im.row = pos.map (fun c => (c.1 : Int)) ∧ im.col = pos.map (fun c => (c.2 : Int)) ∧ im.nRows = nRows ∧ im.nCols = nCols := by
    unfold Imshow.init at i1
    rw [if_neg (by simp)] at i1
    cases i1
    exact ⟨rfl, rfl, rfl, rfl⟩
  obtain ⟨pics, p1, p2, p3⟩ := showFile_ok Imshow.setImage charge none r rd.nPixels
    (fun s => s.row = im.row ∧ s.col = im.col ∧ s.nRows = im.nRows ∧ s.nCols = im.nCols)
    (fun s v => (∀ (p : Nat) c w, pos[p]? = some c → v[p]? = some w → s.data c.1 c.2 = some w) ∧
      ∀ i j, (i, j) ∉ pos → (isCorner nRows nCols i j → s.data i j = none) ∧ (¬ isCorner nRows nCols i j → s.data i j = some 0))
    (fun s v hs hl => by
      obtain ⟨t, t', e1, e2, -, e4, e5⟩ := C66_grid nRows nCols pos hpos hnd v (by rw [hl, hn])
      have ht : t = im := by rw [e1] at i1; cases i1; rfl
      subst ht
      unfold Imshow.setImage at e2 ⊢
      obtain ⟨a1, a2, a3, a4⟩ := hs
      have hl' : ¬ v.length ≠ t.row.length := by rw [him.1, List.length_map, hn]; simpa using hl
      rw [if_neg hl'] at e2
      rw [if_neg (by rw [a1]; exact hl')]
      simp only [a1, a2, a3, a4] at e2 ⊢
      split at e2
      · cases e2
      · rename_i data hd
        cases e2
        exact ⟨_, rfl, ⟨rfl, rfl, rfl, rfl⟩, e4, e5⟩)
    blocks b3 b1 im ⟨rfl, rfl, rfl, rfl⟩
  refine ⟨s, r, vss, pics, h1, h2, h3, ?_, ?_, ?_⟩
  · unfold plotImshow
    rw [h6]
    simp only [Dict.getItem, hva, hvb, hca, hcb, hr, hc, i1]
    exact p1
  · rw [p2, b2, h4]
    rfl
  · intro k pic hk
    obtain ⟨b, e1, -, e4, e5⟩ := p3 k pic hk
    obtain ⟨iev, vs, f1, rfl⟩ := b4 k b e1
    rw [eventRows_charges] at e4
    refine ⟨vs, f1, h5 vs (List.mem_of_getElem? f1), fun p c w hc' hw => ?_, e5⟩
    exact e4 p c _ hc' (by rw [List.getElem?_map, hw]; rfl)

/-- **C182**, a mapping of another number of pixels: nothing is shown, the first event raises `AssertionError` (squares) -/
theorem C182_other_mapping [DecidableEq ν] (mem : List (DRow β) → Nat) (castVals : β → β) (rd : RawReader τ ε β ν)
    (x : Extractor S τ ε β ν) (enc : Option τ → ν) (order : List String) (h : (dl1Calls rd x enc).2 = none)
    (ho : IsOrder (dl1Calls rd x enc).1 order) (hm : (Dict.keys rd.otherMeta).Nodup)
    (hid : ((goodEvents rd.events).map Event.iev).Pairwise (· < ·)) (hb : ∀ e ∈ goodEvents rd.events, e.iev < 2 ^ 32)
    (hp : 1 ≤ rd.nPixels) (hp' : rd.nPixels ≤ 2 ^ 32) (hne : goodEvents rd.events ≠ [])
    (num : MetaVal ν → Except Err ℚ) (xpos ypos charge : β → ℚ) (v : MetaVal ν) (size : ℚ) (hmap : rd.mapping.length ≠ rd.nPixels)
    (hv : Dict.get? rd.mappingMeta "size" = some v) (hsize : num v = .ok size) :
    ∃ (s : Store (DRow β) ν) (r : HReader (DRow β) ν), writeDl1File mem castVals rd x enc order = (.ok s, none) ∧ openReader s = .ok r ∧
      plotFromDl1 num xpos ypos charge r = ([], some .assertionError) := by
  obtain ⟨s, r, vss, h1, h2, h3, h4, h5, h6, blocks, b1, b2, b3, b4⟩ := produced mem castVals rd x enc order h ho hm hid hb hp hp' hne
  refine ⟨s, r, h1, h2, ?_⟩
  unfold plotFromDl1
  rw [h6]
  simp only [Dict.getItem, hv, hsize, PatchImage.init, List.length_map, ne_eq, not_true_eq_false, if_false]
  unfold iterateOverEvents at b1
  unfold showFile
  cases hme : metaInt r "n_events" with
  | error e => rw [hme] at b1; cases b1
  | ok m =>
    rw [hme] at b1
    simp only at b1 ⊢
    obtain ⟨g1, g2⟩ := mapM_range_getElem _ _ _ b1
    have hpos : 0 < blocks.length := by
      rw [b2, h4]
      exact List.length_pos_iff.2 hne
    obtain ⟨j, hj⟩ : ∃ j, m.toNat = j + 1 := ⟨m.toNat - 1, by omega⟩
    rw [hj, List.range_succ_eq_map]
    unfold showEvents
    rw [g2 0 _ (List.getElem?_eq_getElem hpos)]
    have : ¬ blocks[0].length = rd.mapping.length := by
      rw [b3 _ (List.getElem_mem hpos)]
      exact fun e => hmap e.symm
    simp [PatchImage.setImage, this]

/-- **C182**, a mapping whose metadata have no pixel size: `KeyError`, whatever the file -/
theorem C182_no_size (num : MetaVal ν → Except Err ℚ) (xpos ypos charge : β → ℚ) (r : HReader (DRow β) ν) (rows : List (DRow β)) (md : MetaDict ν)
    (hr : getMapping r = .ok (rows, md)) (hs : Dict.get? md "size" = none) : plotFromDl1 num xpos ypos charge r = ([], some .keyError) := by
  unfold plotFromDl1
  rw [hr]
  simp only [Dict.getItem, hs]

theorem showEvents_complete (set : σ → List ℚ → σ × Option Err) (charge : β → ℚ) (limit : Option Nat) (r : HReader (DRow β) ν) (m : Nat) :
    ∀ (j : Nat) (s : σ) (pics : List σ), showEvents set charge limit r s (List.range' j m) = (pics, none) → pics.length = shownCount limit j m := by
  induction m with
  | zero =>
    intro j s pics h
    cases h
    unfold shownCount
    cases limit <;> simp
  | succ m ih =>
    intro j s pics h
    rw [List.range'_succ] at h
    unfold showEvents at h
    cases hsel : selectEventIndex r j with
    | error e => rw [hsel] at h; cases h
    | ok df =>
      rw [hsel] at h
      simp only at h
      split at h
      · rename_i hl
        cases h
        cases limit with
        | none => simp at hl
        | some l =>
          simp only [Option.any_some, decide_eq_true_eq] at hl
          simp only [shownCount, List.length_nil]
          omega
      · rename_i hl
        split at h
        · cases h
        · rename_i s' _
          injection h with h1 h2
          rw [← h1, List.length_cons, ih (j + 1) s' _ (Prod.ext rfl h2)]
          cases limit with
          | none => rfl
          | some l =>
            simp only [Option.any_some, decide_eq_true_eq] at hl
            simp only [shownCount]
            omega

theorem showFile_complete (set : σ → List ℚ → σ × Option Err) (charge : β → ℚ) (limit : Option Nat) (r : HReader (DRow β) ν) (s : σ) (pics : List σ)
    (h : showFile set charge limit r s = (pics, none)) : ∃ n, metaInt r "n_events" = .ok n ∧ pics.length = shownCount limit 0 n.toNat := by
  unfold showFile at h
  split at h
  · cases h
  · rename_i n hn
    rw [List.range_eq_range'] at h
    exact ⟨n, hn, showEvents_complete set charge limit r _ 0 s pics h⟩

/-- **C182**, nothing is left out silently: whatever the file, if no exception is raised then the file has a mapping and a number of events, and as many
images were shown: all of them, or the first eleven (squares). -/
theorem C182_complete (num : MetaVal ν → Except Err ℚ) (count : MetaVal ν → Except Err Nat) (xpos ypos charge : β → ℚ) (row col : β → Int)
    (r : HReader (DRow β) ν) :
    (∀ pics, plotFromDl1 num xpos ypos charge r = (pics, none) →
      ∃ rows md n, getMapping r = .ok (rows, md) ∧ metaInt r "n_events" = .ok n ∧ pics.length = min 11 n.toNat) ∧
    (∀ pics, plotImshow count row col charge r = (pics, none) →
      ∃ rows md n, getMapping r = .ok (rows, md) ∧ metaInt r "n_events" = .ok n ∧ pics.length = n.toNat) := by
  constructor
  · intro pics h
    unfold plotFromDl1 at h
    split at h
    · cases h
    · rename_i rows md hm
      split at h
      · cases h
      · split at h
        · cases h
        · split at h
          · cases h
          · obtain ⟨n, h1, h2⟩ := showFile_complete _ _ _ _ _ _ h
            refine ⟨rows, md, n, hm, h1, ?_⟩
            rw [h2]
            simp only [shownCount]
            omega
  · intro pics h
    unfold plotImshow at h
    split at h
    · cases h
    · rename_i rows md hm
      split at h
      · cases h
      · split at h
        · cases h
        · split at h
          · cases h
          · split at h
            · cases h
            · split at h
              · cases h
              · obtain ⟨n, h1, h2⟩ := showFile_complete _ _ _ _ _ _ h
                exact ⟨rows, md, n, hm, h1, h2⟩

/-! ### a case -/

/-- three processed events of two pixels, side by side in a 1 × 2 grid -/
def dl1ImageReader : RawReader Nat Unit Nat Unit :=
  { exReader with
    mapping := [⟨0, some 0, 5⟩, ⟨0, some 1, 6⟩]
    mappingMeta := [("size", .int 6), ("n_rows", .int 1), ("n_columns", .int 2)] }

/-- a number out of the metadata -/
def metaNumber : MetaVal Unit → Except Err ℚ
  | .int n => .ok n
  | _ => .error .typeError

/-- a size out of the metadata -/
def metaCount : MetaVal Unit → Except Err Nat
  | .int n => .ok n.toNat
  | _ => .error .typeError

theorem dl1ImageReader_order : IsOrder (dl1Calls dl1ImageReader exExtractor fun _ => ()).1 ["data"] := by
  refine ⟨by decide, fun k => ?_⟩
  simp [IsData, IsAppended, dl1Calls, dl1Loop, dl1Step, dl1ImageReader, exReader, exExtractor, skipEvent, dl1Closing]
  grind

example : ∃ (s : Store (DRow Nat) Unit) (r : HReader (DRow Nat) Unit) (vss : List (List Nat)) (pics : List PatchImage),
    writeDl1File (fun df => 200000000 * df.length) id dl1ImageReader exExtractor (fun _ => ()) ["data"] = (.ok s, none) ∧ openReader s = .ok r ∧
    extractAll exExtractor 0 (goodEvents dl1ImageReader.events) = .ok vss ∧
    plotFromDl1 metaNumber (fun v : Nat => (v : ℚ)) (fun _ : Nat => 0) (fun v : Nat => (v : ℚ)) r = (pics, none) ∧ pics.length = 3 := by
  obtain ⟨s, r, vss, pics, h1, h2, h3, h4, h5, -⟩ := C182_squares (fun df => 200000000 * df.length) id dl1ImageReader exExtractor (fun _ => ())
    ["data"] rfl dl1ImageReader_order (by decide) (by decide) (by decide) (by decide) (by decide) (by decide) metaNumber
    (fun v : Nat => (v : ℚ)) (fun _ : Nat => 0) (fun v : Nat => (v : ℚ)) _ 6 rfl rfl rfl
  exact ⟨s, r, vss, pics, h1, h2, h3, h4, h5⟩

example : ∃ (s : Store (DRow Nat) Unit) (r : HReader (DRow Nat) Unit) (pics : List Imshow),
    writeDl1File (fun df => 200000000 * df.length) id dl1ImageReader exExtractor (fun _ => ()) ["data"] = (.ok s, none) ∧ openReader s = .ok r ∧
    plotImshow metaCount (fun _ : Nat => 0) (fun v : Nat => (v : Int) - 5) (fun v : Nat => (v : ℚ)) r = (pics, none) ∧ pics.length = 3 := by
  obtain ⟨s, r, vss, pics, h1, h2, h3, h4, h5, -⟩ := C182_grid (fun df => 200000000 * df.length) id dl1ImageReader exExtractor (fun _ => ())
    ["data"] rfl dl1ImageReader_order (by decide) (by decide) (by decide) (by decide) (by decide) (by decide) metaCount
    (fun _ : Nat => 0) (fun v : Nat => (v : Int) - 5) (fun v : Nat => (v : ℚ)) _ _ 1 2 [(0, 0), (0, 1)] (by decide) (by decide) rfl rfl rfl rfl rfl rfl
  exact ⟨s, r, pics, h1, h2, h4, h5⟩

example : ∃ (s : Store (DRow Nat) Unit) (r : HReader (DRow Nat) Unit),
    writeDl1File List.length id { dl1ImageReader with mapping := [⟨0, some 0, 5⟩] } exExtractor (fun _ => ()) ["data"] = (.ok s, none) ∧
    openReader s = .ok r ∧ plotFromDl1 metaNumber (fun v : Nat => (v : ℚ)) (fun _ : Nat => 0) (fun v : Nat => (v : ℚ)) r = ([], some .assertionError) :=
  C182_other_mapping List.length id { dl1ImageReader with mapping := [⟨0, some 0, 5⟩] } exExtractor (fun _ => ()) ["data"] rfl (by
      refine ⟨by decide, fun k => ?_⟩
      simp [IsData, IsAppended, dl1Calls, dl1Loop, dl1Step, dl1ImageReader, exReader, exExtractor, skipEvent, dl1Closing]
      grind) (by decide) (by decide) (by decide) (by decide) (by decide) (by decide) metaNumber
    (fun v : Nat => (v : ℚ)) (fun _ : Nat => 0) (fun v : Nat => (v : ℚ)) _ 6 (by decide) rfl rfl

example : plotFromDl1 metaNumber (fun v : Nat => (v : ℚ)) (fun _ : Nat => 0) (fun v : Nat => (v : ℚ))
    { exFile with store := ("mapping", { fmt := .fixed, rows := [], attrs := [("metadata", [])] }) :: exFile.store } = ([], some .keyError) :=
  C182_no_size _ _ _ _ _ [] [] rfl rfl

end Verif.Props
