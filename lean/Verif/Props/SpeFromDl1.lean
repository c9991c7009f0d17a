import Verif.Model.SpeFromDl1
import Verif.Props.DefaultRun
import Verif.Props.SpeFile
import Verif.Props.PartialRead
import Verif.Props.Mapping
import Verif.Lemmas.Dl1File

/-!
# C156: from the DL1 files to the fits of `extract_spe`
-/

namespace Verif.Props

open Verif.Py Verif.Model Verif.Spec Verif.Lemmas

variable {τ ν ε S : Type}

/-! ### vocabulary -/

/-- `qs` are the values of the column for pixel `pixel`, in the order of the events `ids`, as they are read from the file event by event -/
def ChargesIn (r : HReader (DRow (Dict String (Cell τ))) ν) (col : String) (ids : List Nat) (pixel : Nat) (qs : List ℚ) : Prop :=
  qs.length = ids.length ∧ ∀ (k : Nat) id, ids[k]? = some id →
    ∃ rows row q, dl1GetItem r id = .ok rows ∧ rows[pixel]? = some row ∧ row.pixel = some pixel ∧ Dict.get? row.vals col = some (.num q) ∧ qs[k]? = some q

/-- every event of the file has a number in the column, for every pixel -/
def NumbersIn (r : HReader (DRow (Dict String (Cell τ))) ν) (col : String) (ids : List Nat) : Prop :=
  ∀ id ∈ ids, ∀ rows, dl1GetItem r id = .ok rows → ∀ row ∈ rows, ∃ q, Dict.get? row.vals col = some (.num q)

/-! ### the column -/

theorem get?_dl1Cells (row : DRow (Dict String (Cell τ))) (col : String) (h1 : col ≠ "iev") (h2 : col ≠ "pixel") :
    Dict.get? (dl1Cells row) col = Dict.get? row.vals col := by
  unfold dl1Cells
  cases row.pixel with
  | none => simp [Dict.get?, Ne.symm h1]
  | some p => simp [Dict.get?, Ne.symm h1, Ne.symm h2]

theorem mapM_number (v : List ℚ) : (v.map (Cell.num (τ := τ))).mapM Cell.number = .ok v := by
  induction v with
  | nil => rfl
  | cons q v ih => rw [List.map_cons, List.mapM_cons, ih]; rfl

theorem numbers_of {α : Type} (f : α → Option (Cell τ)) (l : List α) (h : ∀ x ∈ l, ∃ q, f x = some (.num q)) :
    ∃ v : List ℚ, l.map f = v.map fun q => some (Cell.num q) := by
  induction l with
  | nil => exact ⟨[], rfl⟩
  | cons x l ih =>
    obtain ⟨q, hq⟩ := h x (by simp)
    obtain ⟨v, hv⟩ := ih fun y hy => h y (by simp [hy])
    exact ⟨q :: v, by rw [List.map_cons, List.map_cons, hq, hv]⟩

theorem numbers_blocks {α : Type} (f : α → Option (Cell τ)) (bs : List (List α)) (h : ∀ b ∈ bs, ∀ x ∈ b, ∃ q, f x = some (.num q)) :
    ∃ vs : List (List ℚ), bs.map (List.map f) = vs.map (List.map fun q => some (Cell.num q)) := by
  induction bs with
  | nil => exact ⟨[], rfl⟩
  | cons b bs ih =>
    obtain ⟨v, hv⟩ := numbers_of f b (h b (by simp))
    obtain ⟨vs, hvs⟩ := ih fun y hy => h y (by simp [hy])
    exact ⟨v :: vs, by rw [List.map_cons, List.map_cons, hv, hvs]⟩

/-- what the script reads from a file made of whole events -/
theorem speInput_blocks (r : HReader (DRow (Dict String (Cell τ))) ν) (n : Nat) (blocks : List (List (DRow (Dict String (Cell τ))))) (hb : BlockFile r n blocks)
    (col : String) (h1 : col ≠ "iev") (h2 : col ≠ "pixel") (hnum : ∀ b ∈ blocks, ∀ row ∈ b, ∃ q, Dict.get? row.vals col = some (.num q)) :
    ∃ d a, speInput r col = .ok d ∧ d.charges col = .ok a ∧ d.nEvents = blocks.length ∧ d.nPixels = n ∧
      d.mapping = speMapping r ∧
      ∀ p < n, (pixelCharges d col p).length = blocks.length ∧
        ∀ (k : Nat) b, blocks[k]? = some b → ∃ row q, b[p]? = some row ∧ Dict.get? row.vals col = some (.num q) ∧ (pixelCharges d col p)[k]? = some q := by
  obtain ⟨nd, n1, n2, n3⟩ := hb.node
  obtain ⟨vs, hvs⟩ := numbers_blocks (fun row : DRow (Dict String (Cell τ)) => Dict.get? row.vals col) blocks hnum
  have hlen : vs.length = blocks.length := by
    have := congrArg List.length hvs
    simpa using this.symm
  have hsize : ∀ v ∈ vs, v.length = n := by
    intro v hv
    have hm : v.map (fun q => some (Cell.num (τ := τ) q)) ∈ blocks.map (List.map fun row => Dict.get? row.vals col) := by
      rw [hvs]; exact List.mem_map_of_mem hv
    obtain ⟨b, hbm, hbe⟩ := List.mem_map.1 hm
    have := congrArg List.length hbe
    rw [List.length_map, List.length_map, hb.size b hbm] at this
    exact this.symm
  have hcol : selectColumnOf dl1Cells r "data" col none none = .ok (vs.flatten.map Cell.num) := by
    unfold selectColumnOf
    rw [n1]
    simp only [n3, Option.getD_none, List.drop_zero, List.take_length]
    apply mapM_getItem
    rw [n2, List.map_map, List.map_flatten, List.map_flatten]
    congr 1
    simp only [get?_dl1Cells _ col h1 h2]
    exact hvs
  have hflat : vs.flatten.length = vs.length * n := by
    have := Lemmas.reshape_blocks n vs hsize
    unfold reshape at this
    by_contra hne
    rw [if_neg hne] at this
    cases this
  refine ⟨⟨[(col, vs.flatten)], blocks.length, n, speMapping r⟩, ⟨n, vs⟩, ?_, ?_, rfl, rfl, rfl, ?_⟩
  · unfold speInput
    rw [hcol]
    simp only [mapM_number, hb.nEvents, hb.nPixels, Int.toNat_natCast]
  · unfold SpeInput.charges
    simp only [Dict.get?, if_true, ← hlen, Lemmas.reshape_blocks n vs hsize]
  · intro p hp
    have hch : (⟨[(col, vs.flatten)], blocks.length, n, speMapping r⟩ : SpeInput (DRow (Dict String (Cell τ))) ν).charges col = .ok ⟨n, vs⟩ := by
      unfold SpeInput.charges
      simp only [Dict.get?, if_true, ← hlen, Lemmas.reshape_blocks n vs hsize]
    have hpix := (charges_spec _ col _ hch).2.2 p hp
    unfold ChargeArray.pixel at hpix
    simp only [hp, if_true, Except.ok.injEq] at hpix
    rw [← hpix]
    unfold column
    refine ⟨by rw [List.length_map, hlen], fun k b hkb => ?_⟩
    obtain ⟨hk, rfl⟩ := List.getElem?_eq_some_iff.1 hkb
    have hk' : k < vs.length := by omega
    have hbl : blocks[k].length = n := hb.size _ (List.getElem_mem hk)
    have hvl : vs[k].length = n := hsize _ (List.getElem_mem hk')
    have he : blocks[k].map (fun row => Dict.get? row.vals col) = vs[k].map fun q => some (Cell.num q) := by
      have := congrArg (fun l => l[k]?) hvs
      simpa [List.getElem?_map, hk, hk'] using this
    refine ⟨blocks[k][p], vs[k][p], List.getElem?_eq_getElem _, ?_, ?_⟩
    · have := congrArg (fun l => l[p]?) he
      simpa [List.getElem?_map, hbl, hvl, hp] using this
    · rw [List.getElem?_map, List.getElem?_eq_getElem hk']
      simp [List.getD_eq_getElem?_getD, hvl, hp]

/-! ### the files -/

/-- a file `extract_dl1` has made without an exception from a run of `n` pixels whose processed events are `ids`, in this order, and whose camera is `mapping` -/
def Made (s : Store (DRow (Dict String (Cell τ))) ν) (n : Nat) (ids : List Nat) (mapping : List (DRow (Dict String (Cell τ))) × MetaDict ν) : Prop :=
  ∃ (ε S : Type) (rd : RawReader τ ε (Dict String (Cell τ)) ν) (x : Extractor S τ ε (Dict String (Cell τ)) ν) (enc : Option τ → ν)
    (mem : List (DRow (Dict String (Cell τ))) → Nat) (castVals : Dict String (Cell τ) → Dict String (Cell τ)) (order : List String),
    IsOrder (dl1Calls rd x enc).1 order ∧ (Dict.keys rd.otherMeta).Nodup ∧ writeDl1File mem castVals rd x enc order = (.ok s, none) ∧
    rd.nPixels = n ∧ (goodEvents rd.events).map Event.iev = ids ∧ (rd.mapping, rd.mappingMeta) = mapping

theorem made_blocks [DecidableEq ν] (s : Store (DRow (Dict String (Cell τ))) ν) (n : Nat) (ids : List Nat) (mapping : List (DRow (Dict String (Cell τ))) × MetaDict ν)
    (h : Made s n ids mapping) (hid : ids.Pairwise (· < ·)) (hb : ∀ id ∈ ids, id < 2 ^ 32) (hne : ids ≠ []) (hp : 1 ≤ n) (hp' : n ≤ 2 ^ 32)
    (r : HReader (DRow (Dict String (Cell τ))) ν) (hr : openReader s = .ok r) :
    getMapping r = .ok mapping ∧ ∃ blocks, BlockFile r n blocks ∧ List.Forall₂ (fun (id : Nat) b => dl1GetItem r id = .ok b ∧ ∀ (p : Nat) row, b[p]? = some row → row.pixel = some p) ids blocks := by
  obtain ⟨ε, S, rd, x, enc, mem, castVals, order, ho, hm, hs, rfl, rfl, rfl⟩ := h
  have herr : (dl1Calls rd x enc).2 = none := (Prod.mk.inj hs).2
  obtain ⟨s', hs', hmap⟩ := C107_dl1 mem castVals rd x enc order herr ho
  obtain rfl : s' = s := Except.ok.inj (Prod.mk.inj (hs'.symm.trans hs)).1
  refine ⟨hmap r hr, ?_⟩
  obtain ⟨s'', st, vss, hf⟩ := dl1_file mem castVals rd x enc order herr ho
  obtain rfl : s'' = s' := Except.ok.inj (Prod.mk.inj (hf.file.symm.trans hs)).1
  have hgood : goodEvents rd.events ≠ [] := fun h => hne (by rw [h]; rfl)
  obtain ⟨l, hl1, hl2, hl3⟩ := hf.table (hid.imp (fun h => by omega)) (fun e he => hb _ (List.mem_map_of_mem he)) hp'
  have hbf := hf.blockFile r hr hm hgood hp l hl1 hl2
  have hl := hl3 hid
  have hbid : ∀ p ∈ l, blockId (eventRows castVals p.1 p.2) = p.1 := by
    intro p hpm
    obtain ⟨q, hq, rfl⟩ := List.mem_map.1 (hl1.mem_iff.1 hpm)
    refine blockId_eventRows _ _ ?_
    rw [hf.width _ (List.of_mem_zip hq).2]
    omega
  have hids : (l.map fun p => eventRows castVals p.1 p.2).map blockId = l.map Prod.fst := by
    rw [List.map_map]
    exact List.map_congr_left fun p hpm => hbid p hpm
  have hfst : l.map Prod.fst = (goodEvents rd.events).map Event.iev := by
    rw [hl, List.map_map]
    have : (Prod.fst ∘ fun p : Event τ ε × List (Dict String (Cell τ)) => (p.1.iev, p.2)) = Event.iev ∘ Prod.fst := rfl
    rw [this, ← List.map_map, List.map_fst_zip (by rw [hf.len])]
  obtain ⟨g1, -⟩ := blockFile_get r _ _ hbf (by rw [hids, hfst]; exact hid.imp (fun h => by omega))
  refine ⟨_, hbf, ?_⟩
  rw [← hfst, List.forall₂_map_left_iff, List.forall₂_map_right_iff, List.forall₂_same]
  intro q hq
  refine ⟨?_, ?_⟩
  · have := g1 _ (List.mem_map.2 ⟨q, hq, rfl⟩)
    rwa [hbid q hq] at this
  · intro p row hrow
    unfold eventRows at hrow
    rw [List.getElem?_mapIdx] at hrow
    cases hq2 : q.2[p]? with
    | none => rw [hq2] at hrow; cases hrow
    | some v => rw [hq2] at hrow; cases hrow; rfl

/-- the same value among those of the file of the fits -/
inductive SameValue : MetaVal ν → MetaVal (SpeObj ν) → Prop
  | int (n : Int) : SameValue (.int n) (.int n)
  | str (t : String) : SameValue (.str t) (.str t)
  | obj (x : ν) : SameValue (.obj x) (.obj (.other x))

/-- C156, one file: the script finds one charge per processed event and pixel, in the order of the events; the charges of a pixel are the entries of the chosen column in the
rows of this pixel, as they are read event by event. The camera is that of the run. -/
theorem C156_charges [DecidableEq ν] (s : Store (DRow (Dict String (Cell τ))) ν) (n : Nat) (ids : List Nat) (mapping : List (DRow (Dict String (Cell τ))) × MetaDict ν)
    (h : Made s n ids mapping) (hid : ids.Pairwise (· < ·)) (hb : ∀ id ∈ ids, id < 2 ^ 32) (hne : ids ≠ []) (hp : 1 ≤ n) (hp' : n ≤ 2 ^ 32)
    (r : HReader (DRow (Dict String (Cell τ))) ν) (hr : openReader s = .ok r) (col : String) (h1 : col ≠ "iev") (h2 : col ≠ "pixel") (hnum : NumbersIn r col ids) :
    ∃ d a, speInput r col = .ok d ∧ d.charges col = .ok a ∧ a.nPixels = n ∧ d.nPixels = n ∧ d.nEvents = ids.length ∧
      (∃ md, d.mapping = .ok (mapping.1, md) ∧ ∀ f, (Dict.get? mapping.2 f = none → Dict.get? md f = none) ∧
        ∀ v, Dict.get? mapping.2 f = some v → ∃ w, Dict.get? md f = some w ∧ SameValue v w) ∧
      ∀ p < n, a.pixel p = .ok (pixelCharges d col p) ∧ ChargesIn r col ids p (pixelCharges d col p) := by
  obtain ⟨hmap, blocks, hbf, hf⟩ := made_blocks s n ids mapping h hid hb hne hp hp' r hr
  have hlen := hf.length_eq
  obtain ⟨d, a, d1, d2, d3, d4, d5, d6⟩ := speInput_blocks r n blocks hbf col h1 h2 (by
    intro b hbm row hrow
    obtain ⟨k, hk, rfl⟩ := List.mem_iff_getElem.1 hbm
    have hg := (hf.get (by omega) hk).1
    exact hnum _ (List.getElem_mem (by omega)) _ hg row hrow)
  have hc := charges_spec d col a d2
  refine ⟨d, a, d1, d2, hc.1.trans d4, d4, by rw [d3, hlen], ⟨mapping.2.map fun kv => (kv.1, speMeta kv.2), ?_, ?_⟩, fun p hpn => ⟨hc.2.2 p (by omega), ?_, ?_⟩⟩
  · rw [d5]
    unfold speMapping
    rw [hmap]
  · intro f
    have hget : Dict.get? (mapping.2.map fun kv => (kv.1, speMeta kv.2)) f = (Dict.get? mapping.2 f).map speMeta := by
      induction mapping.2 with
      | nil => rfl
      | cons kv md ih =>
        rw [List.map_cons]
        unfold Dict.get?
        by_cases hk : kv.1 = f
        · rw [if_pos hk, if_pos hk]; rfl
        · rw [if_neg hk, if_neg hk]; exact ih
    rw [hget]
    refine ⟨fun h0 => by rw [h0]; rfl, fun v h0 => ⟨speMeta v, by rw [h0]; rfl, ?_⟩⟩
    cases v with
    | int n => exact .int n
    | str t => exact .str t
    | obj x => exact .obj x
  · rw [(d6 p hpn).1, hlen]
  · intro k id hk
    obtain ⟨hk1, rfl⟩ := List.getElem?_eq_some_iff.1 hk
    have hk2 : k < blocks.length := by omega
    obtain ⟨g1, g2⟩ := hf.get hk1 hk2
    obtain ⟨row, q, e1, e2, e3⟩ := (d6 p hpn).2 k _ (List.getElem?_eq_getElem hk2)
    exact ⟨_, row, q, g1, e1, g2 p row e1, e2, e3⟩

/-- A column the file does not have is a `KeyError`. -/
theorem C156_missing [DecidableEq ν] (s : Store (DRow (Dict String (Cell τ))) ν) (n : Nat) (ids : List Nat) (mapping : List (DRow (Dict String (Cell τ))) × MetaDict ν)
    (h : Made s n ids mapping) (hid : ids.Pairwise (· < ·)) (hb : ∀ id ∈ ids, id < 2 ^ 32) (hne : ids ≠ []) (hp : 1 ≤ n) (hp' : n ≤ 2 ^ 32)
    (r : HReader (DRow (Dict String (Cell τ))) ν) (hr : openReader s = .ok r) (col : String) (h1 : col ≠ "iev") (h2 : col ≠ "pixel")
    (hno : ∃ id ∈ ids, ∃ rows row, dl1GetItem r id = .ok rows ∧ row ∈ rows ∧ Dict.get? row.vals col = none) : speInput r col = .error .keyError := by
  obtain ⟨-, blocks, hbf, hf⟩ := made_blocks s n ids mapping h hid hb hne hp hp' r hr
  obtain ⟨id, hidm, rows, row, g, hrow, hnone⟩ := hno
  obtain ⟨k, hk, rfl⟩ := List.mem_iff_getElem.1 hidm
  have hk' : k < blocks.length := by rw [← hf.length_eq]; exact hk
  obtain rfl := Except.ok.inj (g.symm.trans (hf.get hk hk').1)
  obtain ⟨nd, n1, n2, n3⟩ := hbf.node
  have hmem : row ∈ nd.rows := by rw [n2]; exact List.mem_flatten.2 ⟨_, List.getElem_mem hk', hrow⟩
  have hcol : selectColumnOf dl1Cells r "data" col none none = .error .keyError := by
    unfold selectColumnOf
    rw [n1]
    simp only [n3, Option.getD_none, List.drop_zero, List.take_length]
    refine mapM_only _ .keyError _ ?_ ⟨row, hmem, ?_⟩
    · intro x _
      unfold Dict.getItem
      cases Dict.get? (dl1Cells x) col with
      | none => exact Or.inl rfl
      | some v => exact Or.inr ⟨v, rfl⟩
    · unfold Dict.getItem
      rw [get?_dl1Cells _ _ h1 h2, hnone]
  unfold speInput
  rw [hcol]

/-! ### the fits -/

/-- a file of the command line: its path, its content, the opened reader and the processed events -/
structure Dl1Input (τ ν : Type) where
  path : String
  file : Store (DRow (Dict String (Cell τ))) ν
  reader : HReader (DRow (Dict String (Cell τ))) ν
  ids : List Nat

/-- it was made by `extract_dl1` from a run of `n` pixels with numbered events, at least one of them processed -/
structure Extracted [DecidableEq ν] (n : Nat) (d : Dl1Input τ ν) : Prop where
  made : ∃ mapping, Made d.file n d.ids mapping
  increasing : d.ids.Pairwise (· < ·)
  small : ∀ id ∈ d.ids, id < 2 ^ 32
  some : d.ids ≠ []
  opened : openReader d.file = .ok d.reader

/-- and it has numbers in the column -/
structure WithNumbers [DecidableEq ν] (n : Nat) (col : String) (d : Dl1Input τ ν) : Prop extends Extracted n d where
  numbers : NumbersIn d.reader col d.ids

theorem speInputs_usable [DecidableEq ν] (n : Nat) (hp : 1 ≤ n) (hp' : n ≤ 2 ^ 32) (col : String) (h1 : col ≠ "iev") (h2 : col ≠ "pixel") (files : List (Dl1Input τ ν))
    (hf : ∀ d ∈ files, WithNumbers n col d) :
    ∃ inputs, speInputs col (files.map fun d => (d.path, d.file)) = .ok inputs ∧
      List.Forall₂ (fun d (i : String × SpeInput (DRow (Dict String (Cell τ))) ν) => i.1 = d.path ∧ i.2.nPixels = n ∧
        (∀ p < n, ChargesIn d.reader col d.ids p (pixelCharges i.2 col p)) ∧ (∃ m, i.2.mapping = .ok m) ∧ ∃ a, i.2.charges col = .ok a) files inputs := by
  induction files with
  | nil => exact ⟨[], rfl, .nil⟩
  | cons d files ih =>
    obtain ⟨inputs, i1, i2⟩ := ih fun d hd => hf d (by simp [hd])
    have hd := hf d (by simp)
    obtain ⟨mapping, hm⟩ := hd.made
    obtain ⟨i, a, c1, c2, -, c4, -, ⟨md, c6, -⟩, c7⟩ := C156_charges d.file n d.ids mapping hm hd.increasing hd.small hd.some hp hp' d.reader hd.opened col h1 h2 hd.numbers
    refine ⟨(d.path, i) :: inputs, ?_, .cons ⟨rfl, c4, fun p hpn => (c7 p hpn).2, ⟨_, c6⟩, a, c2⟩ i2⟩
    rw [List.map_cons]
    unfold speInputs
    simp only [hd.opened, c1, i1]

/-- C156: whatever the fitter and however the pixels are distributed over processes, the fit of a pixel is the fit of that pixel's charges on its own: for each file, in
the order of the command line, the entries of the column in the rows of this pixel, one per processed event. The plots of the written file show this fit. Pixels
the camera does not have are refused. -/
theorem C156_fits [DecidableEq ν] (engine : FitEngine) (process : Fitter → List ChargeArray → Nat → Except Err SpeStore)
    (mem : List (SpeRow (DRow (Dict String (Cell τ)))) → Nat) (hmem : ∀ rows, rows ≠ [] → 0 < mem rows) (order : List String)
    (ho : order.Perm ["values", "errors", "arrays"]) (name : String) (make : Nat → Fitter) (col : String) (h1 : col ≠ "iev") (h2 : col ≠ "pixel")
    (hpr : ∀ f charges n s, process f charges n = .ok s → Scheduled engine f charges n s) (hmk : ∀ n, (make n).coll.lookupTyped.2 = (make n).coll.prep.lookup)
    (n : Nat) (hp : 1 ≤ n) (hp' : n ≤ 2 ^ 32) (files : List (Dl1Input τ ν)) (hf : ∀ d ∈ files, WithNumbers n col d)
    (store : Store (SpeRow (DRow (Dict String (Cell τ)))) (SpeObj ν)) (h : extractSpeFiles process mem order name make col (files.map fun d => (d.path, d.file)) = .ok store)
    (hsz : SmallTables store) :
    ∃ r initial, openReader store = .ok r ∧ recordedInitial files.length (make files.length).coll.params = .ok initial ∧
      ∀ pixel,
        (pixel < n → ∃ qss fit, List.Forall₂ (fun d qs => ChargesIn d.reader col d.ids pixel qs) files qss ∧ FitOf engine (make files.length) qss fit ∧
          ∀ plots, plotSpe r pixel = .ok plots → Shows files.length name initial fit plots) ∧
        (n ≤ pixel → ∃ e, plotSpe r pixel = .error e) := by
  obtain ⟨inputs, i1, i2⟩ := speInputs_usable n hp hp' col h1 h2 files hf
  unfold extractSpeFiles at h
  rw [i1] at h
  have hlen := i2.length_eq
  obtain ⟨r, initial, k1, k2, d0, k3, k4⟩ := C110_spectrum engine process mem hmem order ho name make col inputs store hpr hmk h hsz
  have hd0 : d0.2.nPixels = n := by
    cases i2 with
    | nil => cases k3
    | cons hh _ => cases k3; exact hh.2.1
  rw [hd0, ← hlen] at k4
  rw [← hlen] at k2
  refine ⟨r, initial, k1, k2, fun pixel => ⟨fun hpix => ?_, (k4 pixel).2⟩⟩
  obtain ⟨fit, f1, f2⟩ := (k4 pixel).1 hpix
  refine ⟨_, fit, ?_, f1, f2⟩
  rw [List.forall₂_map_right_iff]
  exact i2.imp fun d i hi => hi.2.2.1 pixel hpix

theorem chargesIn_unique (r : HReader (DRow (Dict String (Cell τ))) ν) (col : String) (ids : List Nat) (pixel : Nat) (qs qs' : List ℚ) (h : ChargesIn r col ids pixel qs)
    (h' : ChargesIn r col ids pixel qs') : qs = qs' := by
  apply List.ext_getElem (h.1.trans h'.1.symm)
  intro k k1 k2
  have hk : k < ids.length := by rw [← h.1]; exact k1
  obtain ⟨rows, row, q, a1, a2, -, a3, a4⟩ := h.2 k _ (List.getElem?_eq_getElem hk)
  obtain ⟨rows', row', q', b1, b2, -, b3, b4⟩ := h'.2 k _ (List.getElem?_eq_getElem hk)
  obtain rfl := Except.ok.inj (a1.symm.trans b1)
  obtain rfl := Option.some.inj (a2.symm.trans b2)
  rw [a3, Option.some.injEq, Cell.num.injEq] at b3
  rw [List.getElem?_eq_getElem k1, Option.some.injEq] at a4
  rw [List.getElem?_eq_getElem k2, Option.some.injEq] at b4
  rw [a4, b4, b3]

theorem readInputs_total {μ : Type} (col : String) (inputs : List (SpeInput μ ν)) (h : ∀ i ∈ inputs, (∃ m, i.mapping = .ok m) ∧ ∃ a, i.charges col = .ok a)
    (mapping : Option (List μ × MetaDict (SpeObj ν))) : ∃ x, readInputs col inputs mapping = .ok x := by
  induction inputs generalizing mapping with
  | nil => exact ⟨_, rfl⟩
  | cons i inputs ih =>
    obtain ⟨⟨m, hm⟩, a, ha⟩ := h i (by simp)
    unfold readInputs
    rw [ha, hm]
    cases mapping with
    | none =>
      obtain ⟨x, hx⟩ := ih (fun i hi => h i (by simp [hi])) (some m)
      simp only [hx]
      exact ⟨_, rfl⟩
    | some m' =>
      obtain ⟨x, hx⟩ := ih (fun i hi => h i (by simp [hi])) (some m')
      simp only [hx]
      exact ⟨_, rfl⟩

/-- The script, in one process, writes a file exactly when every pixel can be fitted; the file can be read when its tables have at most 8 GB. -/
theorem C156_finishes [DecidableEq ν] (engine : FitEngine) (mem : List (SpeRow (DRow (Dict String (Cell τ)))) → Nat) (hmem : ∀ rows, rows ≠ [] → 0 < mem rows) (order : List String)
    (ho : order.Perm ["values", "errors", "arrays"]) (name : String) (make : Nat → Fitter) (col : String) (h1 : col ≠ "iev") (h2 : col ≠ "pixel")
    (hmk : ∀ n, (make n).coll.lookupTyped.2 = (make n).coll.prep.lookup) (n : Nat) (hp : 1 ≤ n) (hp' : n ≤ 2 ^ 32) (files : List (Dl1Input τ ν)) (hne : files ≠ [])
    (hf : ∀ d ∈ files, WithNumbers n col d) (hinit : ∃ initial, recordedInitial files.length (make files.length).coll.params = .ok initial) :
    ((∃ store, extractSpeFiles (processPixels engine) mem order name make col (files.map fun d => (d.path, d.file)) = .ok store) ↔
      ∀ pixel < n, ∀ qss, List.Forall₂ (fun d qs => ChargesIn d.reader col d.ids pixel qs) files qss → ∃ fit, FitOf engine (make files.length) qss fit) ∧
    ∀ store, extractSpeFiles (processPixels engine) mem order name make col (files.map fun d => (d.path, d.file)) = .ok store → (∀ rows, mem rows ≤ 8000000000) →
      SmallTables store := by
  obtain ⟨inputs, i1, i2⟩ := speInputs_usable n hp hp' col h1 h2 files hf
  unfold extractSpeFiles
  rw [i1]
  have hlen := i2.length_eq
  obtain ⟨initial, hinit⟩ := hinit
  have hin : ∀ i ∈ inputs, i.2.nPixels = n ∧ (∃ m, i.2.mapping = .ok m) ∧ ∃ a, i.2.charges col = .ok a := by
    intro i hi
    obtain ⟨k, hk, rfl⟩ := List.mem_iff_getElem.1 hi
    obtain ⟨-, a, -, b⟩ := i2.get (by omega) hk
    exact ⟨a, b⟩
  obtain ⟨⟨charges, mapping⟩, hread⟩ := readInputs_total col (inputs.map (·.2)) (by
    intro i hi
    obtain ⟨j, hj, rfl⟩ := List.mem_map.1 hi
    exact (hin j hj).2) none
  obtain ⟨f1, -, f3⟩ := readInputs_spec col _ _ _ _ hread
  have hlc : charges.length = files.length := by rw [← f1.length_eq, List.length_map, hlen]
  obtain ⟨d0, rest, rfl⟩ : ∃ d0 rest, inputs = d0 :: rest := by
    cases inputs with
    | nil => exact absurd (List.length_eq_zero_iff.1 hlen) hne
    | cons d0 rest => exact ⟨d0, rest, rfl⟩
  obtain ⟨m, -, rfl⟩ := f3 d0.2 (rest.map (·.2)) rfl rfl
  obtain ⟨⟨ne, first⟩, crest, rfl⟩ : ∃ c crest, charges = c :: crest := by
    cases charges with
    | nil => simp at f1
    | cons c cs => exact ⟨c, cs, rfl⟩
  have hfirst : first.nPixels = n := by
    rw [List.map_cons, List.forall₂_cons] at f1
    rw [(charges_spec _ _ _ f1.1.2).1]
    exact (hin d0 (by simp)).1
  obtain ⟨arrays, harr⟩ : ∃ arrays, arrays = ((ne, first) :: crest).map (·.2) := ⟨_, rfl⟩
  have hmain : ∀ store, extractSpe (processPixels engine) mem order name make col (d0 :: rest) = .ok store ↔
      ∃ s, processPixels engine (make files.length) arrays n = .ok s ∧ ¬ (s.values.isEmpty || s.errors.isEmpty || s.arrays.isEmpty) = true ∧
        writeSession { mem := mem, prep := id } (speOps ((d0 :: rest).map (·.1)) name files.length (ne, n) initial m s) order = .ok store := by
    intro store
    unfold extractSpe
    rw [hread]
    simp only [hlc, hinit, hfirst, ← harr]
    cases hpr : processPixels engine (make files.length) arrays n with
    | error e => simp
    | ok s =>
      simp only [Except.ok.injEq, exists_eq_left']
      by_cases he : (s.values.isEmpty || s.errors.isEmpty || s.arrays.isEmpty) = true
      · rw [if_pos he]; simp [he]
      · rw [if_neg he]; simp [he]
  have hpix : ∀ p < n, arrays.mapM (·.pixel p) = .ok ((d0 :: rest).map fun i => pixelCharges i.2 col p) := by
    intro p hpn
    have key : ∀ (inputs : List (String × SpeInput (DRow (Dict String (Cell τ))) ν)) (charges : List (Nat × ChargeArray)), (∀ i ∈ inputs, i.2.nPixels = n) →
        List.Forall₂ (fun d (c : Nat × ChargeArray) => c.1 = d.nEvents ∧ d.charges col = .ok c.2) (inputs.map (·.2)) charges →
        (charges.map (·.2)).mapM (·.pixel p) = .ok (inputs.map fun i => pixelCharges i.2 col p) := by
      intro inputs
      induction inputs with
      | nil => intro charges _ h; cases h; rfl
      | cons i inputs ih =>
        intro charges hin h
        rw [List.map_cons, List.forall₂_cons_left_iff] at h
        obtain ⟨c, cs, hc, hcs, rfl⟩ := h
        rw [List.map_cons, List.mapM_cons, ih cs (fun i hi => hin i (by simp [hi])) hcs, (charges_spec _ _ _ hc.2).2.2 p (by rw [hin i (by simp)]; exact hpn)]
        rfl
    rw [harr]
    exact key _ _ (fun i hi => (hin i hi).1) f1
  have hqs : ∀ p < n, List.Forall₂ (fun d qs => ChargesIn d.reader col d.ids p qs) files ((d0 :: rest).map fun i => pixelCharges i.2 col p) := by
    intro p hpn
    rw [List.forall₂_map_right_iff]
    exact i2.imp fun d i hi => hi.2.2.1 p hpn
  have happ : ∀ p < n, ∀ fit, (applyPixel engine (make files.length) arrays p).2 = .ok fit ↔
      FitOf engine (make files.length) ((d0 :: rest).map fun i => pixelCharges i.2 col p) fit := by
    intro p hpn fit
    unfold applyPixel FitOf
    rw [hpix p hpn]
    simp only
    cases hap : (make files.length).apply engine.minimise ((d0 :: rest).map fun i => pixelCharges i.2 col p) with
    | mk g res => cases res with
      | error e => simp
      | ok req => simp
  refine ⟨⟨?_, ?_⟩, ?_⟩
  · rintro ⟨store, hst⟩ pixel hpn qss hqss
    obtain ⟨s, hs, -⟩ := (hmain store).1 hst
    obtain ⟨fits, -, -, -, -, t5⟩ := sequential_tables engine _ (hmk _) _ _ s hs
    obtain ⟨fit, t6, -⟩ := t5 pixel hpn
    refine ⟨fit, ?_⟩
    have huniq : qss = (d0 :: rest).map fun i => pixelCharges i.2 col pixel := by
      have hq := hqs pixel hpn
      apply List.ext_getElem (hqss.length_eq.symm.trans hq.length_eq)
      intro k k1 k2
      have hk : k < files.length := by rw [hqss.length_eq]; exact k1
      exact chargesIn_unique _ _ _ _ _ _ (hqss.get hk k1) (hq.get hk k2)
    rw [huniq]
    exact (happ pixel hpn fit).1 t6
  · intro hfit
    have hall : ∀ p ∈ List.range n, ∃ fit, (applyPixel engine (make files.length) arrays p).2 = .ok fit := by
      intro p hpm
      have hpn := List.mem_range.1 hpm
      obtain ⟨fit, hx⟩ := hfit p hpn _ (hqs p hpn)
      exact ⟨fit, (happ p hpn fit).2 hx⟩
    obtain ⟨fits, hw⟩ : ∃ fits, worker engine arrays (make files.length) (List.range n) = .ok fits := by
      have key : ∀ (ps : List Nat) (g : Fitter), SameSettings (make files.length) g → (∀ p ∈ ps, ∃ fit, (applyPixel engine (make files.length) arrays p).2 = .ok fit) →
          ∃ fits, worker engine arrays g ps = .ok fits := by
        intro ps
        induction ps with
        | nil => exact fun g _ _ => ⟨_, rfl⟩
        | cons p ps ih =>
          intro g hg hps
          obtain ⟨e1, e2⟩ := applyPixel_same engine _ g hg (hmk _) arrays p
          obtain ⟨fit, hx⟩ := hps p (by simp)
          rw [hx] at e1
          obtain ⟨fits, hr⟩ := ih _ e2 fun q hq => hps q (by simp [hq])
          unfold worker
          cases hap : applyPixel engine g arrays p with
          | mk g' res =>
            rw [hap] at e1 hr
            simp only at e1 hr
            subst e1
            simp only [hr]
            exact ⟨_, rfl⟩
      exact key _ _ ⟨rfl, rfl, rfl, rfl, hmk _⟩ hall
    obtain ⟨s, hs⟩ : ∃ s, processPixels engine (make files.length) arrays n = .ok s := by
      unfold processPixels
      rw [hw]
      exact ⟨_, rfl⟩
    obtain ⟨fits', t1, t2, t3, t4, -⟩ := sequential_tables engine _ (hmk _) _ _ s hs
    have hnil : fits' ≠ [] := by
      rintro rfl
      have := congrArg List.length t4
      simp at this
      omega
    have e1 : s.values ≠ [] := by rw [t1]; simpa using hnil
    have e2 : s.errors ≠ [] := by rw [t2]; simpa using hnil
    have e3 : s.arrays ≠ [] := by rw [t3]; simpa using hnil
    obtain ⟨store, r, w1, -⟩ := spe_file (paths := (d0 :: rest).map (·.1)) (fitter := name) (n := files.length) (shape := (ne, n)) (initial := initial) (m := m)
      s mem hmem order ho e1 e2 e3
    exact ⟨store, (hmain store).2 ⟨s, hs, by simp [e1, e2, e3], w1⟩⟩
  · intro store hst hle
    obtain ⟨s, -, -, hw⟩ := (hmain store).1 hst
    exact spe_small _ _ _ _ _ _ _ mem hle order ho store hw

/-- the script stops at the first file that cannot be read -/
theorem speInputs_stop [DecidableEq ν] (n : Nat) (hp : 1 ≤ n) (hp' : n ≤ 2 ^ 32) (col : String) (h1 : col ≠ "iev") (h2 : col ≠ "pixel") (files : List (Dl1Input τ ν))
    (hf : ∀ d ∈ files, WithNumbers n col d) (bad : List (String × Store (DRow (Dict String (Cell τ))) ν)) (e : Err) (hbad : speInputs col bad = .error e) :
    speInputs col ((files.map fun d => (d.path, d.file)) ++ bad) = .error e := by
  induction files with
  | nil => exact hbad
  | cons d files ih =>
    have hd := hf d (by simp)
    obtain ⟨mapping, hm⟩ := hd.made
    obtain ⟨i, a, c1, -⟩ := C156_charges d.file n d.ids mapping hm hd.increasing hd.small hd.some hp hp' d.reader hd.opened col h1 h2 hd.numbers
    rw [List.map_cons, List.cons_append]
    unfold speInputs
    simp only [hd.opened, c1, ih fun d hd => hf d (by simp [hd])]

/-- If one of the files does not have the column, nothing is fitted. -/
theorem C156_refused [DecidableEq ν] (process : Fitter → List ChargeArray → Nat → Except Err SpeStore)
    (mem : List (SpeRow (DRow (Dict String (Cell τ)))) → Nat) (order : List String) (name : String) (make : Nat → Fitter) (col : String) (h1 : col ≠ "iev") (h2 : col ≠ "pixel")
    (n : Nat) (hp : 1 ≤ n) (hp' : n ≤ 2 ^ 32) (files rest : List (Dl1Input τ ν)) (hf : ∀ d ∈ files, WithNumbers n col d) (bad : Dl1Input τ ν)
    (hbad : Extracted n bad) (hno : ∃ id ∈ bad.ids, ∃ rows row, dl1GetItem bad.reader id = .ok rows ∧ row ∈ rows ∧ Dict.get? row.vals col = none) :
    extractSpeFiles process mem order name make col ((files ++ bad :: rest).map fun d => (d.path, d.file)) = .error .keyError := by
  obtain ⟨mapping, hm⟩ := hbad.made
  have hmiss := C156_missing bad.file n bad.ids mapping hm hbad.increasing hbad.small hbad.some hp hp' bad.reader hbad.opened col h1 h2 hno
  unfold extractSpeFiles
  rw [List.map_append, speInputs_stop n hp hp' col h1 h2 files hf _ .keyError]
  rw [List.map_cons]
  unfold speInputs
  simp only [hbad.opened, hmiss]

/-- If one of the files cannot be opened, nothing is fitted, and its exception ends the program. -/
theorem C156_unreadable [DecidableEq ν] (process : Fitter → List ChargeArray → Nat → Except Err SpeStore)
    (mem : List (SpeRow (DRow (Dict String (Cell τ)))) → Nat) (order : List String) (name : String) (make : Nat → Fitter) (col : String) (h1 : col ≠ "iev") (h2 : col ≠ "pixel")
    (n : Nat) (hp : 1 ≤ n) (hp' : n ≤ 2 ^ 32) (files : List (Dl1Input τ ν)) (hf : ∀ d ∈ files, WithNumbers n col d) (path : String)
    (bad : Store (DRow (Dict String (Cell τ))) ν) (rest : List (String × Store (DRow (Dict String (Cell τ))) ν)) (e : Err) (hbad : openReader bad = .error e) :
    extractSpeFiles process mem order name make col ((files.map fun d => (d.path, d.file)) ++ (path, bad) :: rest) = .error e := by
  unfold extractSpeFiles
  rw [speInputs_stop n hp hp' col h1 h2 files hf _ e]
  unfold speInputs
  simp only [hbad]

/-! ### with the built-in configuration of the extraction -/

/-- C156 for a run extracted with the built-in configuration: the charges `extract_spe -C charge_cc` fits for a pixel are, for each processed event, the waveform of that pixel
(time-aligned, minus the rolling baseline) weighted with the reference pulse at the best match of the camera, rounded to the type of the column. -/
theorem C156_default_run [DecidableEq ν] (pulse : String → Except Err (List ℚ)) (after : List (List ℚ) → Option ℚ)
    (rest : Shipped → ReducerClass RSetting ProgState (List (List ℚ)) ColVal) (found : List Shipped) (hall : ∀ c, c ∈ found) (load : String → Yaml RSetting)
    (path : String) (hpath : path ≠ "") (y : List ℚ) (hy : pulse path = .ok y) (hA : 0 < area y)
    (rd : RawReader τ (RawWf τ) (Dict String (Cell τ)) ν) (n : Nat) (hrun : PlainRun rd n) (hn : 20 ≤ n) (hp : 1 ≤ rd.nPixels) (hp' : rd.nPixels ≤ 2048)
    (hlen : rd.events.length ≤ 2 ^ 32) (hne : goodEvents rd.events ≠ []) (hm : (Dict.keys rd.otherMeta).Nodup) (hmc : rd.isMc = true → rd.mcheader ≠ none)
    (tCor : List ℚ) (hread : ReadFrom tCor shippedTCor) (config : MetaDict ν) (enc : Option τ → ν) :
    ∃ chain x tcs, programChain pulse after rest found load none path = .ok chain ∧ newExtractor rd tCor (.ok chain) config = .ok x ∧
      List.Forall₂ (fun (e : Model.Event τ (RawWf τ)) tc => Aligned rd.isMc tCor n e.payload.rows tc) (goodEvents rd.events) tcs ∧
      ∀ (mem : List (DRow (Dict String (Cell τ))) → Nat) (cast : String → Cell τ → Cell τ) (order : List String), IsOrder (dl1Calls rd x enc).1 order →
        ∀ round : ℚ → ℚ, (∀ q, cast "charge_cc" (.num q) = .num (round q)) →
        ∃ s r d a, writeDl1File mem (castColumns cast) rd x enc order = (.ok s, none) ∧ openReader s = .ok r ∧
          (∀ name, WithNumbers rd.nPixels "charge_cc" ⟨name, s, r, (goodEvents rd.events).map Event.iev⟩) ∧ speInput r "charge_cc" = .ok d ∧
          d.charges "charge_cc" = .ok a ∧ a.nPixels = rd.nPixels ∧
          ∀ p < rd.nPixels, ∃ qs, a.pixel p = .ok qs ∧ qs.length = (goodEvents rd.events).length ∧
            ∀ (k : Nat) tc, tcs[k]? = some tc → ∃ am peak, FirstMax y.length (fun i => y.getD i 0) am ∧
              FirstMax n (fun i => ((minusBaseline tc fun q => rollingBaseline 50 16 (wfEvents rd.events) (tcs.take (k + 1)) q).map fun row => matchedCharge y am row i).sum) peak ∧
              qs[k]? = some (round (matchedCharge y am
                ((minusBaseline tc fun q => rollingBaseline 50 16 (wfEvents rd.events) (tcs.take (k + 1)) q).getD p []) peak)) := by
  obtain ⟨chain, x, tcs, a1, a2, a3, a4, a5⟩ := C155_default_run pulse after rest found hall load path hpath y hy hA rd n hrun hn hp hp' hlen hne hm hmc tCor hread config enc
  refine ⟨chain, x, tcs, a1, a2, a4, fun mem cast order ho round hround => ?_⟩
  obtain ⟨s, r, b1, b2, b3, -⟩ := a5 mem cast order ho
  have hmade : Made s rd.nPixels ((goodEvents rd.events).map Event.iev) (rd.mapping, rd.mappingMeta) :=
    ⟨_, _, rd, x, enc, mem, castColumns cast, order, ho, hm, b1, rfl, rfl, rfl⟩
  have hinc : ((rd.events).map Event.iev).Pairwise (· < ·) := by
    have : rd.events.map Event.iev = List.range rd.events.length := by
      apply List.ext_getElem (by simp)
      intro i i1 i2
      rw [List.getElem_map, List.getElem_range]
      exact hrun.numbered i _
    rw [this]
    exact List.pairwise_lt_range
  have hsub : (goodEvents rd.events).Sublist rd.events := List.filter_sublist
  have hid := hinc.sublist (hsub.map Event.iev)
  have hsmall : ∀ id ∈ (goodEvents rd.events).map Event.iev, id < 2 ^ 32 := by
    intro id hid
    obtain ⟨e, he, rfl⟩ := List.mem_map.1 hid
    obtain ⟨j, hj, rfl⟩ := List.mem_iff_getElem.1 (hsub.subset he)
    rw [hrun.numbered j hj]
    omega
  have hl := a4.length_eq
  have hval : ∀ (k : Nat) e, (goodEvents rd.events)[k]? = some e → ∃ tc rows, tcs[k]? = some tc ∧ dl1GetItem r e.iev = .ok rows ∧ rows.length = rd.nPixels ∧
      ∀ p < rd.nPixels, ∃ row, rows[p]? = some row ∧ ∃ am peak, FirstMax y.length (fun i => y.getD i 0) am ∧
        FirstMax n (fun i => ((minusBaseline tc fun q => rollingBaseline 50 16 (wfEvents rd.events) (tcs.take (k + 1)) q).map fun row => matchedCharge y am row i).sum) peak ∧
        Dict.get? row.vals "charge_cc" = some (.num (round (matchedCharge y am
          ((minusBaseline tc fun q => rollingBaseline 50 16 (wfEvents rd.events) (tcs.take (k + 1)) q).getD p []) peak))) := by
    intro k e hk
    obtain ⟨hk1, -⟩ := List.getElem?_eq_some_iff.1 hk
    have htc := List.getElem?_eq_getElem (l := tcs) (i := k) (by omega)
    obtain ⟨rows, c1, c2, c3⟩ := b3 k e _ hk htc
    refine ⟨_, rows, htc, c1, c2, fun p hpn => ?_⟩
    obtain ⟨vals, v1, v2⟩ := c3 p hpn
    obtain ⟨am, peak, h, t, e1, e2, -, -, -, -, e3, -⟩ := v2.plain.correlation
    refine ⟨_, v1, am, peak, e1, e2, ?_⟩
    show Dict.get? (castColumns cast vals) "charge_cc" = _
    rw [get?_castColumns, e3, Option.map_some, hround]
  have hnum : NumbersIn r "charge_cc" ((goodEvents rd.events).map Event.iev) := by
    intro id hid rows hrows row hrow
    obtain ⟨e, he, rfl⟩ := List.mem_map.1 hid
    obtain ⟨k, hk, rfl⟩ := List.mem_iff_getElem.1 he
    obtain ⟨tc, rows', -, d2, d3, d4⟩ := hval k _ (List.getElem?_eq_getElem hk)
    obtain rfl := Except.ok.inj (hrows.symm.trans d2)
    obtain ⟨p, hpl, rfl⟩ := List.mem_iff_getElem.1 hrow
    obtain ⟨row, r1, am, peak, -, -, r4⟩ := d4 p (by omega)
    rw [List.getElem?_eq_getElem hpl, Option.some.injEq] at r1
    rw [r1]
    exact ⟨_, r4⟩
  obtain ⟨d, a, c1, c2, c3, -, -, -, c7⟩ := C156_charges s rd.nPixels _ _ hmade hid hsmall (by simpa using hne) hp (by omega) r b2 "charge_cc" (by decide) (by decide) hnum
  refine ⟨s, r, d, a, b1, b2, fun name => ⟨⟨⟨_, hmade⟩, hid, hsmall, by simpa using hne, b2⟩, hnum⟩, c1, c2, c3, fun p hpn => ⟨_, (c7 p hpn).1, ?_, fun k tc htc => ?_⟩⟩
  · rw [(c7 p hpn).2.1, List.length_map]
  · obtain ⟨hk, -⟩ := List.getElem?_eq_some_iff.1 htc
    have hk' : k < (goodEvents rd.events).length := by omega
    obtain ⟨tc', rows, t1, t2, -, t4⟩ := hval k _ (List.getElem?_eq_getElem hk')
    obtain rfl := Option.some.inj (t1.symm.trans htc)
    obtain ⟨row, r1, am, peak, r2, r3, r4⟩ := t4 p hpn
    refine ⟨am, peak, r2, r3, ?_⟩
    obtain ⟨rows', row', q, s1, s2, -, s3, s4⟩ := (c7 p hpn).2.2 k _ (by rw [List.getElem?_map, List.getElem?_eq_getElem hk']; rfl)
    obtain rfl := Except.ok.inj (s1.symm.trans t2)
    obtain rfl := Option.some.inj (s2.symm.trans r1)
    rw [s4]
    rw [s3, Option.some.injEq, Cell.num.injEq] at r4
    rw [r4]

/-! ### a case -/

/-- an order in which the tables can be flushed exists for every history -/
theorem exists_order {ρ : Type} (ops : List (Op ρ ν)) : ∃ order, IsOrder ops order := by
  refine ⟨(ops.filterMap fun op => match op with
    | .append _ k => some k
    | .write k _ => some k
    | _ => none).dedup, List.nodup_dedup _, fun k => ?_⟩
  rw [List.mem_dedup, List.mem_filterMap]
  unfold IsData IsAppended
  constructor
  · rintro ⟨op, hop, h⟩
    cases op <;> simp only [Option.some.injEq, reduceCtorEq] at h
    · subst h; exact Or.inl ⟨_, hop⟩
    · subst h; exact Or.inr ⟨_, hop⟩
  · rintro (⟨df, h⟩ | ⟨df, h⟩)
    · exact ⟨_, h, rfl⟩
    · exact ⟨_, h, rfl⟩

/-- the run of `Verif.Props.DefaultRun`, extracted: a file of two pixels and two events, without a column `charge` -/
theorem pulseRun_file : ∃ d : Dl1Input Nat Unit, WithNumbers 2 "charge_cc" d ∧ d.ids = [0, 2] ∧
    ∃ id ∈ d.ids, ∃ rows row, dl1GetItem d.reader id = .ok rows ∧ row ∈ rows ∧ Dict.get? row.vals "charge" = none := by
  obtain ⟨chain, x, tcs, c1, c2, -, h⟩ := C156_default_run (ν := Unit) (fun _ => .ok [1, 2, 1]) (fun _ => none)
    (fun c => ⟨"", c.columns, fun _ => .error .runtimeError, fun _ _ _ => .error .runtimeError, fun _ _ _ => .error .runtimeError, fun _ s => s⟩) everyReducer
    (by intro c; cases c <;> decide) (fun _ => .null) "pulse.txt" (by decide) [1, 2, 1] rfl (by decide +kernel)
    pulseRun 24 pulseRun_plain (by decide) (by decide) (by decide) (by decide) (by decide) (by decide) (by intro h; cases h) shippedTCor
    (List.forall₂_same.2 fun x _ => by norm_num) [] (fun _ => ())
  obtain ⟨chain', x', tcs', d1, d2, -, d3, h'⟩ := C155_default_run (ν := Unit) (fun _ => .ok [1, 2, 1]) (fun _ => none)
    (fun c => ⟨"", c.columns, fun _ => .error .runtimeError, fun _ _ _ => .error .runtimeError, fun _ _ _ => .error .runtimeError, fun _ s => s⟩) everyReducer
    (by intro c; cases c <;> decide) (fun _ => .null) "pulse.txt" (by decide) [1, 2, 1] rfl (by decide +kernel)
    pulseRun 24 pulseRun_plain (by decide) (by decide) (by decide) (by decide) (by decide) (by decide) (by intro h; cases h) shippedTCor
    (List.forall₂_same.2 fun x _ => by norm_num) [] (fun _ => ())
  obtain rfl := Except.ok.inj (c1.symm.trans d1)
  obtain rfl := Except.ok.inj (c2.symm.trans d2)
  obtain ⟨order, ho⟩ := exists_order (dl1Calls pulseRun x fun _ => ()).1
  obtain ⟨s, r, d, a, w1, w2, hw, -⟩ := h (fun rows => rows.length) (fun _ c => c) order ho id fun _ => rfl
  obtain ⟨s', r', w1', w2', g, -⟩ := h' (fun rows => rows.length) (fun _ c => c) order ho
  obtain rfl := Except.ok.inj (Prod.mk.inj (w1.symm.trans w1')).1
  obtain rfl := Except.ok.inj (w2.symm.trans w2')
  refine ⟨_, hw "run", rfl, 0, (by decide : 0 ∈ (goodEvents pulseRun.events).map Event.iev), ?_⟩
  have hl : 0 < tcs'.length := by rw [← d3.length_eq]; decide
  obtain ⟨rows, g1, -, g2⟩ := g 0 (pulseEvent 0 false 11) _ rfl (List.getElem?_eq_getElem hl)
  obtain ⟨vals, g3, g4⟩ := g2 0 (by decide)
  refine ⟨rows, _, g1, List.mem_of_getElem? g3, ?_⟩
  rw [show (DRow.vals ⟨(pulseEvent 0 false 11).iev, some 0, castColumns (fun _ c => c) vals⟩) = castColumns (fun _ c => c) vals from rfl]
  rw [get?_castColumns, g4.nothingElse "charge" (by decide) (by decide)]
  rfl

/-- a column that file does not have -/
example : ∃ files : List (Dl1Input Nat Unit), files.length = 1 ∧
    extractSpeFiles (processPixels countEngine) (fun _ => 1) ["errors", "values", "arrays"] "Level" levelFitter "charge" (files.map fun d => (d.path, d.file)) = .error .keyError := by
  obtain ⟨d, hd, -, hno⟩ := pulseRun_file
  exact ⟨[d], rfl, C156_refused (processPixels countEngine) _ _ _ levelFitter "charge" (by decide) (by decide) 2 (by decide) (by decide) [] [] (fun _ h => by cases h) d hd.toExtracted hno⟩

/-- two such files: the script finishes with two fits and the plots of pixel 1 show one of them -/
example : ∃ (files : List (Dl1Input Nat Unit)) (store : Store (SpeRow (DRow (Dict String (Cell Nat)))) (SpeObj Unit)), files.length = 2 ∧
    extractSpeFiles (processPixels countEngine) (fun _ => 1) ["errors", "values", "arrays"] "Level" levelFitter "charge_cc" (files.map fun d => (d.path, d.file)) = .ok store ∧
    ∃ r initial qss fit, openReader store = .ok r ∧ List.Forall₂ (fun d qs => ChargesIn d.reader "charge_cc" d.ids 1 qs) files qss ∧
      FitOf countEngine (levelFitter 2) qss fit ∧ ∀ plots, plotSpe r 1 = .ok plots → Shows 2 "Level" initial fit plots := by
  obtain ⟨d, hd, -, -⟩ := pulseRun_file
  have hfiles : ∀ x ∈ [d, d], WithNumbers 2 "charge_cc" x := by
    intro x hx
    simp only [List.mem_cons, List.not_mem_nil, or_false, or_self] at hx
    rw [hx]
    exact hd
  have hmk : ∀ n, (levelFitter n).coll.lookupTyped.2 = (levelFitter n).coll.prep.lookup := fun n => rfl
  obtain ⟨h1, h2⟩ := C156_finishes countEngine (fun _ => 1) (fun _ _ => Nat.one_pos) ["errors", "values", "arrays"] (by decide) "Level" levelFitter "charge_cc" (by decide) (by decide)
    hmk 2 (by decide) (by decide) [d, d] (by simp) hfiles ⟨_, rfl⟩
  obtain ⟨store, hst⟩ := h1.2 (by
    intro pixel _ qss hq
    obtain ⟨q1, q2, rfl⟩ : ∃ q1 q2, qss = [q1, q2] := by
      cases hq with
      | cons _ h => cases h with
        | cons _ h => cases h; exact ⟨_, _, rfl⟩
    exact ⟨_, _, rfl, rfl⟩)
  refine ⟨[d, d], store, rfl, hst, ?_⟩
  obtain ⟨r, initial, k1, k2, k3⟩ := C156_fits countEngine (processPixels countEngine) (fun _ => 1) (fun _ _ => Nat.one_pos) ["errors", "values", "arrays"] (by decide) "Level" levelFitter
    "charge_cc" (by decide) (by decide) (fun f charges n s h => processPixels_scheduled countEngine f charges n s h) hmk 2 (by decide) (by decide) [d, d] hfiles store hst
    (h2 store hst fun _ => by decide)
  obtain ⟨qss, fit, f1, f2, f3⟩ := (k3 1).1 (by decide)
  exact ⟨r, initial, qss, fit, k1, f1, f2, f3⟩

/-- a table written by another program, without the metadata, cannot be opened -/
example : openReader ([("data", { rows := [], fmt := .table, attrs := [] })] : Store (DRow (Dict String (Cell Nat))) Unit) = .error .attributeError := rfl

end Verif.Props
