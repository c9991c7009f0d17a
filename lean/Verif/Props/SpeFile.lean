import Verif.Model.SpeFile
import Verif.Props.ExtractSpe
import Verif.Props.Mapping

/-! # C110, C111: the file of the fit results and its plots -/

namespace Verif.Props

open Verif.Py Verif.Model Verif.Spec Verif.Lemmas

variable {μ ν : Type}

section file

variable (paths : List String) (fitter : String) (n : Nat) (shape : Nat × Nat) (initial : Dict String ℚ) (m : List μ × MetaDict (SpeObj ν)) (s : SpeStore)

theorem speOps_appended (key : String) : ¬ IsAppended (speOps paths fitter n shape initial m s) key := by
  rintro ⟨df, h⟩; simp [speOps] at h

theorem speOps_data (key : String) : IsData (speOps paths fitter n shape initial m s) key ↔ key ∈ ["values", "errors", "arrays"] := by
  constructor
  · rintro (h | ⟨df, h⟩)
    · exact absurd h (speOps_appended paths fitter n shape initial m s key)
    · simp [speOps] at h ⊢
      tauto
  · intro h
    right
    simp only [List.mem_cons, List.not_mem_nil, or_false] at h
    rcases h with rfl | rfl | rfl <;> exact ⟨_, by unfold speOps; simp; rfl⟩

theorem speOps_meta : HasMeta (speOps paths fitter n shape initial m s) "data" "metadata" := ⟨by decide, by decide, _, by unfold speOps; simp; rfl⟩

/-- no table of the file is too large to be read -/
def SmallTables {ρ ν : Type} (store : Store ρ ν) : Prop :=
  ∀ key n, key ≠ "mapping" → fileField store key "metadata" "n_bytes" = some (.int n) → n ≤ 8000000000

theorem spe_file [DecidableEq ν] (mem : List (SpeRow μ) → Nat) (hmem : ∀ rows, rows ≠ [] → 0 < mem rows) (order : List String)
    (ho : order.Perm ["values", "errors", "arrays"]) (h1 : s.values ≠ []) (h2 : s.errors ≠ []) (h3 : s.arrays ≠ []) :
    ∃ store r, writeSession { mem := mem, prep := id } (speOps paths fitter n shape initial m s) order = .ok store ∧ openReader store = .ok r ∧
      (SmallTables store → readTable r "values" false = .ok (s.values.map fun x => .fit x.1 x.2) ∧
        readTable r "errors" false = .ok (s.errors.map fun x => .fit x.1 x.2) ∧
        readTable r "arrays" false = .ok (s.arrays.map fun x => .arrays x.1 x.2)) ∧ getMapping r = .ok (m.1.map .mapping, m.2) ∧
      ∃ md, getMetadata r "data" "metadata" = .ok md ∧ Dict.get? md "files" = some (.obj (.files paths)) ∧ Dict.get? md "fitter" = some (.str fitter) ∧
        Dict.get? md "n_illuminations" = some (.int n) ∧ Dict.get? md "n_pixels" = some (.obj (.shape shape.1 shape.2)) ∧
        Dict.get? md "initial" = some (.obj (.initial initial)) := by
  have hd := speOps_data paths fitter n shape initial m s
  have ha := speOps_appended paths fitter n shape initial m s
  have hu : Unmixed (speOps paths fitter n shape initial m s) := fun key h => ha key h.1
  have hord : IsOrder (speOps paths fitter n shape initial m s) order := by
    refine ⟨ho.nodup_iff.2 (by decide), fun k => ?_⟩
    rw [hd, ho.mem_iff]
  obtain ⟨store, hs, h⟩ := writeSession_spec { mem := mem, prep := id } _ order hu hord
  have hmeta := speOps_meta paths fitter n shape initial m s
  have hopen : ∃ r, openReader store = .ok r := by
    rw [openReader_ok_iff' store h.nodup]
    intro k hk
    by_cases hm : k = "mapping"
    · subst hm
      rw [h.mapAttr]
      exact Or.inr (Or.inr ⟨_, _, by unfold speOps; simp; exact ⟨rfl, rfl⟩⟩)
    · rw [h.attr k _ hm]
      rcases (h.present k).1 hk with h | h | ⟨name, h⟩ | h
      · exact Or.inr ⟨rfl, Or.inl h⟩
      · exact Or.inr ⟨rfl, Or.inr h⟩
      · obtain ⟨-, -, kv, h⟩ := h
        simp [speOps] at h
        exact Or.inr ⟨rfl, Or.inr h.1⟩
      · exact absurd h.1 hm
  obtain ⟨r, hr⟩ := hopen
  have hread : SmallTables store → ∀ key df, key ≠ "mapping" → lastWrite (speOps paths fitter n shape initial m s) key = some df → df ≠ [] →
      readTable r key false = .ok df := by
    intro hsz key df hk hw hne
    obtain ⟨g1, g2⟩ := h.written key df (ha key) (fun h => absurd h hk) hw
    have m1 := hmem df hne
    have m2 := hsz key _ hk g2
    have hre : Readable store key := ⟨hk, _, g2, by simp only [ne_eq, MetaVal.int.injEq]; omega⟩
    have := ((C20_read store h.nodup r hr key false).2.1 _ hre g2).2 (by rintro ⟨q, -⟩; exact absurd m2 (not_le.2 q))
    rw [this, g1]
  have hmd := C17_metadata_round_trip { mem := mem, prep := id } _ order hu hord
  obtain ⟨store', hs', hmd⟩ := hmd
  rw [hs] at hs'
  cases hs'
  obtain ⟨md, hmd1, hmd2⟩ := (hmd r hr "data" "metadata" (by decide) (by decide)).1 hmeta
  have hmap : ¬ IsData (speOps paths fitter n shape initial m s) "mapping" := by rw [hd]; decide
  have hmm : ¬ HasMeta (speOps paths fitter n shape initial m s) "mapping" "metadata" := by
    rintro ⟨-, -, kv, h⟩; simp [speOps] at h
  obtain ⟨g1, g2⟩ := session_mapping _ _ order hord hmap hmm store hs (m.1.map .mapping) m.2 rfl
  refine ⟨store, r, hs, hr, fun hsz => ⟨hread hsz _ _ (by decide) rfl ?_, hread hsz _ _ (by decide) rfl ?_, hread hsz _ _ (by decide) rfl ?_⟩, ?_, md, hmd1,
    ?_, ?_, ?_, ?_, ?_⟩
  · simpa using h1
  · simpa using h2
  · simpa using h3
  · rw [getMapping_of_file store h.nodup r hr _ g2, g1]
  · rw [hmd2 "files" (by decide)]; rfl
  · rw [hmd2 "fitter" (by decide)]; rfl
  · rw [hmd2 "n_illuminations" (by decide)]; rfl
  · rw [hmd2 "n_pixels" (by decide)]; rfl
  · rw [hmd2 "initial" (by decide)]; rfl

/-- tables of at most 8 GB give a file that can be read -/
theorem spe_small (mem : List (SpeRow μ) → Nat) (hmem : ∀ rows, mem rows ≤ 8000000000) (order : List String) (ho : order.Perm ["values", "errors", "arrays"])
    (store : Store (SpeRow μ) (SpeObj ν)) (hs : writeSession { mem := mem, prep := id } (speOps paths fitter n shape initial m s) order = .ok store) : SmallTables store := by
  have hd := speOps_data paths fitter n shape initial m s
  have ha := speOps_appended paths fitter n shape initial m s
  have hord : IsOrder (speOps paths fitter n shape initial m s) order := by
    refine ⟨ho.nodup_iff.2 (by decide), fun k => ?_⟩
    rw [hd, ho.mem_iff]
  obtain ⟨store', hs', h⟩ := writeSession_spec { mem := mem, prep := id } _ order (fun key h => ha key h.1) hord
  obtain rfl : store = store' := Except.ok.inj (hs.symm.trans hs')
  intro key k hk hf
  by_cases hdata : IsData (speOps paths fitter n shape initial m s) key
  · have hw : ∃ df, lastWrite (speOps paths fitter n shape initial m s) key = some df := by
      have := (hd key).1 hdata
      simp only [List.mem_cons, List.not_mem_nil, or_false] at this
      rcases this with rfl | rfl | rfl <;> exact ⟨_, rfl⟩
    obtain ⟨df, hw⟩ := hw
    obtain ⟨-, g⟩ := h.written key df (ha key) (fun h => absurd h hk) hw
    rw [hf, Option.some.injEq, MetaVal.int.injEq] at g
    have := hmem df
    rw [g]
    exact_mod_cast this
  · by_cases hkd : key = "data"
    · subst hkd
      have := h.fieldAll "data" "metadata" "n_bytes" (Or.inr ⟨rfl, Or.inr rfl⟩) (by decide) (fun h => hdata h.1)
      rw [hf] at this
      exact absurd this (by simp [lastField, speOps, Dict.get?])
    · have hno : ¬ (Dict.get? store key).isSome := by
        rw [h.present key]
        rintro (h | h | ⟨name, -, -, kv, h⟩ | h)
        · exact hdata h
        · exact hkd h
        · simp [speOps] at h
          exact hkd h.1
        · exact hk h.1
      unfold fileField fileAttr at hf
      cases hg : Dict.get? store key with
      | none => rw [hg] at hf; cases hf
      | some nd => rw [hg] at hno; exact absurd rfl hno

end file

/-! ### reading the charges -/

/-- the charges of a pixel in a file: the entries of the column at the places of the pixel, event by event -/
def pixelCharges (d : SpeInput μ ν) (col : String) (pixel : Nat) : List ℚ :=
  (List.range d.nEvents).filterMap fun e => (Dict.get? d.columns col).bind fun v => v[e * d.nPixels + pixel]?

theorem charges_spec (d : SpeInput μ ν) (col : String) (a : ChargeArray) (h : d.charges col = .ok a) :
    a.nPixels = d.nPixels ∧ (∃ v, Dict.get? d.columns col = some v ∧ v.length = d.nEvents * d.nPixels) ∧
    ∀ pixel < d.nPixels, a.pixel pixel = .ok (pixelCharges d col pixel) := by
  unfold SpeInput.charges at h
  cases hv : Dict.get? d.columns col with
  | none => rw [hv] at h; cases h
  | some v =>
    rw [hv] at h
    simp only at h
    unfold reshape at h
    by_cases hl : v.length = d.nEvents * d.nPixels
    · rw [if_pos hl] at h
      simp only [Except.ok.injEq] at h
      subst h
      refine ⟨rfl, ⟨v, rfl, hl⟩, fun pixel hp => ?_⟩
      unfold ChargeArray.pixel pixelCharges column
      rw [if_pos hp, hv, List.map_map, ← List.filterMap_eq_map]
      congr 1
      refine List.filterMap_congr fun e he => ?_
      have he := List.mem_range.1 he
      have hb : e * d.nPixels + pixel < v.length := by
        rw [hl]
        calc e * d.nPixels + pixel < e * d.nPixels + d.nPixels := by omega
          _ = (e + 1) * d.nPixels := by ring
          _ ≤ _ := Nat.mul_le_mul_right _ he
      simp only [Function.comp_apply, Option.bind_some]
      rw [List.getElem?_eq_getElem hb, List.getD_eq_getElem?_getD, List.getElem?_take_of_lt hp, List.getElem?_drop, List.getElem?_eq_getElem hb]
      rfl
    · rw [if_neg hl] at h
      cases h

theorem readInputs_spec (col : String) (inputs : List (SpeInput μ ν)) (mapping : Option (List μ × MetaDict (SpeObj ν))) (charges : List (Nat × ChargeArray))
    (m : Option (List μ × MetaDict (SpeObj ν))) (h : readInputs col inputs mapping = .ok (charges, m)) :
    List.Forall₂ (fun d (c : Nat × ChargeArray) => c.1 = d.nEvents ∧ d.charges col = .ok c.2) inputs charges ∧
    (∀ x, mapping = some x → m = some x) ∧ ∀ d ds, mapping = none → inputs = d :: ds → ∃ x, d.mapping = .ok x ∧ m = some x := by
  induction inputs generalizing mapping charges m with
  | nil =>
    unfold readInputs at h
    simp only [Except.ok.injEq, Prod.mk.injEq] at h
    obtain ⟨rfl, rfl⟩ := h
    exact ⟨.nil, fun x h => h, fun d ds _ h => by cases h⟩
  | cons d ds ih =>
    unfold readInputs at h
    cases hc : d.charges col with
    | error e => rw [hc] at h; cases h
    | ok a =>
      rw [hc] at h
      simp only at h
      have key : ∀ y, (match readInputs col ds (some y) with
          | .error e => .error e
          | .ok (as, m) => .ok ((d.nEvents, a) :: as, m)) = Except.ok (charges, m) →
          List.Forall₂ (fun d (c : Nat × ChargeArray) => c.1 = d.nEvents ∧ d.charges col = .ok c.2) (d :: ds) charges ∧ m = some y := by
        intro y h
        cases hr : readInputs col ds (some y) with
        | error e => rw [hr] at h; cases h
        | ok x =>
          obtain ⟨as, m'⟩ := x
          rw [hr] at h
          simp only [Except.ok.injEq, Prod.mk.injEq] at h
          obtain ⟨rfl, rfl⟩ := h
          obtain ⟨i1, i2, -⟩ := ih _ _ _ hr
          exact ⟨.cons ⟨rfl, hc⟩ i1, i2 y rfl⟩
      cases mapping with
      | some y =>
        obtain ⟨k1, k2⟩ := key y h
        exact ⟨k1, fun x hx => by rw [k2, hx], fun _ _ h => by cases h⟩
      | none =>
        cases hm : d.mapping with
        | error e => rw [hm] at h; cases h
        | ok y =>
          rw [hm] at h
          obtain ⟨k1, k2⟩ := key y h
          refine ⟨k1, fun x hx => (by cases hx), fun d' ds' _ he => ?_⟩
          cases he
          exact ⟨y, hm, k2⟩

/-! ### C110 -/

/-- the shared dictionaries after some distribution of the pixels over workers and some order of arrival of their entries -/
def Scheduled (engine : FitEngine) (f : Fitter) (charges : List ChargeArray) (nPixels : Nat) (s : SpeStore) : Prop :=
  ∃ (chunks : List (List Nat)) (fits : List (List (Nat × PixelFit))) (events : List SpeEvent), chunks.flatten.Perm (List.range nPixels) ∧
    chunks.map (worker engine charges f) = fits.map .ok ∧ events.Perm (fits.flatten.flatMap pixelEvents) ∧ s = events.foldl SpeStore.step {}

theorem processPixels_scheduled (engine : FitEngine) (f : Fitter) (charges : List ChargeArray) (nPixels : Nat) (s : SpeStore)
    (h : processPixels engine f charges nPixels = .ok s) : Scheduled engine f charges nPixels s := by
  unfold processPixels at h
  cases hw : worker engine charges f (List.range nPixels) with
  | error e => rw [hw] at h; cases h
  | ok fits =>
    rw [hw] at h
    simp only [Except.ok.injEq] at h
    exact ⟨[List.range nPixels], [fits], _, by simp, by simp [hw], .refl _, by simp [← h]⟩

/-- a fit of the charges of one pixel on its own -/
def FitOf (engine : FitEngine) (f : Fitter) (qs : List (List ℚ)) (fit : PixelFit) : Prop :=
  ∃ request, (f.apply engine.minimise qs).2 = .ok request ∧ readFit engine (f.apply engine.minimise qs).1 request = .ok fit

/-- the spectrum plot shows this fit -/
structure Shows (n : Nat) (name : String) (initial : Dict String ℚ) (fit : PixelFit) (plots : SpePlots) : Prop where
  illuminations : plots.nIlluminations = n
  fitter : plots.fitter = name
  histX : plots.histX = fit.arrays.histX
  edges : plots.edges = fit.arrays.edges
  fitX : plots.fitX = fit.arrays.fitX
  count : plots.curves.length = n
  curves : ∀ (i : Nat) c, plots.curves[i]? = some c → Dict.get? fit.values ("lambda_" ++ String.ofList (decimal i)) = some c.level ∧
    Dict.get? fit.errors ("lambda_" ++ String.ofList (decimal i)) = some c.error ∧ fit.arrays.histY[i]? = some c.hist ∧ fit.arrays.fitY[i]? = some c.fit
  rows : plots.table.map (·.1) = fit.values.map (·.1)
  table : ∀ x ∈ plots.table, Dict.get? initial x.1 = some x.2.1 ∧ Dict.get? fit.values x.1 = some x.2.2.1 ∧ Dict.get? fit.errors x.1 = some x.2.2.2

theorem fitRows_map (t : List (Nat × Dict String ℚ)) : fitRows (t.map fun x => (SpeRow.fit x.1 x.2 : SpeRow μ)) = t := by
  unfold fitRows
  rw [List.filterMap_map]
  exact List.filterMap_some

theorem arrayRows_map (t : List (Nat × PixelArrays)) : arrayRows (t.map fun x => (SpeRow.arrays x.1 x.2 : SpeRow μ)) = t := by
  unfold arrayRows
  rw [List.filterMap_map]
  exact List.filterMap_some

theorem speTable_spec (initial values errors : Dict String ℚ) (ks : List String) (t : List (String × ℚ × ℚ × ℚ))
    (h : speTable initial values errors ks = .ok t) : t.map (·.1) = ks ∧
    ∀ x ∈ t, Dict.get? initial x.1 = some x.2.1 ∧ Dict.get? values x.1 = some x.2.2.1 ∧ Dict.get? errors x.1 = some x.2.2.2 := by
  induction ks generalizing t with
  | nil => cases h; simp
  | cons k ks ih =>
    unfold speTable at h
    cases h1 : Dict.getItem initial k with
    | error e => rw [h1] at h; cases h
    | ok i => cases h2 : Dict.getItem values k with
      | error e => rw [h1, h2] at h; cases h
      | ok v => cases h3 : Dict.getItem errors k with
        | error e => rw [h1, h2, h3] at h; cases h
        | ok x => cases h4 : speTable initial values errors ks with
          | error e => rw [h1, h2, h3, h4] at h; cases h
          | ok rest =>
            rw [h1, h2, h3, h4] at h
            cases h
            obtain ⟨i1, i2⟩ := ih rest h4
            refine ⟨by simp [i1], fun y hy => ?_⟩
            rcases List.mem_cons.1 hy with rfl | hy
            · exact ⟨(Dict.getItem_eq_ok_iff _ _ _).1 h1, (Dict.getItem_eq_ok_iff _ _ _).1 h2, (Dict.getItem_eq_ok_iff _ _ _).1 h3⟩
            · exact i2 y hy

theorem speTable_ok (initial values errors : Dict String ℚ) (ks : List String)
    (h : ∀ k ∈ ks, k ∈ Dict.keys initial ∧ k ∈ Dict.keys values ∧ k ∈ Dict.keys errors) : ∃ t, speTable initial values errors ks = .ok t := by
  induction ks with
  | nil => exact ⟨_, rfl⟩
  | cons k ks ih =>
    obtain ⟨t, ht⟩ := ih fun k hk => h k (by simp [hk])
    obtain ⟨h1, h2, h3⟩ := h k (by simp)
    obtain ⟨a, ha⟩ := (Dict.mem_keys_iff _ _).1 h1
    obtain ⟨b, hb⟩ := (Dict.mem_keys_iff _ _).1 h2
    obtain ⟨c, hc⟩ := (Dict.mem_keys_iff _ _).1 h3
    unfold speTable
    rw [(Dict.getItem_eq_ok_iff _ _ _).2 ha, (Dict.getItem_eq_ok_iff _ _ _).2 hb, (Dict.getItem_eq_ok_iff _ _ _).2 hc, ht]
    exact ⟨_, rfl⟩

theorem speCurve_spec (values errors : Dict String ℚ) (a : PixelArrays) (i : Nat) (c : SpeCurve) :
    speCurve values errors a i = .ok c ↔ Dict.get? values (numbered "lambda_" i) = some c.level ∧ Dict.get? errors (numbered "lambda_" i) = some c.error ∧
      a.histY[i]? = some c.hist ∧ a.fitY[i]? = some c.fit := by
  unfold speCurve
  constructor
  · intro h
    cases h1 : Dict.getItem values (numbered "lambda_" i) with
    | error e => rw [h1] at h; cases h
    | ok v => cases h2 : Dict.getItem errors (numbered "lambda_" i) with
      | error e => rw [h1, h2] at h; cases h
      | ok x =>
        rw [h1, h2] at h
        simp only at h
        cases h3 : a.histY[i]? with
        | none => rw [h3] at h; cases h
        | some y => cases h4 : a.fitY[i]? with
          | none => rw [h3, h4] at h; cases h
          | some z =>
            rw [h3, h4] at h
            cases h
            exact ⟨(Dict.getItem_eq_ok_iff _ _ _).1 h1, (Dict.getItem_eq_ok_iff _ _ _).1 h2, rfl, rfl⟩
  · rintro ⟨h1, h2, h3, h4⟩
    rw [(Dict.getItem_eq_ok_iff _ _ _).2 h1, (Dict.getItem_eq_ok_iff _ _ _).2 h2]
    simp only [h3, h4]

theorem mapM_range_spec {α : Type} (f : Nat → Except Err α) (n : Nat) (r : List α) (h : (List.range n).mapM f = .ok r) :
    r.length = n ∧ ∀ (i : Nat) x, r[i]? = some x → f i = .ok x := by
  induction n generalizing r with
  | zero =>
    simp only [List.range_zero, List.mapM_nil] at h
    cases h
    exact ⟨rfl, fun i x h => by simp at h⟩
  | succ n ih =>
    rw [List.range_succ, List.mapM_append] at h
    cases h1 : (List.range n).mapM f with
    | error e => rw [h1] at h; cases h
    | ok a =>
      rw [h1] at h
      cases h2 : f n with
      | error e =>
        simp only [List.mapM_cons, h2, bind, Except.bind] at h
        cases h
      | ok b =>
        simp only [List.mapM_cons, List.mapM_nil, h2, bind, Except.bind, pure, Except.pure, Except.ok.injEq] at h
        subst h
        obtain ⟨i1, i2⟩ := ih a h1
        refine ⟨by simp [i1], fun i x hx => ?_⟩
        rcases Nat.lt_trichotomy i a.length with hi | hi | hi
        · rw [List.getElem?_append_left hi] at hx
          exact i2 i x hx
        · subst hi
          rw [List.getElem?_append_right (Nat.le_refl _)] at hx
          simp at hx
          rw [i1, ← hx, h2]
        · rw [List.getElem?_append_right (by omega)] at hx
          rw [List.getElem?_eq_none (by simp; omega)] at hx
          cases hx

/-- everything known about the plots of a file made from these dictionaries -/
theorem plot_spec {r : HReader (SpeRow μ) (SpeObj ν)} {s : SpeStore} {m : List (SpeRow μ) × MetaDict (SpeObj ν)} {md : MetaDict (SpeObj ν)} {name : String} {n : Nat}
    {initial : Dict String ℚ}
    (h1 : readTable r "values" false = .ok (s.values.map fun x => .fit x.1 x.2)) (h2 : readTable r "errors" false = .ok (s.errors.map fun x => .fit x.1 x.2))
    (h3 : readTable r "arrays" false = .ok (s.arrays.map fun x => .arrays x.1 x.2)) (h4 : getMapping r = .ok m)
    (h5 : getMetadata r "data" "metadata" = .ok md) (h6 : Dict.get? md "fitter" = some (.str name)) (h7 : Dict.get? md "n_illuminations" = some (.int n))
    (h8 : Dict.get? md "initial" = some (.obj (.initial initial))) (pixel : Nat) :
    plotSpe r pixel = (match (recordColumns s.values).mapM (speImage m.1.length s.values s.errors) with
      | .error e => .error e
      | .ok images => match Dict.get? s.values pixel, Dict.get? s.errors pixel, Dict.get? s.arrays pixel with
        | some v, some e, some a => match (List.range n).mapM (speCurve v e a) with
          | .error err => .error err
          | .ok curves => match speTable initial v e (Dict.keys v) with
            | .error err => .error err
            | .ok t => .ok ⟨images, n, name, a.histX, a.edges, a.fitX, curves, t⟩
        | _, _, _ => .error .keyError) := by
  unfold plotSpe
  rw [h1, h2, h3, h4, h5]
  simp only [fitRows_map, arrayRows_map]
  cases (recordColumns s.values).mapM (speImage m.1.length s.values s.errors) with
  | error e => rfl
  | ok images =>
    simp only
    unfold speSpectrum
    rw [h6, h7, h8]
    simp only
    have e1 := rowOf_eq s.values pixel
    have e2 := rowOf_eq s.errors pixel
    have e3 := rowOf_eq s.arrays pixel
    unfold tableOf at e1 e2 e3
    rw [e1, e2, e3]
    rfl

/-- a successful run has inputs, and its file can be opened and contains what was extracted; the tables can be read if they are not too large -/
theorem extract_file_any [DecidableEq ν] {process : Fitter → List ChargeArray → Nat → Except Err SpeStore} {mem : List (SpeRow μ) → Nat}
    (hmem : ∀ rows, rows ≠ [] → 0 < mem rows) {order : List String} (ho : order.Perm ["values", "errors", "arrays"]) {name : String}
    {make : Nat → Fitter} {col : String} {inputs : List (String × SpeInput μ ν)} {store : Store (SpeRow μ) (SpeObj ν)}
    (h : extractSpe process mem order name make col inputs = .ok store) :
    ∃ d0 rest charges m s initial r md, inputs = d0 :: rest ∧
      List.Forall₂ (fun d (c : Nat × ChargeArray) => c.1 = d.nEvents ∧ d.charges col = .ok c.2) (inputs.map (·.2)) charges ∧ d0.2.mapping = .ok m ∧
      process (make inputs.length) (charges.map (·.2)) d0.2.nPixels = .ok s ∧ s.values ≠ [] ∧
      recordedInitial inputs.length (make inputs.length).coll.params = .ok initial ∧
      openReader store = .ok r ∧ (SmallTables store → readTable r "values" false = .ok (s.values.map fun x => .fit x.1 x.2) ∧
      readTable r "errors" false = .ok (s.errors.map fun x => .fit x.1 x.2) ∧ readTable r "arrays" false = .ok (s.arrays.map fun x => .arrays x.1 x.2)) ∧
      getMapping r = .ok (m.1.map .mapping, m.2) ∧ getMetadata r "data" "metadata" = .ok md ∧
      Dict.get? md "files" = some (.obj (.files (inputs.map (·.1)))) ∧ Dict.get? md "fitter" = some (.str name) ∧
      Dict.get? md "n_illuminations" = some (.int inputs.length) ∧ Dict.get? md "n_pixels" = some (.obj (.shape d0.2.nEvents d0.2.nPixels)) ∧
      Dict.get? md "initial" = some (.obj (.initial initial)) := by
  unfold extractSpe at h
  cases hr : readInputs col (inputs.map (·.2)) none with
  | error e => rw [hr] at h; cases h
  | ok x =>
    obtain ⟨charges, mapping⟩ := x
    rw [hr] at h
    simp only at h
    obtain ⟨f1, -, f3⟩ := readInputs_spec col _ _ _ _ hr
    have hlen : charges.length = inputs.length := by rw [← f1.length_eq, List.length_map]
    rw [hlen] at h
    cases hi : recordedInitial inputs.length (make inputs.length).coll.params with
    | error e => rw [hi] at h; cases h
    | ok initial =>
      rw [hi] at h
      simp only at h
      cases inputs with
      | nil =>
        cases f1
        simp at h
      | cons d0 rest =>
        obtain ⟨m, hm, rfl⟩ := f3 d0.2 (rest.map (·.2)) rfl rfl
        cases charges with
        | nil => cases f1
        | cons c cs =>
          obtain ⟨nEvents, first⟩ := c
          simp only at h
          have f1' := f1
          rw [List.map_cons, List.forall₂_cons] at f1'
          obtain ⟨⟨g1, g2⟩, -⟩ := f1'
          have hn := (charges_spec _ _ _ g2).1
          simp only at g1 hn
          subst g1
          rw [hn] at h
          cases hp : process (make (d0 :: rest).length) (((d0.2.nEvents, first) :: cs).map (·.2)) d0.2.nPixels with
          | error e => rw [hp] at h; cases h
          | ok s =>
            rw [hp] at h
            simp only at h
            split at h
            · cases h
            · rename_i hne
              simp only [Bool.or_eq_true, List.isEmpty_iff, not_or] at hne
              obtain ⟨⟨e1, e2⟩, e3⟩ := hne
              obtain ⟨store', r, w1, w2, w3, w6, md, w7, w8, w9, w10, w11, w12⟩ :=
                spe_file ((d0 :: rest).map (·.1)) name (d0 :: rest).length (d0.2.nEvents, d0.2.nPixels) initial m s mem hmem order ho e1 e2 e3
              rw [h] at w1
              cases w1
              exact ⟨d0, rest, _, m, s, initial, r, md, rfl, f1, hm, hp, e1, rfl, w2, w3, w6, w7, w8, w9, w10, w11, w12⟩

/-- a successful run has inputs, and its file can be opened and contains what was extracted -/
theorem extract_file [DecidableEq ν] {process : Fitter → List ChargeArray → Nat → Except Err SpeStore} {mem : List (SpeRow μ) → Nat}
    (hmem : ∀ rows, rows ≠ [] → 0 < mem rows) {order : List String} (ho : order.Perm ["values", "errors", "arrays"]) {name : String}
    {make : Nat → Fitter} {col : String} {inputs : List (String × SpeInput μ ν)} {store : Store (SpeRow μ) (SpeObj ν)}
    (h : extractSpe process mem order name make col inputs = .ok store) (hsz : SmallTables store) :
    ∃ d0 rest charges m s initial r md, inputs = d0 :: rest ∧
      List.Forall₂ (fun d (c : Nat × ChargeArray) => c.1 = d.nEvents ∧ d.charges col = .ok c.2) (inputs.map (·.2)) charges ∧ d0.2.mapping = .ok m ∧
      process (make inputs.length) (charges.map (·.2)) d0.2.nPixels = .ok s ∧ s.values ≠ [] ∧
      recordedInitial inputs.length (make inputs.length).coll.params = .ok initial ∧
      openReader store = .ok r ∧ readTable r "values" false = .ok (s.values.map fun x => .fit x.1 x.2) ∧
      readTable r "errors" false = .ok (s.errors.map fun x => .fit x.1 x.2) ∧ readTable r "arrays" false = .ok (s.arrays.map fun x => .arrays x.1 x.2) ∧
      getMapping r = .ok (m.1.map .mapping, m.2) ∧ getMetadata r "data" "metadata" = .ok md ∧
      Dict.get? md "files" = some (.obj (.files (inputs.map (·.1)))) ∧ Dict.get? md "fitter" = some (.str name) ∧
      Dict.get? md "n_illuminations" = some (.int inputs.length) ∧ Dict.get? md "n_pixels" = some (.obj (.shape d0.2.nEvents d0.2.nPixels)) ∧
      Dict.get? md "initial" = some (.obj (.initial initial)) := by
  obtain ⟨d0, rest, charges, m, s, initial, r, md, h1, h2, h3, h4, h5, h6, h7, h8, h9⟩ := extract_file_any hmem ho h
  obtain ⟨t1, t2, t3⟩ := h8 hsz
  exact ⟨d0, rest, charges, m, s, initial, r, md, h1, h2, h3, h4, h5, h6, h7, t1, t2, t3, h9⟩

theorem mapM_pixel (col : String) (pixel : Nat) (inputs : List (SpeInput μ ν)) (charges : List (Nat × ChargeArray))
    (h : List.Forall₂ (fun d (c : Nat × ChargeArray) => c.1 = d.nEvents ∧ d.charges col = .ok c.2) inputs charges) (qs : List (List ℚ))
    (hq : (charges.map (·.2)).mapM (·.pixel pixel) = .ok qs) : qs = inputs.map fun d => pixelCharges d col pixel := by
  induction h generalizing qs with
  | nil => cases hq; rfl
  | @cons d c ds cs hd hds ih =>
    rw [List.map_cons, List.mapM_cons] at hq
    obtain ⟨s1, -, s3⟩ := charges_spec _ _ _ hd.2
    by_cases hp : pixel < d.nPixels
    · rw [s3 pixel hp] at hq
      cases hr : (cs.map (·.2)).mapM (·.pixel pixel) with
      | error e => rw [hr] at hq; cases hq
      | ok rest =>
        rw [hr] at hq
        cases hq
        rw [ih rest hr]
        rfl
    · unfold ChargeArray.pixel at hq
      rw [if_neg (by omega)] at hq
      cases hq

theorem fitOf_applyPixel (engine : FitEngine) (f : Fitter) (col : String) (pixel : Nat) (inputs : List (SpeInput μ ν)) (charges : List (Nat × ChargeArray))
    (h : List.Forall₂ (fun d (c : Nat × ChargeArray) => c.1 = d.nEvents ∧ d.charges col = .ok c.2) inputs charges) (fit : PixelFit)
    (hr : (applyPixel engine f (charges.map (·.2)) pixel).2 = .ok fit) : FitOf engine f (inputs.map fun d => pixelCharges d col pixel) fit := by
  unfold applyPixel at hr
  cases hq : (charges.map (·.2)).mapM (·.pixel pixel) with
  | error e => rw [hq] at hr; cases hr
  | ok qs =>
    rw [hq] at hr
    simp only at hr
    rw [← mapM_pixel col pixel inputs charges h qs hq]
    unfold FitOf
    revert hr
    rcases f.apply engine.minimise qs with ⟨g, rf⟩
    intro hr
    cases rf with
    | error e => cases hr
    | ok request => exact ⟨request, rfl, hr⟩

/-- C110: whatever the number of processes and the order in which the pixels are completed, the spectrum shown for a pixel is the fit to that pixel's charges on
their own, with one histogram and curve for each input file and the recorded initial values; other pixels cannot be plotted. -/
theorem C110_spectrum [DecidableEq ν] (engine : FitEngine) (process : Fitter → List ChargeArray → Nat → Except Err SpeStore) (mem : List (SpeRow μ) → Nat)
    (hmem : ∀ rows, rows ≠ [] → 0 < mem rows) (order : List String) (ho : order.Perm ["values", "errors", "arrays"]) (name : String)
    (make : Nat → Fitter) (col : String) (inputs : List (String × SpeInput μ ν)) (store : Store (SpeRow μ) (SpeObj ν))
    (hp : ∀ f charges n s, process f charges n = .ok s → Scheduled engine f charges n s) (hf : ∀ n, (make n).coll.lookupTyped.2 = (make n).coll.prep.lookup)
    (h : extractSpe process mem order name make col inputs = .ok store) (hsz : SmallTables store) :
    ∃ r initial, openReader store = .ok r ∧ recordedInitial inputs.length (make inputs.length).coll.params = .ok initial ∧
      ∃ d0, inputs.head? = some d0 ∧ ∀ pixel,
        (pixel < d0.2.nPixels → ∃ fit, FitOf engine (make inputs.length) (inputs.map fun d => pixelCharges d.2 col pixel) fit ∧
          ∀ plots, plotSpe r pixel = .ok plots → Shows inputs.length name initial fit plots) ∧
        (d0.2.nPixels ≤ pixel → ∃ e, plotSpe r pixel = .error e) := by
  obtain ⟨d0, rest, charges, m, s, initial, r, md, hin, hc, hm, hs, -, hi, w2, w3, w4, w5, w6, w7, w8, w9, w10, w11, w12⟩ := extract_file hmem ho h hsz
  have hplot := plot_spec w3 w4 w5 w6 w7 w9 w10 w12
  obtain ⟨chunks, fits, events, c1, c2, c3, rfl⟩ := hp _ _ _ _ hs
  obtain ⟨k1, k2, -⟩ := C65_partial engine _ (hf _) _ _ chunks c1 fits c2 events c3
  simp only [rowOf_eq] at k1 k2
  refine ⟨r, initial, w2, hi, d0, by rw [hin]; rfl, fun pixel => ⟨fun hpix => ?_, fun hpix => ?_⟩⟩
  · obtain ⟨fit, a1, a2, a3, a4⟩ := k1 pixel hpix
    refine ⟨fit, ?_, fun plots hpl => ?_⟩
    · have := fitOf_applyPixel engine (make inputs.length) col pixel _ charges hc fit a1
      rwa [List.map_map] at this
    · rw [hplot, a2, a3, a4] at hpl
      cases himg : (recordColumns (events.foldl SpeStore.step {}).values).mapM
          (speImage (m.1.map SpeRow.mapping).length (events.foldl SpeStore.step {}).values (events.foldl SpeStore.step {}).errors) with
      | error e => rw [himg] at hpl; cases hpl
      | ok images =>
        rw [himg] at hpl
        simp only at hpl
        cases hcv : (List.range inputs.length).mapM (speCurve fit.values fit.errors fit.arrays) with
        | error e => rw [hcv] at hpl; cases hpl
        | ok curves => cases ht : speTable initial fit.values fit.errors (Dict.keys fit.values) with
          | error e => rw [hcv, ht] at hpl; cases hpl
          | ok t =>
            rw [hcv, ht] at hpl
            cases hpl
            obtain ⟨v1, v2⟩ := mapM_range_spec _ _ _ hcv
            obtain ⟨t1, t2⟩ := speTable_spec _ _ _ _ _ ht
            exact ⟨rfl, rfl, rfl, rfl, rfl, v1, fun i c hcc => (speCurve_spec _ _ _ _ _).1 (v2 i c hcc), t1, t2⟩
  · obtain ⟨a2, a3, a4⟩ := k2 pixel hpix
    rw [hplot, a2]
    cases (recordColumns (events.foldl SpeStore.step {}).values).mapM
          (speImage (m.1.map SpeRow.mapping).length (events.foldl SpeStore.step {}).values (events.foldl SpeStore.step {}).errors) with
    | error e => exact ⟨e, rfl⟩
    | ok images => exact ⟨_, rfl⟩

theorem mem_recordColumns (t : List (Nat × Dict String ℚ)) (c : String) : c ∈ recordColumns t ↔ ∃ row ∈ t, c ∈ Dict.keys row.2 := by
  have inner : ∀ (ks cols : List String), c ∈ ks.foldl addKey cols ↔ c ∈ cols ∨ c ∈ ks := by
    intro ks
    induction ks with
    | nil => simp
    | cons k ks ih => intro cols; rw [List.foldl_cons, ih, mem_addKey, List.mem_cons, or_assoc]
  have outer : ∀ (t : List (Nat × Dict String ℚ)) (cols : List String),
      c ∈ t.foldl (fun cols r => (Dict.keys r.2).foldl addKey cols) cols ↔ c ∈ cols ∨ ∃ row ∈ t, c ∈ Dict.keys row.2 := by
    intro t
    induction t with
    | nil => simp
    | cons r t ih => intro cols; rw [List.foldl_cons, ih, inner, or_assoc]; simp
  rw [recordColumns, outer]
  simp

theorem mapM_forall₂ {α β : Type} (f : α → Except Err β) (l : List α) (r : List β) (h : l.mapM f = .ok r) : List.Forall₂ (fun a b => f a = .ok b) l r := by
  induction l generalizing r with
  | nil => cases h; exact .nil
  | cons a l ih =>
    rw [List.mapM_cons] at h
    cases h1 : f a with
    | error e => rw [h1] at h; cases h
    | ok b =>
      rw [h1] at h
      cases h2 : l.mapM f with
      | error e => rw [h2] at h; cases h
      | ok bs =>
        rw [h2] at h
        cases h
        exact .cons h1 (ih bs h2)

theorem images_spec (n : Nat) (values errors : List (Nat × Dict String ℚ)) (images : List (String × List (Option ℚ) × List (Option ℚ))) (cols : List String)
    (h : cols.mapM (speImage n values errors) = .ok images) :
    images.map (·.1) = cols ∧ ∀ x ∈ images, values.length = n ∧ errors.length = n ∧ x.2 = (imageOf values x.1, imageOf errors x.1) := by
  replace h := mapM_forall₂ _ _ _ h
  induction h with
  | nil => simp
  | @cons c x cs xs hc _ ih =>
    unfold speImage at hc
    split at hc
    · split at hc
      · rename_i hn
        cases hc
        refine ⟨by simp [ih.1], fun y hy => ?_⟩
        rcases List.mem_cons.1 hy with rfl | hy
        · exact ⟨hn.1, hn.2, rfl⟩
        · exact ih.2 y hy
      · cases hc
    · cases hc

/-- C110: with one process the camera image of a column shows, at each pixel, the value and the error fitted to the charges of that pixel; there is an image
for each fitted parameter. (With several processes the images may be permuted, `C65_false`.) -/
theorem C110_images [DecidableEq ν] (engine : FitEngine) (mem : List (SpeRow μ) → Nat)
    (hmem : ∀ rows, rows ≠ [] → 0 < mem rows) (order : List String) (ho : order.Perm ["values", "errors", "arrays"]) (name : String)
    (make : Nat → Fitter) (col : String) (inputs : List (String × SpeInput μ ν)) (store : Store (SpeRow μ) (SpeObj ν))
    (hf : ∀ n, (make n).coll.lookupTyped.2 = (make n).coll.prep.lookup)
    (h : extractSpe (processPixels engine) mem order name make col inputs = .ok store) (hsz : SmallTables store) :
    ∃ r d0 m, openReader store = .ok r ∧ inputs.head? = some d0 ∧ d0.2.mapping = .ok m ∧ ∀ pixel plots, plotSpe r pixel = .ok plots →
      (∀ c, c ∈ plots.images.map (·.1) ↔ ∃ p < d0.2.nPixels, ∃ fit, FitOf engine (make inputs.length) (inputs.map fun d => pixelCharges d.2 col p) fit ∧
        c ∈ fit.values.map (·.1)) ∧
      ∀ x ∈ plots.images, x.2.1.length = d0.2.nPixels ∧ x.2.2.length = d0.2.nPixels ∧ m.1.length = d0.2.nPixels ∧
        ∀ p < d0.2.nPixels, ∃ fit, FitOf engine (make inputs.length) (inputs.map fun d => pixelCharges d.2 col p) fit ∧
          x.2.1[p]? = some (Dict.get? fit.values x.1) ∧ x.2.2[p]? = some (Dict.get? fit.errors x.1) := by
  obtain ⟨d0, rest, charges, m, s, initial, r, md, hin, hc, hm, hs, -, hi, w2, w3, w4, w5, w6, w7, w8, w9, w10, w11, w12⟩ := extract_file hmem ho h hsz
  have hplot := plot_spec w3 w4 w5 w6 w7 w9 w10 w12
  obtain ⟨fits, t1, t2, t3, t4, t5⟩ := sequential_tables engine _ (hf _) _ _ s hs
  have hlen : fits.length = d0.2.nPixels := by rw [← List.length_map (f := (·.1)), t4, List.length_range]
  have hfit : ∀ p < d0.2.nPixels, ∃ fit, FitOf engine (make inputs.length) (inputs.map fun d => pixelCharges d.2 col p) fit ∧ fits[p]? = some (p, fit) := by
    intro p hp
    obtain ⟨fit, a1, a2⟩ := t5 p hp
    have := fitOf_applyPixel engine (make inputs.length) col p _ charges hc fit a1
    rw [List.map_map] at this
    exact ⟨fit, this, a2⟩
  refine ⟨r, d0, m, w2, by rw [hin]; rfl, hm, fun pixel plots hpl => ?_⟩
  rw [hplot] at hpl
  cases himg : (recordColumns s.values).mapM (speImage (m.1.map SpeRow.mapping).length s.values s.errors) with
  | error e => rw [himg] at hpl; cases hpl
  | ok images =>
    rw [himg] at hpl
    simp only at hpl
    have hplots : plots.images = images := by
      split at hpl
      · split at hpl
        · cases hpl
        · split at hpl
          · cases hpl
          · cases hpl; rfl
      · cases hpl
    rw [hplots]
    obtain ⟨i1, i2⟩ := images_spec _ _ _ _ _ himg
    refine ⟨fun c => ?_, fun x hx => ?_⟩
    · rw [i1, mem_recordColumns, t1]
      constructor
      · rintro ⟨row, hrow, hck⟩
        obtain ⟨y, hy, rfl⟩ := List.mem_map.1 hrow
        obtain ⟨p, hpl, he⟩ := List.getElem_of_mem hy
        have hp : p < d0.2.nPixels := by omega
        obtain ⟨fit, g1, g2⟩ := hfit p hp
        rw [List.getElem?_eq_getElem hpl, Option.some.injEq] at g2
        refine ⟨p, hp, fit, g1, ?_⟩
        rw [← he, g2] at hck
        exact hck
      · rintro ⟨p, hp, fit, g1, g2⟩
        obtain ⟨fit', g1', g3⟩ := hfit p hp
        have : fit = fit' := by
          obtain ⟨q1, e1, e2⟩ := g1
          obtain ⟨q2, e3, e4⟩ := g1'
          rw [e1] at e3
          cases e3
          rw [e2] at e4
          cases e4
          rfl
        subst this
        exact ⟨(p, fit.values), List.mem_map.2 ⟨_, List.mem_of_getElem? g3, rfl⟩, g2⟩
    · obtain ⟨l1, l2, l3⟩ := i2 x hx
      rw [t1, List.length_map, List.length_map, hlen] at l1
      rw [l3]
      refine ⟨by simp [imageOf, t1, hlen], by simp [imageOf, t2, hlen], l1.symm, fun p hp => ?_⟩
      obtain ⟨fit, g1, g2⟩ := hfit p hp
      refine ⟨fit, g1, ?_, ?_⟩
      · simp [imageOf, t1, g2]
      · simp [imageOf, t2, g2]

/-- what is known of a fit -/
theorem fitOf_spec (engine : FitEngine) (f : Fitter) (qs : List (List ℚ)) (fit : PixelFit) (h : FitOf engine f qs fit) :
    ∃ request : FitRequest, request.names = f.coll.prep.names ∧ engine.minimise request = .ok fit.values ∧ fit.errors = engine.hesse request ∧
      fit.arrays.histY.length = f.coll.n ∧ ∃ x v, fit.arrays.fitY.length = min f.coll.n (engine.spectra x f.coll.lookupTyped.2 v).length := by
  obtain ⟨request, h1, h2⟩ := h
  have hn := (apply_kwargs _ _ _ _ h1).2
  refine ⟨request, hn, ?_⟩
  obtain ⟨hl, -, hq, values, hm, hs⟩ := apply_ok _ _ _ _ h1
  rw [hs] at h2
  simp only [readFit, Fitter.curve] at h2
  split at h2
  case h_2 => cases h2
  case h_3 => cases h2
  rename_i fitX fitY values' histX histY edges hc e1 e2 e3 e4
  simp only [Option.some.injEq] at e1 e2 e3 e4
  split at hc
  · cases hc
  simp only [Except.ok.injEq, Prod.mk.injEq] at hc h2
  obtain ⟨rfl, rfl⟩ := hc
  subst e1 e2 e3 e4 h2
  obtain ⟨-, -, a3⟩ := lookupTyped_fst f.coll
  refine ⟨hm, rfl, by rw [hq]; simp; omega, linspace f.range.1 f.range.2 (f.nBins * 10), values.map (·.2), ?_⟩
  rw [List.length_zipWith, hq, List.length_map, a3]
  congr 1

/-- a fitter for `n` illuminations with a light level for each, whose fit parameters all have a recorded initial value -/
structure HasLevels (n : Nat) (f : Fitter) : Prop where
  illuminations : f.coll.n = n
  tables : f.coll.lookupTyped.2 = f.coll.prep.lookup ∧ f.coll.prep.lookup.length = n
  levels : ∀ i < n, "lambda_" ++ String.ofList (decimal i) ∈ f.coll.prep.names
  recorded : ∀ initial, recordedInitial n f.coll.params = .ok initial → ∀ x ∈ f.coll.prep.names, x ∈ initial.map (·.1)

theorem mapM_ok_of {α β : Type} (f : α → Except Err β) (l : List α) (h : ∀ a ∈ l, ∃ b, f a = .ok b) : ∃ r, l.mapM f = .ok r := by
  induction l with
  | nil => exact ⟨_, rfl⟩
  | cons a l ih =>
    obtain ⟨b, hb⟩ := h a (by simp)
    obtain ⟨r, hr⟩ := ih fun x hx => h x (by simp [hx])
    exact ⟨b :: r, by rw [List.mapM_cons, hb, hr]; rfl⟩

theorem dict_length {α : Type} (d : Dict Nat α) (n : Nat) (hd : (Dict.keys d).Nodup) (h1 : ∀ p < n, (Dict.get? d p).isSome) (h2 : ∀ p, n ≤ p → Dict.get? d p = none) :
    d.length = n := by
  have : (Dict.keys d).Perm (List.range n) := by
    rw [List.perm_ext_iff_of_nodup hd List.nodup_range]
    intro p
    rw [Dict.mem_keys_iff, List.mem_range]
    constructor
    · rintro ⟨v, hv⟩
      by_contra hp
      rw [h2 p (by omega)] at hv
      cases hv
    · intro hp
      exact Option.isSome_iff_exists.1 (h1 p hp)
  have := this.length_eq
  rwa [Dict.keys, List.length_map, List.length_range] at this

/-- C110: every pixel of the camera can be plotted, if the minimiser returns a value and an error for each of its parameters, the fitter computes a spectrum for
each illumination, and the mapping of the first file has one row for each pixel. -/
theorem C110_plots [DecidableEq ν] (engine : FitEngine) (process : Fitter → List ChargeArray → Nat → Except Err SpeStore) (mem : List (SpeRow μ) → Nat)
    (hmem : ∀ rows, rows ≠ [] → 0 < mem rows) (order : List String) (ho : order.Perm ["values", "errors", "arrays"]) (name : String)
    (make : Nat → Fitter) (col : String) (inputs : List (String × SpeInput μ ν)) (store : Store (SpeRow μ) (SpeObj ν))
    (hp : ∀ f charges n s, process f charges n = .ok s → Scheduled engine f charges n s) (hf : ∀ n, HasLevels n (make n))
    (hv : ∀ request values, engine.minimise request = .ok values → values.map (·.1) = request.names) (he : ∀ request, (engine.hesse request).map (·.1) = request.names)
    (hsp : ∀ x l v, (engine.spectra x l v).length = l.length)
    (hmap : ∀ d0 m, inputs.head? = some d0 → d0.2.mapping = .ok m → m.1.length = d0.2.nPixels)
    (h : extractSpe process mem order name make col inputs = .ok store) (hsz : SmallTables store) :
    ∃ r d0, openReader store = .ok r ∧ inputs.head? = some d0 ∧ ∀ pixel < d0.2.nPixels, ∃ plots, plotSpe r pixel = .ok plots := by
  obtain ⟨d0, rest, charges, m, s, initial, r, md, hin, hc, hm, hs, -, hi, w2, w3, w4, w5, w6, w7, w8, w9, w10, w11, w12⟩ := extract_file hmem ho h hsz
  have hplot := plot_spec w3 w4 w5 w6 w7 w9 w10 w12
  have hhead : inputs.head? = some d0 := by rw [hin]; rfl
  refine ⟨r, d0, w2, hhead, fun pixel hpix => ?_⟩
  obtain ⟨chunks, fits, events, c1, c2, c3, c4⟩ := hp _ _ _ _ hs
  have hfl := hf inputs.length
  obtain ⟨k1, k2, -⟩ := C65_partial engine _ hfl.tables.1 _ _ chunks c1 fits c2 events c3
  rw [← c4] at k1 k2
  simp only [rowOf_eq] at k1 k2
  obtain ⟨f1, f2, -⟩ := foldl_step events {}
  rw [← c4] at f1 f2
  have n1 : (Dict.keys s.values).Nodup := by rw [f1]; exact Dict.nodup_keys_update _ _ List.nodup_nil
  have n2 : (Dict.keys s.errors).Nodup := by rw [f2]; exact Dict.nodup_keys_update _ _ List.nodup_nil
  have l1 : s.values.length = d0.2.nPixels := dict_length _ _ n1 (fun p hp => by obtain ⟨fit, -, a, -⟩ := k1 p hp; rw [a]; rfl) fun p hp => (k2 p hp).1
  have l2 : s.errors.length = d0.2.nPixels := dict_length _ _ n2 (fun p hp => by obtain ⟨fit, -, -, a, -⟩ := k1 p hp; rw [a]; rfl) fun p hp => (k2 p hp).2.1
  have hfit : ∀ p < d0.2.nPixels, ∃ fit, FitOf engine (make inputs.length) (inputs.map fun d => pixelCharges d.2 col p) fit ∧
      Dict.get? s.values p = some fit.values ∧ Dict.get? s.errors p = some fit.errors ∧ Dict.get? s.arrays p = some fit.arrays := by
    intro p hp
    obtain ⟨fit, a1, a2, a3, a4⟩ := k1 p hp
    have := fitOf_applyPixel engine (make inputs.length) col p _ charges hc fit a1
    rw [List.map_map] at this
    exact ⟨fit, this, a2, a3, a4⟩
  have himg : ∃ images, (recordColumns s.values).mapM (speImage (m.1.map SpeRow.mapping).length s.values s.errors) = .ok images := by
    refine mapM_ok_of _ _ fun c hcol => ?_
    obtain ⟨row, hrow, hck⟩ := (mem_recordColumns _ _).1 hcol
    have hce : c ∈ recordColumns s.errors := by
      rw [mem_recordColumns]
      have hget := Dict.get?_of_mem_nodup n1 hrow
      have hlt : row.1 < d0.2.nPixels := by
        by_contra hge
        rw [(k2 row.1 (by omega)).1] at hget
        cases hget
      obtain ⟨fit, g1, g2, g3, -⟩ := hfit row.1 hlt
      rw [hget] at g2
      obtain ⟨request, -, q2, q3, -⟩ := fitOf_spec _ _ _ _ g1
      refine ⟨(row.1, fit.errors), Dict.mem_of_get? g3, ?_⟩
      have e : row.2 = fit.values := by simpa using g2
      rw [e, Dict.keys, hv _ _ q2] at hck
      rw [q3, Dict.keys, he]
      exact hck
    unfold speImage
    rw [if_pos hce, if_pos]
    · exact ⟨_, rfl⟩
    · rw [List.length_map, hmap d0 m hhead hm]
      exact ⟨l1, l2⟩
  obtain ⟨images, himg⟩ := himg
  obtain ⟨fit, g1, g2, g3, g4⟩ := hfit pixel hpix
  obtain ⟨request, q1, q2, q3, q4, x, v, q5⟩ := fitOf_spec _ _ _ _ g1
  have kv : Dict.keys fit.values = (make inputs.length).coll.prep.names := by rw [Dict.keys, hv _ _ q2, q1]
  have ke : Dict.keys fit.errors = (make inputs.length).coll.prep.names := by rw [q3, Dict.keys, he, q1]
  rw [hfl.illuminations] at q4 q5
  rw [hsp, hfl.tables.1, hfl.tables.2, Nat.min_self] at q5
  have hcurves : ∃ curves, (List.range inputs.length).mapM (speCurve fit.values fit.errors fit.arrays) = .ok curves := by
    refine mapM_ok_of _ _ fun i hi => ?_
    have hi := List.mem_range.1 hi
    have hlev := hfl.levels i hi
    obtain ⟨a, ha⟩ := (Dict.mem_keys_iff fit.values (numbered "lambda_" i)).1 (by rw [kv]; exact hlev)
    obtain ⟨b, hb⟩ := (Dict.mem_keys_iff fit.errors (numbered "lambda_" i)).1 (by rw [ke]; exact hlev)
    exact ⟨⟨a, b, fit.arrays.histY[i]'(by omega), fit.arrays.fitY[i]'(by omega)⟩,
      (speCurve_spec _ _ _ _ _).2 ⟨ha, hb, List.getElem?_eq_getElem _, List.getElem?_eq_getElem _⟩⟩
  obtain ⟨curves, hcurves⟩ := hcurves
  obtain ⟨t, ht⟩ := speTable_ok initial fit.values fit.errors (Dict.keys fit.values) (fun k hk => by
    refine ⟨?_, hk, ?_⟩
    · exact hfl.recorded initial hi k (by rw [← kv]; exact hk)
    · rw [ke, ← kv]; exact hk)
  rw [hplot, himg]
  simp only [g2, g3, g4, hcurves, ht]
  exact ⟨_, rfl⟩

/-- the tables, mapping and metadata of a file of fits -/
structure FitTables (r : HReader (SpeRow μ) (SpeObj ν)) (s : SpeStore) (nCamera : Nat) (md : MetaDict (SpeObj ν)) : Prop where
  values : readTable r "values" false = .ok (s.values.map fun x => .fit x.1 x.2)
  errors : readTable r "errors" false = .ok (s.errors.map fun x => .fit x.1 x.2)
  arrays : readTable r "arrays" false = .ok (s.arrays.map fun x => .arrays x.1 x.2)
  mapping : ∃ m, getMapping r = .ok m ∧ m.1.length = nCamera
  metadata : getMetadata r "data" "metadata" = .ok md

theorem mapM_only {α β : Type} (f : α → Except Err β) (e : Err) (l : List α) (h : ∀ a ∈ l, f a = .error e ∨ ∃ b, f a = .ok b) (hx : ∃ a ∈ l, f a = .error e) :
    l.mapM f = .error e := by
  induction l with
  | nil => obtain ⟨a, ha, -⟩ := hx; cases ha
  | cons a l ih =>
    rw [List.mapM_cons]
    rcases h a (by simp) with h1 | ⟨b, h1⟩
    · rw [h1]; rfl
    · rw [h1]
      obtain ⟨c, hc, hce⟩ := hx
      rcases List.mem_cons.1 hc with rfl | hc
      · rw [h1] at hce; cases hce
      · rw [ih (fun x hx => h x (by simp [hx])) ⟨c, hc, hce⟩]; rfl

/-- C110: what stops the plots of a file: a parameter without errors, another number of rows than pixels of the camera, a missing entry of the metadata, a pixel that
is missing in a table, a parameter without initial value, an illumination without level, histogram or curve -/
theorem C110_errors (r : HReader (SpeRow μ) (SpeObj ν)) (s : SpeStore) (nCamera : Nat) (md : MetaDict (SpeObj ν)) (ht : FitTables r s nCamera md) (pixel : Nat) :
    (s.values.length = nCamera → s.errors.length = nCamera → (∃ row ∈ s.values, ∃ c ∈ Dict.keys row.2, ∀ row' ∈ s.errors, c ∉ Dict.keys row'.2) →
      plotSpe r pixel = .error .keyError) ∧
    ((∀ row ∈ s.values, ∀ c ∈ Dict.keys row.2, ∃ row' ∈ s.errors, c ∈ Dict.keys row'.2) →
      (s.values.length ≠ nCamera ∨ s.errors.length ≠ nCamera → (∃ row ∈ s.values, row.2 ≠ []) → plotSpe r pixel = .error .assertionError) ∧
      (s.values.length = nCamera → s.errors.length = nCamera →
        (Dict.get? md "n_illuminations" = none ∨ Dict.get? md "fitter" = none ∨ Dict.get? md "initial" = none → plotSpe r pixel = .error .keyError) ∧
        ∀ n name initial, Dict.get? md "n_illuminations" = some (.int n) → Dict.get? md "fitter" = some (.str name) →
          Dict.get? md "initial" = some (.obj (.initial initial)) →
          (Dict.get? s.values pixel = none ∨ Dict.get? s.errors pixel = none ∨ Dict.get? s.arrays pixel = none → plotSpe r pixel = .error .keyError) ∧
          ∀ v e a, Dict.get? s.values pixel = some v → Dict.get? s.errors pixel = some e → Dict.get? s.arrays pixel = some a →
            (n.toNat ≤ a.histY.length → n.toNat ≤ a.fitY.length →
              (∃ i < n.toNat, "lambda_" ++ String.ofList (decimal i) ∉ Dict.keys v ∨ "lambda_" ++ String.ofList (decimal i) ∉ Dict.keys e) →
              plotSpe r pixel = .error .keyError) ∧
            ((∀ i < n.toNat, "lambda_" ++ String.ofList (decimal i) ∈ Dict.keys v ∧ "lambda_" ++ String.ofList (decimal i) ∈ Dict.keys e) →
              (a.histY.length < n.toNat ∨ a.fitY.length < n.toNat → plotSpe r pixel = .error .indexError) ∧
              (n.toNat ≤ a.histY.length → n.toNat ≤ a.fitY.length → (∃ k ∈ Dict.keys v, k ∉ Dict.keys initial ∨ k ∉ Dict.keys e) →
                plotSpe r pixel = .error .keyError)))) := by
  obtain ⟨h1, h2, h3, ⟨m, h4, hm⟩, h5⟩ := ht
  have main : plotSpe r pixel = (match (recordColumns s.values).mapM (speImage nCamera s.values s.errors) with
      | .error e => .error e
      | .ok images => speSpectrum images md s.values s.errors s.arrays pixel) := by
    unfold plotSpe
    rw [h1, h2, h3, h4, h5]
    simp only [fitRows_map, arrayRows_map, hm]
    rfl
  have himage : ∀ c, speImage nCamera s.values s.errors c = (if ∃ row' ∈ s.errors, c ∈ Dict.keys row'.2 then
      if s.values.length = nCamera ∧ s.errors.length = nCamera then .ok (c, imageOf s.values c, imageOf s.errors c) else .error .assertionError
      else .error .keyError) := by
    intro c
    unfold speImage
    simp only [mem_recordColumns]
  constructor
  · rintro l1 l2 ⟨row, hrow, c, hc, hno⟩
    rw [main, mapM_only _ .keyError]
    · intro x _
      rw [himage]
      by_cases hx : ∃ row' ∈ s.errors, x ∈ Dict.keys row'.2
      · rw [if_pos hx, if_pos ⟨l1, l2⟩]; exact Or.inr ⟨_, rfl⟩
      · rw [if_neg hx]; exact Or.inl rfl
    · refine ⟨c, (mem_recordColumns _ _).2 ⟨row, hrow, hc⟩, ?_⟩
      rw [himage, if_neg]
      rintro ⟨row', h, h'⟩
      exact hno row' h h'
  · intro hall
    have hin : ∀ c ∈ recordColumns s.values, ∃ row' ∈ s.errors, c ∈ Dict.keys row'.2 := by
      intro c hc
      obtain ⟨row, hrow, hc⟩ := (mem_recordColumns _ _).1 hc
      exact hall row hrow c hc
    constructor
    · rintro hl ⟨row, hrow, hne⟩
      have hno : ¬ (s.values.length = nCamera ∧ s.errors.length = nCamera) := by tauto
      have hcol : ∃ c, c ∈ recordColumns s.values := by
        cases hr : row.2 with
        | nil => exact absurd hr hne
        | cons p ps => exact ⟨p.1, (mem_recordColumns _ _).2 ⟨row, hrow, by rw [hr]; simp [Dict.keys]⟩⟩
      obtain ⟨c, hc⟩ := hcol
      rw [main, mapM_only _ .assertionError]
      · intro x hx
        rw [himage, if_pos (hin x hx), if_neg hno]
        exact Or.inl rfl
      · exact ⟨c, hc, by rw [himage, if_pos (hin c hc), if_neg hno]⟩
    · intro l1 l2
      obtain ⟨images, himg⟩ := mapM_ok_of (speImage nCamera s.values s.errors) (recordColumns s.values) fun c hc => by
        rw [himage, if_pos (hin c hc), if_pos ⟨l1, l2⟩]; exact ⟨_, rfl⟩
      rw [himg] at main
      simp only at main
      rw [main]
      unfold speSpectrum
      constructor
      · intro h
        split
        · rename_i g1 g2 g3
          rw [g1, g2, g3] at h
          simp at h
        · rfl
        · rfl
        · rfl
        · exfalso
          rcases h with h | h | h <;> simp_all
      · intro n name initial g1 g2 g3
        have e1 := rowOf_eq s.values pixel
        have e2 := rowOf_eq s.errors pixel
        have e3 := rowOf_eq s.arrays pixel
        unfold tableOf at e1 e2 e3
        rw [g1, g2, g3]
        simp only [e1, e2, e3]
        constructor
        · intro h
          rcases h with h | h | h
          · rw [h]
          · rw [h]; cases Dict.get? s.values pixel <;> rfl
          · rw [h]; cases Dict.get? s.values pixel <;> cases Dict.get? s.errors pixel <;> rfl
        · intro v e a hv he ha
          rw [hv, he, ha]
          simp only
          have item : ∀ (d : Dict String ℚ) k, (k ∈ Dict.keys d ∧ ∃ x, Dict.getItem d k = .ok x) ∨ (k ∉ Dict.keys d ∧ Dict.getItem d k = .error .keyError) := by
            intro d k
            unfold Dict.getItem
            by_cases hk : k ∈ Dict.keys d
            · obtain ⟨x, hx⟩ := (Dict.mem_keys_iff d k).1 hk
              exact Or.inl ⟨hk, x, by rw [hx]⟩
            · right
              refine ⟨hk, ?_⟩
              cases hx : Dict.get? d k with
              | none => rfl
              | some x => exact absurd ((Dict.mem_keys_iff d k).2 ⟨x, hx⟩) hk
          constructor
          · rintro b1 b2 ⟨i, hi, hno⟩
            rw [mapM_only _ .keyError]
            · intro j hj
              have hj := List.mem_range.1 hj
              unfold speCurve
              rcases item v (numbered "lambda_" j) with ⟨-, x, hx⟩ | ⟨-, hx⟩
              · rw [hx]
                rcases item e (numbered "lambda_" j) with ⟨-, y, hy⟩ | ⟨-, hy⟩
                · rw [hy, List.getElem?_eq_getElem (by omega : j < a.histY.length), List.getElem?_eq_getElem (by omega : j < a.fitY.length)]
                  exact Or.inr ⟨_, rfl⟩
                · rw [hy]; exact Or.inl rfl
              · rw [hx]; exact Or.inl rfl
            · refine ⟨i, List.mem_range.2 hi, ?_⟩
              unfold speCurve
              rcases item v (numbered "lambda_" i) with ⟨hx', x, hx⟩ | ⟨-, hx⟩
              · rw [hx]
                rcases item e (numbered "lambda_" i) with ⟨hy', y, hy⟩ | ⟨-, hy⟩
                · rcases hno with hno | hno
                  · exact absurd hx' hno
                  · exact absurd hy' hno
                · rw [hy]
              · rw [hx]
          · intro hlev
            have hcurve : ∀ i < n.toNat, (a.histY.length ≤ i ∨ a.fitY.length ≤ i → speCurve v e a i = .error .indexError) ∧
                (i < a.histY.length → i < a.fitY.length → ∃ c, speCurve v e a i = .ok c) := by
              intro i hi
              obtain ⟨k1, k2⟩ := hlev i hi
              unfold speCurve
              rcases item v (numbered "lambda_" i) with ⟨-, x, hx⟩ | ⟨hx, -⟩
              · rcases item e (numbered "lambda_" i) with ⟨-, y, hy⟩ | ⟨hy, -⟩
                · rw [hx, hy]
                  simp only
                  constructor
                  · rintro (h | h)
                    · rw [List.getElem?_eq_none h]
                    · rw [List.getElem?_eq_none h]; cases a.histY[i]? <;> rfl
                  · intro h h'
                    rw [List.getElem?_eq_getElem h, List.getElem?_eq_getElem h']
                    exact ⟨_, rfl⟩
                · exact absurd k2 hy
              · exact absurd k1 hx
            constructor
            · intro h
              rw [mapM_only _ .indexError]
              · intro i hi
                have hi := List.mem_range.1 hi
                obtain ⟨c1, c2⟩ := hcurve i hi
                by_cases hb : i < a.histY.length ∧ i < a.fitY.length
                · exact Or.inr (c2 hb.1 hb.2)
                · exact Or.inl (c1 (by omega))
              · rcases h with h | h
                · exact ⟨a.histY.length, List.mem_range.2 h, (hcurve _ h).1 (Or.inl (le_refl _))⟩
                · exact ⟨a.fitY.length, List.mem_range.2 h, (hcurve _ h).1 (Or.inr (le_refl _))⟩
            · rintro b1 b2 ⟨k, hk, hno⟩
              obtain ⟨curves, hc⟩ := mapM_ok_of (speCurve v e a) (List.range n.toNat) fun i hi => by
                have hi := List.mem_range.1 hi
                exact (hcurve i hi).2 (by omega) (by omega)
              rw [hc]
              simp only
              have htable : ∀ ks : List String, (∀ x ∈ ks, x ∈ Dict.keys v) → k ∈ ks → speTable initial v e ks = .error .keyError := by
                intro ks
                induction ks with
                | nil => intro _ h; cases h
                | cons x ks ih =>
                  intro hks hkm
                  unfold speTable
                  rcases item initial x with ⟨i1, y, hy⟩ | ⟨-, hy⟩
                  · rw [hy]
                    rcases item v x with ⟨-, z, hz⟩ | ⟨hz, -⟩
                    · rw [hz]
                      rcases item e x with ⟨i2, w, hw⟩ | ⟨-, hw⟩
                      · rw [hw]
                        simp only
                        rcases List.mem_cons.1 hkm with rfl | hkm
                        · rcases hno with hno | hno
                          · exact absurd i1 hno
                          · exact absurd i2 hno
                        · rw [ih (fun q hq => hks q (by simp [hq])) hkm]
                      · rw [hw]
                    · exact absurd (hks x (by simp)) hz
                  · rw [hy]
              rw [htable (Dict.keys v) (fun x hx => hx) hk]

theorem loadParams_kept (c : SpecConfig) (ps : List SpecParam) :
    (loadParams c ps).1.map (fun p => (p.name, p.multi)) = ps.map fun p => (p.name, p.multi) := by
  induction ps generalizing c with
  | nil => rfl
  | cons p ps ih =>
    unfold loadParams
    cases h1 : popSection c.initial p.name p.initial with
    | none => rfl
    | some x =>
      obtain ⟨v1, r1⟩ := x
      simp only
      cases h2 : popSection c.limits p.name p.limits with
      | none => rfl
      | some x =>
        obtain ⟨v2, r2⟩ := x
        simp only
        cases h3 : popSection c.fixed p.name p.fixed with
        | none => rfl
        | some x =>
          obtain ⟨v3, r3⟩ := x
          simp only [List.map_cons]
          rw [ih]

theorem fitNames_congr (n : Nat) (ps qs : List SpecParam) (h : ps.map (fun p => (p.name, p.multi)) = qs.map fun p => (p.name, p.multi)) :
    fitNames n ps = fitNames n qs := by
  have : ∀ ps : List SpecParam, fitNames n ps = (ps.map fun p => (p.name, p.multi)).flatMap fun x => fitNamesOf n ⟨x.1, 0, (0, 0), false, x.2⟩ := by
    intro ps
    unfold fitNames
    rw [List.flatMap_map]
    rfl
  rw [this, this, h]

/-- both fitters, for every number of illuminations and every configuration, have a light level for each illumination and a recorded initial value for each
fit parameter -/
theorem C110_fitters (n : Nat) (config : Option SpecConfig) (f : Fitter) (hf : f = gentileFitter n ∨ f = mapmFitter n) : HasLevels n (f.loadConfig config).1 := by
  have key : ∀ (params : List SpecParam) (nBins : Nat) (range : ℚ × ℚ), Distinct n params → (∀ p ∈ params, p.multi = true ↔ p.name = "lambda_") →
      "lambda_" ∈ params.map (·.name) → HasLevels n ((Fitter.new n params nBins range).loadConfig config).1 := by
    intro params nBins range hd hm hl
    have hb := C61_new n params hd
    obtain ⟨params', nb, rg, he, hk⟩ : ∃ params' nb rg, ((Fitter.new n params nBins range).loadConfig config).1 =
        ⟨⟨n, params', prepareParams n params, none⟩, nb, rg, none, none, none, none⟩ ∧
        params'.map (fun p => (p.name, p.multi)) = params.map fun p => (p.name, p.multi) := by
      unfold Fitter.loadConfig
      cases config with
      | none => exact ⟨params, nBins, range, rfl, rfl⟩
      | some c => exact ⟨(loadParams c params).1, _, _, rfl, loadParams_kept c params⟩
    rw [he]
    have hnames := fitNames_congr n params' params hk
    have hfst : params'.map (·.name) = params.map (·.name) := by
      have := congrArg (List.map Prod.fst) hk
      rw [List.map_map, List.map_map] at this
      exact this
    have hd' : Distinct n params' := by
      unfold Distinct
      rw [hnames, hfst]
      exact hd
    have hm' : ∀ p ∈ params', p.multi = true ↔ p.name = "lambda_" := by
      intro p hp
      have : (p.name, p.multi) ∈ params.map fun p => (p.name, p.multi) := by rw [← hk]; exact List.mem_map.2 ⟨p, hp, rfl⟩
      obtain ⟨q, hq, e⟩ := List.mem_map.1 this
      simp only [Prod.mk.injEq] at e
      rw [← e.1, ← e.2]
      exact hm q hq
    refine ⟨rfl, ⟨rfl, hb.tables⟩, fun i hi => ?_, fun initial hin x hx => ?_⟩
    · have : (prepareParams n params).names = fitNames n params := hb.names
      show _ ∈ (prepareParams n params).names
      rw [this, mem_fitNames]
      obtain ⟨p, hp, hpn⟩ := List.mem_map.1 hl
      refine ⟨p, hp, ?_⟩
      have hmul := (hm p hp).2 hpn
      unfold fitNamesOf
      rw [if_pos hmul]
      refine List.mem_map.2 ⟨i, List.mem_range.2 hi, ?_⟩
      simp [fitName, hmul, hpn]
    · obtain ⟨initial', r1, r2, -⟩ := C83_partial (fun _ => .ok []) (Fitter.new n params' nBins range) (C61_new n params' hd') hd' hm' (by
        show "lambda_" ∈ params'.map (·.name)
        rw [hfst]
        exact hl)
      have : (Except.ok initial : Except Err (Dict String ℚ)) = .ok initial' := hin.symm.trans r1
      cases this
      have hx : x ∈ (prepareParams n params).names := hx
      exact (r2 x).2 (by
        show x ∈ fitNames n params'
        rw [hnames, ← hb.names]
        exact hx)
  rcases hf with rfl | rfl
  · exact key gentileParams 100 (-30, 200) (C61_fitters n).1 (by decide +kernel) (by decide +kernel)
  · exact key mapmParams 100 (-40, 150) (C61_fitters n).2 (by decide +kernel) (by decide +kernel)

/-- an engine whose fitted values are the counts of the first bin of the first histogram -/
def countEngine : FitEngine where
  minimise r := .ok (r.names.map fun x => (x, ((r.histY.head?.bind (·.head?)).getD 0)))
  hesse r := r.names.map fun x => (x, 2)
  spectra x l _ := l.map fun _ => x.map fun _ => 1

/-- a fitter of two bins with a shared parameter and a light level -/
def levelFitter (n : Nat) : Fitter := Fitter.new n [⟨"eped", 1, (0, 5), false, false⟩, ⟨"lambda_", 3, (0, 5), false, true⟩] 2 (0, 4)

/-- two files of two pixels with two and one events -/
def twoInputs : List (String × SpeInput Nat Nat) :=
  [("a", ⟨[("charge", [0, 3, 1, 3])], 2, 2, .ok ([7, 8], [("n_pixels", .int 2)])⟩), ("b", ⟨[("charge", [3, 0])], 1, 2, .error .keyError⟩)]

/-- the sequential run on them -/
def twoRun : Except Err (Store (SpeRow Nat) (SpeObj Nat)) :=
  extractSpe (processPixels countEngine) (fun rows => rows.length) ["errors", "values", "arrays"] "Level" levelFitter "charge" twoInputs

/-- a test for small tables -/
def smallTables {ρ ν : Type} (store : Store ρ ν) : Bool := store.all fun x => match (Dict.get? x.2.attrs "metadata").bind fun d => Dict.get? d "n_bytes" with
  | some (.int n) => decide (n ≤ 8000000000)
  | _ => true

theorem smallTables_spec {ρ ν : Type} (store : Store ρ ν) (h : smallTables store = true) : SmallTables store := by
  intro key n _ hn
  unfold fileField fileAttr at hn
  cases hg : Dict.get? store key with
  | none => rw [hg] at hn; cases hn
  | some nd =>
    rw [hg] at hn
    have := List.all_eq_true.1 h _ (Dict.mem_of_get? hg)
    simp only [Option.bind_some] at hn
    simp only [hn, decide_eq_true_eq] at this
    exact this

/-- the run succeeds and its file has small tables; the values of the parameters shown for pixel 1 are the number of its charges below 2 in the first file -/
example : ∃ store, twoRun = .ok store ∧ SmallTables store ∧ ∃ r plots, openReader store = .ok r ∧ plotSpe r 1 = .ok plots ∧
    plots.table = [("eped", 1, 0, 2), ("lambda_0", 3, 0, 2), ("lambda_1", 3, 0, 2)] ∧
    plots.images.map (fun x => x.2.1) = [[some 2, some 0], [some 2, some 0], [some 2, some 0]] := by
  have h1 : ∃ store, twoRun = .ok store ∧ smallTables store = true ∧ ∃ r, openReader store = .ok r ∧ ∃ plots, plotSpe r 1 = .ok plots ∧
      plots.table = [("eped", 1, 0, 2), ("lambda_0", 3, 0, 2), ("lambda_1", 3, 0, 2)] ∧
      plots.images.map (fun x => x.2.1) = [[some 2, some 0], [some 2, some 0], [some 2, some 0]] :=
    ⟨_, rfl, by decide +kernel, _, rfl, _, rfl, by decide +kernel, by decide +kernel⟩
  obtain ⟨store, h1, h2, r, h3, plots, h4, h5, h6⟩ := h1
  exact ⟨store, h1, smallTables_spec store h2, r, plots, h3, h4, h5, h6⟩

/-- the tables of such a file -/
example : ∃ store r s md, twoRun = .ok store ∧ openReader store = .ok r ∧ FitTables r s 2 md := by
  have h1 : ∃ store, twoRun = .ok store ∧ smallTables store = true := ⟨_, rfl, by decide +kernel⟩
  obtain ⟨store, h1, h2⟩ := h1
  obtain ⟨d0, rest, charges, m, s, initial, r, md, hin, hc, hm, hs, -, hi, w2, w3, w4, w5, w6, w7, -⟩ :=
    extract_file (mem := fun rows => rows.length) (fun rows h => List.length_pos_of_ne_nil h) (by decide) h1 (smallTables_spec store h2)
  refine ⟨store, r, s, md, h1, w2, w3, w4, w5, ⟨_, w6, ?_⟩, w7⟩
  have : d0 = twoInputs.head (by decide) := by
    simp only [twoInputs] at hin ⊢
    exact (List.cons.inj hin).1.symm
  subst this
  simp only [twoInputs, List.head_cons, Except.ok.injEq] at hm
  subst hm
  rfl

example : (twoInputs.map fun d => pixelCharges d.2 "charge" 1) = [[3, 3], [0]] := by decide +kernel

/-! ### C111 -/

/-- the metadata of the file describe the extraction -/
def SpeMetadata (store : Store (SpeRow μ) (SpeObj ν)) (name : String) (inputs : List (String × SpeInput μ ν)) (initial : Dict String ℚ) : Prop :=
  fileField store "data" "metadata" "files" = some (.obj (.files (inputs.map (·.1)))) ∧ fileField store "data" "metadata" "fitter" = some (.str name) ∧
  fileField store "data" "metadata" "n_illuminations" = some (.int inputs.length) ∧ fileField store "data" "metadata" "initial" = some (.obj (.initial initial))

theorem fileField_of_metadata [DecidableEq ν] {ρ : Type} (s : Store ρ ν) (r : HReader ρ ν) (hr : openReader s = .ok r) (md : MetaDict ν) (f : String)
    (h : getMetadata r "data" "metadata" = .ok md) : fileField s "data" "metadata" f = Dict.get? md f := by
  unfold getMetadata at h
  have hst : r.store = s := by
    unfold openReader at hr
    cases hc : contentsLoop s [] [] with
    | error e => rw [hc] at hr; cases hr
    | ok dm => rw [hc] at hr; cases hr; rfl
  rw [hst] at h
  cases h1 : Dict.get? r.metadataKeys "data" with
  | none => rw [h1] at h; cases h
  | some names =>
    rw [h1] at h
    simp only at h
    split at h
    · cases h2 : Dict.get? s "data" with
      | none => rw [h2] at h; cases h
      | some nd =>
        rw [h2] at h
        simp only at h
        cases h3 : Dict.get? nd.attrs "metadata" with
        | none => rw [h3] at h; cases h
        | some d =>
          rw [h3] at h
          cases h
          simp [fileField, fileAttr, h2, h3]
    · cases h

/-- C110: without any fitted pixel the script fails with `KeyError` -/
theorem C110_no_pixels [DecidableEq ν] (process : Fitter → List ChargeArray → Nat → Except Err SpeStore) (mem : List (SpeRow μ) → Nat) (order : List String) (name : String)
    (make : Nat → Fitter) (col : String) (d0 : String × SpeInput μ ν) (m : List μ × MetaDict (SpeObj ν)) (a : ChargeArray) (initial : Dict String ℚ) (s : SpeStore)
    (ha : d0.2.charges col = .ok a) (hm : d0.2.mapping = .ok m) (hi : recordedInitial 1 (make 1).coll.params = .ok initial)
    (hp : process (make 1) [a] d0.2.nPixels = .ok s) (hs : s.values = [] ∨ s.errors = [] ∨ s.arrays = []) :
    extractSpe process mem order name make col [d0] = .error .keyError := by
  have hn : a.nPixels = d0.2.nPixels := by
    unfold SpeInput.charges at ha
    split at ha
    · cases ha
    · split at ha
      · cases ha
      · cases ha; rfl
  have hr : readInputs col [d0.2] none = .ok ([(d0.2.nEvents, a)], some m) := by
    simp only [readInputs, ha, hm]
  unfold extractSpe
  simp only [List.map_cons, List.map_nil, hr, List.length_cons, List.length_nil, Nat.zero_add, hi, hn, hp]
  rw [if_pos]
  rcases hs with h | h | h <;> simp [h]

/-- C111: the files, the name of the fitter, the number of illuminations and the initial values are recorded. Missing from the full claim: `n_pixels` is the shape
of the charges of the first file, not the number of pixels (`C111_false`). -/
theorem C111_partial [DecidableEq ν] (process : Fitter → List ChargeArray → Nat → Except Err SpeStore) (mem : List (SpeRow μ) → Nat)
    (hmem : ∀ rows, rows ≠ [] → 0 < mem rows) (order : List String) (ho : order.Perm ["values", "errors", "arrays"]) (name : String)
    (make : Nat → Fitter) (col : String) (inputs : List (String × SpeInput μ ν)) (store : Store (SpeRow μ) (SpeObj ν))
    (h : extractSpe process mem order name make col inputs = .ok store) :
    ∃ initial d0, recordedInitial inputs.length (make inputs.length).coll.params = .ok initial ∧ inputs.head? = some d0 ∧
      SpeMetadata store name inputs initial ∧ fileField store "data" "metadata" "n_pixels" = some (.obj (.shape d0.2.nEvents d0.2.nPixels)) := by
  obtain ⟨d0, rest, charges, m, s, initial, r, md, hin, hc, hm, hs, -, hi, w2, -, -, w7, w8, w9, w10, w11, w12⟩ := extract_file_any hmem ho h
  refine ⟨initial, d0, hi, by rw [hin]; rfl, ⟨?_, ?_, ?_, ?_⟩, ?_⟩
  all_goals
    rw [fileField_of_metadata store r w2 md _ w7]
    assumption

/-- the claim about the number of pixels -/
def PixelCountRecorded : Prop :=
  ∀ (process : Fitter → List ChargeArray → Nat → Except Err SpeStore) (mem : List (SpeRow Nat) → Nat) (order : List String) (name : String)
    (make : Nat → Fitter) (col : String) (inputs : List (String × SpeInput Nat Nat)) (store : Store (SpeRow Nat) (SpeObj Nat)) (d0 : String × SpeInput Nat Nat),
    extractSpe process mem order name make col inputs = .ok store → inputs.head? = some d0 →
    fileField store "data" "metadata" "n_pixels" = some (.int d0.2.nPixels)

/-- the claim is false: the two events and two pixels of the first file are recorded as the pair -/
theorem C111_false : ¬ PixelCountRecorded := by
  intro h
  have hrun : ∃ store, twoRun = .ok store ∧ fileField store "data" "metadata" "n_pixels" = some (.obj (.shape 2 2)) := ⟨_, rfl, by decide +kernel⟩
  obtain ⟨store, h1, h2⟩ := hrun
  have := h (processPixels countEngine) (fun rows => rows.length) ["errors", "values", "arrays"] "Level" levelFitter "charge" twoInputs store _ h1 rfl
  rw [h2] at this
  cases this

end Verif.Props
