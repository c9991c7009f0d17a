import Verif.Model.QuickSpe
import Verif.Props.SpeFile

/-! # C148: the plot mode of `extract_spe` -/

namespace Verif.Props

open Verif.Py Verif.Model Verif.Spec Verif.Lemmas

variable {μ ν : Type}

theorem pixelAt_nat (a : ChargeArray) (p : Nat) : a.pixelAt (p : Int) = a.pixel p := by
  have h : ¬ ((p : Int) < 0) := by omega
  have h' : (0 : Int) ≤ p := by omega
  simp [ChargeArray.pixelAt, h, h']

theorem pixelAt_neg (a : ChargeArray) (k : Nat) (hk : 0 < k) :
    a.pixelAt (-(k : Int)) = if k ≤ a.nPixels then a.pixel (a.nPixels - k) else .error .indexError := by
  unfold ChargeArray.pixelAt
  have h : -(k : Int) < 0 := by omega
  simp only [if_pos h]
  by_cases h : k ≤ a.nPixels
  · rw [if_pos h, if_pos (by omega)]
    congr 1
    omega
  · rw [if_neg h, if_neg (by omega)]

/-- the decimal notation of the model is Lean's own -/
theorem decimal_toDigits (n : Nat) : decimal n = Nat.toDigits 10 n := by
  have key : ∀ fuel n, n < fuel → decimalAux fuel n = Nat.toDigits 10 n := by
    intro fuel
    induction fuel with
    | zero => intro n h; omega
    | succ fuel ih =>
      intro n h
      have hd : ∀ d < 10, digitChar d = Nat.digitChar d := by decide
      unfold decimalAux
      by_cases h10 : n < 10
      · rw [if_pos h10, Nat.toDigits_of_lt_base h10, hd n h10]
      · rw [if_neg h10, ih _ (by omega), Nat.toDigits_of_base_le (n := n) (by omega) (by omega), hd _ (by omega)]
  exact key (n + 1) n (by omega)

theorem speTitle_spec (name : String) (n : Nat) (pixel : Int) :
    String.ofList (speTitle name n pixel) = name ++ ", " ++ toString n ++ " Illuminations, Pixel=" ++ toString pixel := by
  have hi : toString pixel = String.ofList (if pixel < 0 then '-' :: decimal pixel.natAbs else decimal pixel.natAbs) := by
    rw [decimal_toDigits]
    cases pixel with
    | ofNat m =>
      have : ¬ (Int.ofNat m < 0) := not_lt.2 (Int.natCast_nonneg m)
      rw [if_neg this]
      show toString m = _
      rw [Nat.toString_eq_ofList_toDigits]
      rfl
    | negSucc m =>
      rw [if_pos (Int.negSucc_lt_zero m)]
      show "-" ++ Nat.repr (m + 1) = _
      rw [Nat.repr_eq_ofList_toDigits]
      apply String.toList_inj.1
      simp
  rw [hi, Nat.toString_eq_ofList_toDigits, ← decimal_toDigits]
  apply String.toList_inj.1
  simp [speTitle]

/-- the plot made from a fit -/
def plotOf (n : Nat) (name : String) (initial : Dict String ℚ) (fit : PixelFit) : Except Err SpePlots :=
  match (List.range n).mapM (speCurve fit.values fit.errors fit.arrays) with
  | .error e => .error e
  | .ok curves => match speTable initial fit.values fit.errors (Dict.keys fit.values) with
    | .error e => .error e
    | .ok t => .ok ⟨[], n, name, fit.arrays.histX, fit.arrays.edges, fit.arrays.fitX, curves, t⟩

theorem showPixel_spec (engine : FitEngine) (f : Fitter) (name : String) (initial : Dict String ℚ) (charges : List ChargeArray) (pixel : Int) (qs : List (List ℚ))
    (hq : charges.mapM (·.pixelAt pixel) = .ok qs) (plot : SpePlots) :
    showPixel engine f name initial charges pixel = .ok plot ↔ ∃ fit, FitOf engine f qs fit ∧ plotOf charges.length name initial fit = .ok plot := by
  unfold showPixel FitOf
  rw [hq]
  simp only
  rcases f.apply engine.minimise qs with ⟨g, rf⟩
  cases rf with
  | error e => simp
  | ok request =>
    simp only [Except.ok.injEq, exists_eq_left']
    cases readFit engine g request with
    | error e => simp
    | ok fit =>
      simp only [Except.ok.injEq, exists_eq_left', plotOf]
      exact Iff.rfl

theorem plotOf_shows (n : Nat) (name : String) (initial : Dict String ℚ) (fit : PixelFit) (plot : SpePlots) (h : plotOf n name initial fit = .ok plot) :
    Shows n name initial fit plot ∧ plot.images = [] := by
  unfold plotOf at h
  cases hcv : (List.range n).mapM (speCurve fit.values fit.errors fit.arrays) with
  | error e => rw [hcv] at h; cases h
  | ok curves => cases ht : speTable initial fit.values fit.errors (Dict.keys fit.values) with
    | error e => rw [hcv, ht] at h; cases h
    | ok t =>
      rw [hcv, ht] at h
      cases h
      obtain ⟨v1, v2⟩ := mapM_range_spec _ _ _ hcv
      obtain ⟨t1, t2⟩ := speTable_spec _ _ _ _ _ ht
      exact ⟨⟨rfl, rfl, rfl, rfl, rfl, v1, fun i c hcc => (speCurve_spec _ _ _ _ _).1 (v2 i c hcc), t1, t2⟩, rfl⟩

/-- the pixel of a camera of `n` pixels a number stands for -/
def pixelNumber (n : Nat) (pixel : Int) : Option Nat :=
  if 0 ≤ pixel then (if pixel < n then some pixel.natAbs else none) else if pixel.natAbs ≤ n then some (n - pixel.natAbs) else none

theorem pixelAt_number (d : SpeInput μ ν) (col : String) (a : ChargeArray) (h : d.charges col = .ok a) (pixel : Int) :
    a.pixelAt pixel = match pixelNumber d.nPixels pixel with
      | some p => .ok (pixelCharges d col p)
      | none => .error .indexError := by
  obtain ⟨h1, -, h3⟩ := charges_spec d col a h
  unfold pixelNumber
  rcases Int.le_total 0 pixel with hp | hp
  · obtain ⟨p, rfl⟩ := Int.eq_ofNat_of_zero_le hp
    rw [pixelAt_nat, if_pos hp]
    by_cases hlt : p < d.nPixels
    · rw [if_pos (by omega), h3 p hlt]
      rfl
    · rw [if_neg (by omega)]
      unfold ChargeArray.pixel
      rw [if_neg (by omega)]
  · by_cases h0 : pixel = 0
    · subst h0
      have e : a.pixelAt 0 = a.pixel 0 := pixelAt_nat a 0
      rw [e, if_pos (le_refl _)]
      by_cases hlt : 0 < d.nPixels
      · rw [if_pos (by omega), h3 0 hlt]
        rfl
      · rw [if_neg (by omega)]
        unfold ChargeArray.pixel
        rw [if_neg (by omega)]
    · rw [if_neg (by omega)]
      obtain ⟨k, hk⟩ : ∃ k, k = pixel.natAbs := ⟨_, rfl⟩
      have e : pixel = -(k : Int) := by omega
      rw [← hk, e, pixelAt_neg a k (by omega), h1]
      by_cases hle : k ≤ d.nPixels
      · rw [if_pos hle, if_pos hle, h3 _ (by omega)]
      · rw [if_neg hle, if_neg hle]

theorem mapM_pixelAt (col : String) (pixel : Int) (inputs : List (SpeInput μ ν)) (charges : List (Nat × ChargeArray))
    (h : List.Forall₂ (fun d (c : Nat × ChargeArray) => c.1 = d.nEvents ∧ d.charges col = .ok c.2) inputs charges) :
    (∀ ps, inputs.map (fun d => pixelNumber d.nPixels pixel) = ps.map some →
      (charges.map (·.2)).mapM (·.pixelAt pixel) = .ok (List.zipWith (fun d p => pixelCharges d col p) inputs ps)) ∧
    ((∃ d ∈ inputs, pixelNumber d.nPixels pixel = none) → (charges.map (·.2)).mapM (·.pixelAt pixel) = .error .indexError) := by
  induction h with
  | nil =>
    refine ⟨fun ps _ => rfl, ?_⟩
    rintro ⟨d, hd, -⟩
    cases hd
  | @cons d c ds cs hd hds ih =>
    rw [List.map_cons (f := fun x : Nat × ChargeArray => x.2), List.mapM_cons, pixelAt_number d col c.2 hd.2 pixel]
    constructor
    · intro ps hps
      cases ps with
      | nil => cases hps
      | cons p ps =>
        rw [List.map_cons, List.map_cons] at hps
        obtain ⟨e1, e2⟩ := List.cons.inj hps
        rw [e1]
        simp only
        rw [ih.1 ps e2]
        rfl
    · rintro ⟨x, hx, hn⟩
      cases hp : pixelNumber d.nPixels pixel with
      | none => rfl
      | some p =>
        rcases List.mem_cons.1 hx with rfl | hx
        · rw [hp] at hn
          cases hn
        · simp only
          rw [ih.2 ⟨x, hx, hn⟩]
          rfl

/-- C148: what the plot mode shows is the fit to the charges of the chosen pixel on its own, with the title naming the number as it was given. A number below
zero counts from the last pixel, in every file from its own. Nothing is written; without the option a file is all there is. -/
theorem C148_shows (engine : FitEngine) (process : Fitter → List ChargeArray → Nat → Except Err SpeStore) (mem : List (SpeRow μ) → Nat) (order : List String)
    (name : String) (make : Nat → Fitter) (col : String) (inputs : List (String × SpeInput μ ν)) (option : Option Int) (o : SpeOutcome μ ν)
    (h : extractSpeMain engine process mem order name make col inputs option = .ok o) :
    (∀ pixel, option = some pixel → ∃ title plot ps fit initial, o = .shown title plot ∧
      String.ofList title = name ++ ", " ++ toString inputs.length ++ " Illuminations, Pixel=" ++ toString pixel ∧
      inputs.map (fun d => pixelNumber d.2.nPixels pixel) = ps.map some ∧
      FitOf engine (make inputs.length) (List.zipWith (fun d p => pixelCharges d.2 col p) inputs ps) fit ∧
      recordedInitial inputs.length (make inputs.length).coll.params = .ok initial ∧ Shows inputs.length name initial fit plot ∧ plot.images = []) ∧
    (option = none → ∃ store, o = .written store ∧ extractSpe process mem order name make col inputs = .ok store) := by
  constructor
  · rintro pixel rfl
    unfold extractSpeMain at h
    cases hr : readInputs col (inputs.map (·.2)) none with
    | error e => rw [hr] at h; cases h
    | ok x =>
      obtain ⟨charges, mapping⟩ := x
      rw [hr] at h
      simp only at h
      obtain ⟨f1, -, -⟩ := readInputs_spec col _ _ _ _ hr
      have hlen : charges.length = inputs.length := by rw [← f1.length_eq, List.length_map]
      rw [hlen] at h
      cases hi : recordedInitial inputs.length (make inputs.length).coll.params with
      | error e => rw [hi] at h; cases h
      | ok initial =>
        rw [hi] at h
        simp only at h
        obtain ⟨k1, k2⟩ := mapM_pixelAt col pixel _ charges f1
        cases hs : showPixel engine (make inputs.length) name initial (charges.map (·.2)) pixel with
        | error e => rw [hs] at h; cases h
        | ok plot =>
          rw [hs] at h
          cases h
          have hall : ∀ d ∈ inputs, pixelNumber d.2.nPixels pixel ≠ none := by
            intro d hd hnone
            have := k2 ⟨d.2, List.mem_map.2 ⟨d, hd, rfl⟩, hnone⟩
            unfold showPixel at hs
            rw [this] at hs
            cases hs
          obtain ⟨ps, hps⟩ : ∃ ps : List Nat, inputs.map (fun d => pixelNumber d.2.nPixels pixel) = ps.map some := by
            refine ⟨inputs.map fun d => (pixelNumber d.2.nPixels pixel).getD 0, ?_⟩
            rw [List.map_map]
            refine List.map_congr_left fun d hd => ?_
            have := hall d hd
            cases hx : pixelNumber d.2.nPixels pixel with
            | none => exact absurd hx this
            | some p => simp [hx]
          have hq := k1 ps (by rw [List.map_map]; exact hps)
          obtain ⟨fit, g1, g2⟩ := (showPixel_spec engine _ name initial _ pixel _ hq plot).1 hs
          rw [List.length_map, hlen] at g2
          obtain ⟨s1, s2⟩ := plotOf_shows _ _ _ _ _ g2
          rw [List.zipWith_map_left] at g1
          exact ⟨_, plot, ps, fit, initial, rfl, speTitle_spec name inputs.length pixel, hps, g1, rfl, s1, s2⟩
  · rintro rfl
    unfold extractSpeMain at h
    cases hs : extractSpe process mem order name make col inputs with
    | error e => rw [hs] at h; cases h
    | ok store =>
      rw [hs] at h
      cases h
      exact ⟨store, rfl, rfl⟩

/-- C148: a number that is no pixel of one of the files raises `IndexError`, once the files have been read. -/
theorem C148_no_pixel (engine : FitEngine) (process : Fitter → List ChargeArray → Nat → Except Err SpeStore) (mem : List (SpeRow μ) → Nat) (order : List String)
    (name : String) (make : Nat → Fitter) (col : String) (inputs : List (String × SpeInput μ ν)) (pixel : Int)
    (hread : ∀ d ∈ inputs, ∃ a, d.2.charges col = .ok a) (hmap : ∀ d ∈ inputs.head?, ∃ m, d.2.mapping = .ok m)
    (hinit : ∃ initial, recordedInitial inputs.length (make inputs.length).coll.params = .ok initial)
    (h : ∃ d ∈ inputs, (d.2.nPixels : Int) ≤ pixel ∨ pixel < -(d.2.nPixels : Int)) :
    extractSpeMain engine process mem order name make col inputs (some pixel) = .error .indexError := by
  have hok : ∀ (ds : List (SpeInput μ ν)) (m : List μ × MetaDict (SpeObj ν)), (∀ d ∈ ds, ∃ a, d.charges col = .ok a) → ∃ x, readInputs col ds (some m) = .ok x := by
    intro ds m
    induction ds with
    | nil => exact fun _ => ⟨_, rfl⟩
    | cons d ds ih =>
      intro hd
      obtain ⟨a, ha⟩ := hd d (by simp)
      obtain ⟨x, hx⟩ := ih fun d hd' => hd d (by simp [hd'])
      exact ⟨_, by simp only [readInputs, ha, hx]; rfl⟩
  obtain ⟨⟨charges, mapping⟩, hr⟩ : ∃ x, readInputs col (inputs.map (·.2)) none = .ok x := by
    cases inputs with
    | nil => exact ⟨_, rfl⟩
    | cons d0 rest =>
      obtain ⟨m, hm⟩ := hmap d0 rfl
      obtain ⟨a, ha⟩ := hread d0 (by simp)
      obtain ⟨x, hx⟩ := hok (rest.map (·.2)) m (by
        intro d hd
        obtain ⟨y, hy, rfl⟩ := List.mem_map.1 hd
        exact hread y (by simp [hy]))
      exact ⟨_, by simp only [List.map_cons, readInputs, ha, hm, hx]; rfl⟩
  obtain ⟨f1, -, -⟩ := readInputs_spec col _ _ _ _ hr
  have hlen : charges.length = inputs.length := by rw [← f1.length_eq, List.length_map]
  obtain ⟨initial, hi⟩ := hinit
  obtain ⟨d, hd, hp⟩ := h
  have hn := (mapM_pixelAt col pixel _ charges f1).2 ⟨d.2, List.mem_map.2 ⟨d, hd, rfl⟩, by
    unfold pixelNumber
    rcases hp with hp | hp
    · rw [if_pos (by omega), if_neg (by omega)]
    · rw [if_neg (by omega), if_neg (by omega)]⟩
  unfold extractSpeMain
  simp only [hr, hlen, hi]
  unfold showPixel
  rw [hn]

theorem forall₂_charges_unique (col : String) (inputs : List (SpeInput μ ν)) (a b : List (Nat × ChargeArray))
    (ha : List.Forall₂ (fun d (c : Nat × ChargeArray) => c.1 = d.nEvents ∧ d.charges col = .ok c.2) inputs a)
    (hb : List.Forall₂ (fun d (c : Nat × ChargeArray) => c.1 = d.nEvents ∧ d.charges col = .ok c.2) inputs b) : a = b := by
  induction ha generalizing b with
  | nil => cases hb; rfl
  | @cons d c ds cs hd _ ih =>
    cases hb with
    | @cons _ c' _ cs' hd' hds' =>
      rw [ih cs' hds']
      obtain ⟨c1, c2⟩ := c
      obtain ⟨c1', c2'⟩ := c'
      obtain ⟨e1, e2⟩ := hd
      obtain ⟨e1', e2'⟩ := hd'
      simp only at e1 e1' e2 e2'
      rw [e2] at e2'
      cases e2'
      rw [e1, e1']

/-- C148: once the run without the option has succeeded, with any number of processes, the plot mode shows for every pixel exactly what `plot_spe` draws from the
file. -/
theorem C148_agrees [DecidableEq ν] (engine : FitEngine) (process : Fitter → List ChargeArray → Nat → Except Err SpeStore) (mem : List (SpeRow μ) → Nat)
    (hmem : ∀ rows, rows ≠ [] → 0 < mem rows) (order : List String) (ho : order.Perm ["values", "errors", "arrays"]) (name : String)
    (make : Nat → Fitter) (col : String) (inputs : List (String × SpeInput μ ν)) (store : Store (SpeRow μ) (SpeObj ν))
    (hp : ∀ f charges n s, process f charges n = .ok s → Scheduled engine f charges n s) (hf : ∀ n, (make n).coll.lookupTyped.2 = (make n).coll.prep.lookup)
    (h : extractSpeMain engine process mem order name make col inputs none = .ok (.written store)) (hsz : SmallTables store) :
    ∃ r, openReader store = .ok r ∧ ∀ (pixel : Nat) plots, plotSpe r pixel = .ok plots →
      ∃ title, extractSpeMain engine process mem order name make col inputs (some (pixel : Int)) = .ok (.shown title { plots with images := [] }) := by
  obtain ⟨store', e, h⟩ := (C148_shows engine process mem order name make col inputs none _ h).2 rfl
  cases e
  have hread : ∃ x, readInputs col (inputs.map (·.2)) none = .ok x := by
    unfold extractSpe at h
    cases hr : readInputs col (inputs.map (·.2)) none with
    | error e => rw [hr] at h; cases h
    | ok x => exact ⟨x, rfl⟩
  obtain ⟨⟨charges', mapping⟩, hr⟩ := hread
  obtain ⟨f1, -, -⟩ := readInputs_spec col _ _ _ _ hr
  obtain ⟨d0, rest, charges, m, s, initial, r, md, hin, hc, hm, hs, -, hi, w2, w3, w4, w5, w6, w7, w8, w9, w10, w11, w12⟩ := extract_file hmem ho h hsz
  have := forall₂_charges_unique col _ _ _ f1 hc
  subst this
  have hlen : charges'.length = inputs.length := by rw [← f1.length_eq, List.length_map]
  have hplot := plot_spec w3 w4 w5 w6 w7 w9 w10 w12
  obtain ⟨chunks, fits, events, c1, c2, c3, rfl⟩ := hp _ _ _ _ hs
  obtain ⟨k1, k2, -⟩ := C65_partial engine _ (hf _) _ _ chunks c1 fits c2 events c3
  simp only [rowOf_eq] at k1 k2
  refine ⟨r, w2, fun pixel plots hpl => ⟨speTitle name inputs.length pixel, ?_⟩⟩
  rw [hplot] at hpl
  cases himg : (recordColumns (events.foldl SpeStore.step {}).values).mapM
      (speImage (m.1.map SpeRow.mapping).length (events.foldl SpeStore.step {}).values (events.foldl SpeStore.step {}).errors) with
  | error e => rw [himg] at hpl; cases hpl
  | ok images =>
    rw [himg] at hpl
    simp only at hpl
    by_cases hpix : pixel < d0.2.nPixels
    · obtain ⟨fit, a1, a2, a3, a4⟩ := k1 pixel hpix
      rw [a2, a3, a4] at hpl
      simp only at hpl
      have hq : ∃ qs, (charges'.map (·.2)).mapM (·.pixelAt (pixel : Int)) = .ok qs ∧ FitOf engine (make inputs.length) qs fit := by
        have hfun : (fun a : ChargeArray => a.pixelAt (pixel : Int)) = fun a => a.pixel pixel := funext fun a => pixelAt_nat a pixel
        rw [hfun]
        unfold applyPixel at a1
        cases hq : (charges'.map (·.2)).mapM (·.pixel pixel) with
        | error e => rw [hq] at a1; cases a1
        | ok qs =>
          rw [hq] at a1
          simp only at a1
          refine ⟨qs, rfl, ?_⟩
          unfold FitOf
          revert a1
          rcases (make inputs.length).apply engine.minimise qs with ⟨g, rf⟩
          intro a1
          cases rf with
          | error e => cases a1
          | ok request => exact ⟨request, rfl, a1⟩
      obtain ⟨qs, hq, hfit⟩ := hq
      have hshow : showPixel engine (make inputs.length) name initial (charges'.map (·.2)) (pixel : Int) = .ok { plots with images := [] } := by
        rw [showPixel_spec engine _ name initial _ _ qs hq]
        refine ⟨fit, hfit, ?_⟩
        rw [List.length_map, hlen]
        unfold plotOf
        cases hcv : (List.range inputs.length).mapM (speCurve fit.values fit.errors fit.arrays) with
        | error e => rw [hcv] at hpl; cases hpl
        | ok curves => cases ht : speTable initial fit.values fit.errors (Dict.keys fit.values) with
          | error e => rw [hcv, ht] at hpl; cases hpl
          | ok t =>
            rw [hcv, ht] at hpl
            cases hpl
            rfl
      unfold extractSpeMain
      simp only [hr, hlen, hi, hshow]
    · rw [(k2 pixel (by omega)).1] at hpl
      cases hpl

/-- the plot mode on the two files of `twoInputs` -/
def twoShown (pixel : Int) : Except Err (SpeOutcome Nat Nat) :=
  extractSpeMain countEngine (processPixels countEngine) (fun rows => rows.length) ["errors", "values", "arrays"] "Level" levelFitter "charge" twoInputs (some pixel)

/-- its table for pixel 1, which is also the last one -/
example : ∀ pixel ∈ [(1 : Int), -1], ∃ title plot, twoShown pixel = .ok (.shown title plot) ∧
    plot.table = [("eped", 1, 0, 2), ("lambda_0", 3, 0, 2), ("lambda_1", 3, 0, 2)] := by
  intro pixel hp
  simp only [List.mem_cons, List.not_mem_nil, or_false] at hp
  rcases hp with rfl | rfl
  · exact ⟨_, _, rfl, by decide +kernel⟩
  · exact ⟨_, _, rfl, by decide +kernel⟩

/-- there is no pixel 2 -/
example : twoShown 2 = .error .indexError := by rfl

end Verif.Props
